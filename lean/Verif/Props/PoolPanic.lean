import Verif.Props.Pool5
import Verif.Props.PoolChoices
import Verif.Props.Deferred

/-!
# Panics with the lock of a pool held (C104)

`OpenPool` and `Close` of a pool unlock in deferred calls (driver.go:129, 161), which also run in a panic. Nothing else is put
back.
-/

namespace Bolt.Pooling
open Bolt

variable {max : Nat} {s t u : State}

/-! ## They happen -/

/-- `panics` at driver.go:133: the server agrees on a version and answers INIT with bytes on which the decoder panics.
`Close` is not called. -/
theorem init_panics (b : Bool) : ∃ p w, initConn pooledClose (authToken [] []) (sock [[0, 0, 0, 1], [0, 2, 0xD4, 0x80, 0, 0]] .eof) b = .panic p w ∧ closes' w.log = 0 := by
  obtain ⟨p, w, h1, h2⟩ := Out.of_panicTest (o := initConn pooledClose (authToken [] []) (sock [[0, 0, 0, 1], [0, 2, 0xD4, 0x80, 0, 0]] .eof) b)
    (p := fun w => closes' w.log == 0) (by cases b <;> decide +kernel)
  exact ⟨p, w, h1, by simpa using h2⟩

/-- `closePanics` at driver.go:165: a client has a prepared statement with open rows; `Close` drains them (stmt.go:64), and the
server sends bytes on which the decoder panics. -/
theorem close_panics : ∃ w0 w p w', (Op.prepare "RETURN 1".toUTF8.toList).run script (closeN script 1) (scriptConn [[.val (.success [])], [.boom .typeAssert]]) = .ok none w0 ∧
    (Op.stQuery 0 []).run script (closeN script 1) w0 = .ok none w ∧ closeN script 1 w = .panic p w' ∧ w'.closed = false := by
  obtain ⟨r, w0, h1, h2⟩ := Out.of_test (o := (Op.prepare "RETURN 1".toUTF8.toList).run script (closeN script 1) (scriptConn [[.val (.success [])], [.boom .typeAssert]]))
    (p := fun r w => r.isNone && ((Op.stQuery 0 []).run script (closeN script 1) w).test fun r w => r.isNone && (closeN script 1 w).panicTest fun w => !w.closed) (by decide +kernel)
  obtain ⟨h3, h4⟩ := Bool.and_eq_true_iff.mp h2
  obtain ⟨r', w, h5, h6⟩ := Out.of_test h4
  obtain ⟨h7, h8⟩ := Bool.and_eq_true_iff.mp h6
  obtain ⟨p, w', h9, h10⟩ := Out.of_panicTest h8
  cases r with
  | some e => cases h3
  | none =>
    cases r' with
    | some e => cases h7
    | none => exact ⟨w0, w, p, w', h1, h5, h9, by simpa using h10⟩

/-! ## The lock -/

/-- C104: whatever happens, no call that has come to its end, by a return or by a panic, keeps the lock; a call that panics
needs one more step, which it can always make, to give it back. So the calls of other clients can take it. -/
theorem c104_lock (h : Reach .any (.init max) s) :
    ((∀ pc ∈ s.calls, ∃ r, pc = .done r) → s.pool.lock = false) ∧
    (∀ i ch, s.calls[i]? = some .panicking → s.pool.lock = true ∧ ∃ u, s.next (.run i ch) = some u ∧ u.pool.lock = false ∧ u.calls[i]? = some (.done .panicked)) := by
  have hl := (locked_reach (locked_init max) h).one
  refine ⟨fun hd => ?_, fun i ch hi => ⟨?_, ?_⟩⟩
  · rw [List.countP_eq_zero.mpr fun pc hm => by obtain ⟨r, rfl⟩ := hd pc hm; simp [PC.holds]] at hl
    cases e : s.pool.lock with
    | false => rfl
    | true => rw [e] at hl; cases hl
  · have : 0 < s.calls.countP PC.holds := List.countP_pos_iff.mpr ⟨_, List.mem_of_getElem? hi, rfl⟩
    cases e : s.pool.lock with
    | true => rfl
    | false => rw [e] at hl; simp only [Bool.toNat_false] at hl; omega
  · exact ⟨_, by simp only [State.next, hi, step]; rfl, rfl, getElem?_set_self' hi⟩

/-- `OpenPool` that panics, as call number `i`. -/
def openPanic (i : Nat) : List Act := [.call .openPool, .run i .go, .run i .go, .run i .go, .run i .panics, .run i .go]

/-- C104 at work: after a panic another client gets a connection. -/
example : (after 2 (openPanic 0 ++ openNew 1)).calls = [.done .panicked, .done (.opened 1)] := by decide

/-! ## The slots -/

/-- As `disciplined`, and the pool is not closed. -/
def Rules.opens : Rules := ⟨fun p k => Rules.disciplined.call p k ∧ k ≠ .poolClose, Rules.disciplined.run⟩

/-- The calls of `Close` of the pool. -/
def PC.poolish : PC → Bool
  | .poolClosing | .poolClose _ | .poolCloseConn _ _ | .poolClosed _ => true
  | _ => false

theorem tr_poolish {p p' : Pool} {ch : Choice} {pc pc' : PC} (h : Tr p ch pc p' pc') (hp : pc.poolish = false) : pc'.poolish = false := by
  cases h <;> first | rfl | cases hp

/-- A step outside `Close` of the pool loses a slot exactly when it panics. -/
theorem tr_lose {p p' : Pool} {ch : Choice} {pc pc' : PC} (h : Tr p ch pc p' pc') (hp : pc.poolish = false) (hs : size p' pc' ≤ size p pc) :
    size p' pc' + pc'.lost ≤ size p pc + pc.lost := by
  cases h with
  | initPanic => simp only [size, PC.size, PC.lost]; omega
  | poolPanic => cases hp
  | _ => simp only [PC.lost]; omega

theorem opens_inv (h : Reach .opens (.init max) s) :
    (Own s ∧ Slots s) ∧ (∀ pc ∈ s.calls, pc.poolish = false) ∧ Clean s.pool ∧ sizes s + tot PC.lost s.calls ≤ s.pool.max := by
  refine h.inv (I := fun s => (Own s ∧ Slots s) ∧ (∀ pc ∈ s.calls, pc.poolish = false) ∧ Clean s.pool ∧ sizes s + tot PC.lost s.calls ≤ s.pool.max)
    ⟨⟨own_init max, slots_init max⟩, fun _ h => (by cases h), fun _ _ => ⟨rfl, rfl⟩, ?_⟩ ?_ ?_
  · have := (slots_init max).len; simpa [State.init, tot_nil] using this
  · rintro p calls k ⟨⟨i1, i2⟩, i3, i4, i5⟩ ⟨hk, hne⟩ hl
    have hs := slots_call (k := k) hk i2
    refine ⟨⟨own_call hl i1, hs⟩, fun pc hm => ?_, ?_, ?_⟩
    · rcases List.mem_append.mp hm with hm | hm
      · exact i3 pc hm
      · rw [List.mem_singleton.mp hm]
        cases k <;> first | rfl | exact absurd rfl hne
    · cases k with
      | use c e n =>
        refine clean_conns (p := p) rfl (fun d => ?_) i4
        unfold Call.start upd; simp only; split
        · next e => subst e; exact ⟨rfl, rfl⟩
        · exact ⟨rfl, rfl⟩
      | _ => exact i4
    · have hlost : (k.start p).2.lost = 0 := by cases k <;> rfl
      have hm : (k.start p).1.max = p.max := by cases k <;> rfl
      have hz : sizes ⟨(k.start p).1, calls ++ [(k.start p).2]⟩ = sizes ⟨p, calls⟩ := by
        have e : size (k.start p).1 (k.start p).2 = p.chan.length + p.out.length := by
          cases k with
          | close c =>
            have hc : c ∈ p.out := hk
            simp only [Call.start, size, PC.size]
            have := List.length_pos_of_mem hc
            rw [List.length_erase_of_mem hc]; omega
          | _ => rfl
        unfold sizes; unfold size at e
        simp only [tot_mid, tot_nil]
        omega
      simp only [hm, hz, tot_mid, tot_nil, hlost] at i5 ⊢
      omega
  · rintro p pre pc post ch p' pc' ⟨⟨i1, i2⟩, i3, i4, i5⟩ hr hs
    have htr := tr hs
    have hpc := i3 pc (mem_mid.mpr (.inl rfl))
    refine ⟨⟨own_step htr i1, slots_step htr hr i1 i2⟩, fun q hm => ?_, ?_, ?_⟩
    · rcases mem_mid.mp hm with rfl | hm
      · exact tr_poolish htr hpc
      · exact i3 q (mem_mid.mpr (.inr hm))
    · rcases clean_step htr (mine_lt i1) i4 with h | h
      · exact h
      · have := tr_poolish htr hpc
        cases pc' <;> simp [PC.inClose, PC.poolish] at h this
    · obtain ⟨-, g2, g3⟩ := tr_slots htr (i2.tame pc (mem_mid.mpr (.inl rfl))) hr fun c hc => by
        rcases hc with hc | hc
        · refine Nat.lt_of_not_le fun hn => ?_
          have := i2.fresh c hn
          rw [toks_mid] at this
          unfold loc at this
          omega
        · exact given_lt i1 (i1.works pc (mem_mid.mpr (.inl rfl)) c hc)
      have hle : size p' pc' ≤ size p pc := by
        rcases g3 with g | ⟨x, _, _, m, _⟩
        · exact g.size
        · omega
      have := tr_lose htr hpc hle
      rw [sizes_mid] at i5 ⊢
      simp only [g2, tot_mid] at i5 ⊢
      omega

/-- C104: each panic in `OpenPool` costs exactly one slot: as long as the pool is not closed and when no call is in progress,
the connections in the pool, those handed out, and the calls that panicked make up the maximum. Missing: that it costs
none, see `c104_false`. -/
theorem c104_slots_partial (h : Reach .opens (.init max) s) (hd : ∀ pc ∈ s.calls, ∃ r, pc = .done r) :
    s.pool.chan.length + s.pool.out.length + s.calls.countP (fun pc => decide (pc = .done .panicked)) = max := by
  obtain ⟨⟨_, i2⟩, _, i4, i5⟩ := opens_inv h
  have i6 := i2.full i4
  rw [max_of h] at i5 i6
  have hz : tot PC.size s.calls = 0 ∧ tot PC.lost s.calls = s.calls.countP (fun pc => decide (pc = .done .panicked)) := by
    generalize s.calls = l at hd
    induction l with
    | nil => exact ⟨rfl, rfl⟩
    | cons pc l ih =>
      have e : ∀ f : PC → Nat, tot f (pc :: l) = tot f l + f pc := fun f => by have := tot_mid f [] l pc; simp [tot_nil] at this; simpa using this
      obtain ⟨j1, j2⟩ := ih fun q hq => hd q (List.mem_cons_of_mem _ hq)
      obtain ⟨r, rfl⟩ := hd pc (List.mem_cons_self)
      rw [e, e, j1, j2, List.countP_cons]
      cases r <;> simp [PC.size, PC.lost]
  unfold sizes at i5 i6
  omega

/-- C104 at work: a panic, an open connection, and one slot left of three. -/
example : (after 3 (openPanic 0 ++ openNew 1)).pool.chan = [2] ∧ (after 3 (openPanic 0 ++ openNew 1)).pool.out = [1] := by decide

/-! ## Where it ends -/

/-- A pool whose connections have all been lost, with `n` sockets open. -/
structure Lost (n m : Nat) (p : Pool) : Prop where
  max : p.max = n + m
  chan : p.chan = (List.range m).map (· + n)
  lock : p.lock = false
  closed : p.closed = false
  fresh : ∀ c, n ≤ c → p.conns c = PConn.fresh
  shut : ∀ k, p.shut k = false
  out : p.out = []
  handed : p.handed = []
  socks : p.nSocks = n
  refs : p.refs = []

theorem lost_next {n m : Nat} {p : Pool} {calls : List PC} (h : Lost n (m + 1) p) :
    ∃ p', Lost (n + 1) m p' ∧ Reach .client ⟨p, calls⟩ ⟨p', calls ++ [.done .panicked]⟩ := by
  obtain ⟨h1, h2, h3, h4, h5, h6, h7, h8, h9, h10⟩ := h
  have h2' : p.chan = n :: (List.range m).map (· + (n + 1)) := by
    rw [h2, List.range_succ_eq_map]
    simp only [List.map_cons, List.map_map, Nat.zero_add, List.cons.injEq, true_and]
    exact List.map_congr_left fun a _ => by simp only [Function.comp, Nat.succ_eq_add_one]; omega
  have o0 : Reach .client ⟨p, calls⟩ ⟨p, calls ++ [.opening]⟩ := .call (k := .openPool) .refl rfl (by simp [State.next, Call.legal, Call.start])
  have o1 : Reach .client ⟨p, calls ++ [.opening]⟩ ⟨{ p with lock := true }, calls ++ [.locked]⟩ := reach_step (ch := .go) trivial (by simp [step, h3])
  have o2 : Reach .client ⟨{ p with lock := true }, calls ++ [.locked]⟩ ⟨{ p with lock := true }, calls ++ [.receiving]⟩ := reach_step (ch := .go) trivial (by simp [step, h4])
  have o3 : Reach .client ⟨{ p with lock := true }, calls ++ [.receiving]⟩ ⟨{ p with lock := true, chan := (List.range m).map (· + (n + 1)) }, calls ++ [.received n]⟩ :=
    reach_step (ch := .go) trivial (by simp only [step, h2'])
  let q : Pool := { p with lock := true, chan := (List.range m).map (· + (n + 1)), conns := upd p.conns n { p.conns n with sock := some p.nSocks }, nSocks := p.nSocks + 1 }
  have hnil : nilOrClosed { p with lock := true, chan := (List.range m).map (· + (n + 1)) } n = true := by simp [nilOrClosed, h5 n (Nat.le_refl _), PConn.fresh]
  have o4 : Reach .client ⟨{ p with lock := true, chan := (List.range m).map (· + (n + 1)) }, calls ++ [.received n]⟩ ⟨q, calls ++ [.panicking]⟩ :=
    reach_step (ch := .panics) trivial (by simp only [step, hnil, if_true]; rfl)
  have o5 : Reach .client ⟨q, calls ++ [.panicking]⟩ ⟨{ q with lock := false }, calls ++ [.done .panicked]⟩ := reach_step (ch := .go) trivial rfl
  refine ⟨{ q with lock := false }, ⟨by simp only [q, h1]; omega, rfl, rfl, h4, fun c hc => ?_, h6, h7, h8, by simp only [q, h9], h10⟩, o0.trans (o1.trans (o2.trans (o3.trans (o4.trans o5))))⟩
  simp only [q]
  rw [upd_other _ _ (by omega)]
  exact h5 c (by omega)

theorem lost_all (n m : Nat) : ∃ s, Reach .client (.init (n + m)) s ∧ Lost n m s.pool ∧ s.calls = List.replicate n (.done .panicked) := by
  induction n generalizing m with
  | zero =>
    refine ⟨.init (0 + m), .refl, ⟨rfl, ?_, rfl, rfl, fun _ _ => rfl, fun _ => rfl, rfl, rfl, rfl, rfl⟩, rfl⟩
    simp [State.init, Pool.new]
  | succ n ih =>
    obtain ⟨⟨p, calls⟩, h1, h2, h3⟩ := ih (m + 1)
    obtain ⟨p', h4, h5⟩ := lost_next (calls := calls) h2
    refine ⟨⟨p', calls ++ [.done .panicked]⟩, ?_, h4, ?_⟩
    · have e : n + 1 + m = n + (m + 1) := by omega
      rw [e]; exact h1.trans h5
    · simp only at h3
      simp only [h3]
      rw [← List.replicate_succ']

/-- C104 is false: after as many panics in `OpenPool` as the pool has slots, the next `OpenPool` waits for ever with the lock,
and in every continuation, whatever clients do, no later call on the pool returns, `Close` of the pool included; no
connection is handed out, and the sockets that were opened stay open. -/
theorem c104_false (max : Nat) : ∃ s, Reach .client (.init max) s ∧ s.calls = List.replicate max (.done .panicked) ++ [.receiving] ∧
    ∀ t, Reach .any s t → Stuck t max ∧ (∀ i, max ≤ i → ∀ r, t.calls[i]? ≠ some (.done r)) ∧ t.pool.handed = [] ∧
      t.pool.nSocks = max ∧ ∀ k, t.pool.shut k = false := by
  obtain ⟨⟨p, calls⟩, h1, ⟨e1, e2, e3, e4, e5, e6, e7, e8, e9, e10⟩, h3⟩ := lost_all max 0
  simp only at h3 e1 e2 e3 e4 e5 e6 e7 e8 e9 e10
  subst h3
  let calls := List.replicate max (PC.done .panicked)
  have o0 : Reach .client ⟨p, calls⟩ ⟨p, calls ++ [.opening]⟩ := .call (k := .openPool) .refl rfl (by simp [State.next, Call.legal, Call.start])
  have o1 : Reach .client ⟨p, calls ++ [.opening]⟩ ⟨{ p with lock := true }, calls ++ [.locked]⟩ := reach_step (ch := .go) trivial (by simp [step, e3])
  have o2 : Reach .client ⟨{ p with lock := true }, calls ++ [.locked]⟩ ⟨{ p with lock := true }, calls ++ [.receiving]⟩ := reach_step (ch := .go) trivial (by simp [step, e4])
  refine ⟨⟨{ p with lock := true }, calls ++ [.receiving]⟩, h1.trans (o0.trans (o1.trans o2)), rfl, fun t ht => ?_⟩
  -- the pool does not change any more, and all later calls are before the lock
  have key := ht.inv (I := fun t => t.pool = { p with lock := true } ∧ ∃ rest, t.calls = calls ++ .receiving :: rest ∧ ∀ pc ∈ rest, pc = .opening ∨ pc = .poolClosing)
    ⟨rfl, [], rfl, fun _ h => by cases h⟩ ?_ ?_
  · obtain ⟨k1, rest, k2, k3⟩ := key
    have hlen : calls.length = max := List.length_replicate
    refine ⟨fun ch => ?_, fun i hi r hr => ?_, by rw [k1]; exact e8, by rw [k1]; exact e9, by rw [k1]; exact e6⟩
    · have : t.calls[max]? = some .receiving := by rw [k2, ← hlen]; simp
      simp only [State.next, this, k1, step, e2, List.range_zero, List.map_nil]
    · rw [k2, List.getElem?_append_right (by omega), hlen] at hr
      cases hj : i - max with
      | zero => rw [hj] at hr; simp at hr
      | succ j =>
        rw [hj] at hr
        simp only [List.getElem?_cons_succ] at hr
        rcases k3 _ (List.mem_of_getElem? hr) with h | h <;> cases h
  · rintro q calls' k ⟨rfl, rest, k2, k3⟩ _ hl
    simp only at k2
    subst k2
    have hk : k = .openPool ∨ k = .poolClose := by
      cases k with
      | openPool => exact .inl rfl
      | poolClose => exact .inr rfl
      | close c => simp only [Call.legal, e8] at hl; cases hl
      | use c e n => simp only [Call.legal, e8] at hl; cases hl
    refine ⟨by rcases hk with rfl | rfl <;> rfl, rest ++ [(k.start { p with lock := true }).2], by simp, fun pc hm => ?_⟩
    rcases List.mem_append.mp hm with hm | hm
    · exact k3 pc hm
    · rw [List.mem_singleton.mp hm]
      rcases hk with rfl | rfl
      · exact .inl rfl
      · exact .inr rfl
  · rintro q pre pc post ch p' pc' ⟨k1, rest, k2, k3⟩ _ hs
    simp only at k1 k2
    subst k1
    exfalso
    have hm : pc ∈ calls ++ .receiving :: rest := by rw [← k2]; simp
    have : pc = .done .panicked ∨ pc = .receiving ∨ pc = .opening ∨ pc = .poolClosing := by
      rcases List.mem_append.mp hm with hm | hm
      · exact .inl (List.mem_replicate.mp hm).2
      · rcases List.mem_cons.mp hm with hm | hm
        · exact .inr (.inl hm)
        · exact .inr (.inr (k3 pc hm))
    rcases this with rfl | rfl | rfl | rfl
    · cases hs
    · simp only [step, e2, List.range_zero, List.map_nil] at hs; cases hs
    · simp [step] at hs
    · simp [step] at hs

/-- C104 is false for `Close` of the pool: after a panic the pool is not closed, and `OpenPool` opens another connection. The
one on which it panicked keeps its socket, and is no longer returned to the pool when its client closes it. -/
theorem c104_close_false : ∃ s t, Reach .client (.init 2) s ∧ s.calls = [.done (.opened 0), .poolCloseConn 0 []] ∧ Reach .client s t ∧
    t.calls = [.done (.opened 0), .done .panicked, .done (.opened 1), .done (.closed true)] ∧ t.pool.nSocks = 2 ∧ t.pool.chan = [] ∧ t.pool.out = [1] := by
  let s := after 2 (openNew 0 ++ [.call .poolClose, .run 1 .go, .run 1 .go])
  let as : List Act := [.run 1 .closePanics, .run 1 .go] ++ openNew 2 ++ [.call (.close 0), .run 3 .go]
  obtain ⟨t, ht, hr⟩ := reach_client (s := s) (as := as) (by decide)
  obtain rfl : (s.exec as).getD s = t := by rw [ht]; rfl
  exact ⟨s, _, client_after (by decide), by decide, hr, by decide, by decide, by decide, by decide⟩

end Bolt.Pooling
