import Verif.Props.Pool2
import Verif.Proofs.PoolSlots

/-!
# Pools: the maximum (C48), one user (C49), closing (C50), broken connections (C52)

All for any number of clients in any order of steps, when clients close and use only what they hold and only clients and
`initialize` close connections.
-/

namespace Bolt.Pooling

variable {max : Nat} {s t u : State}

theorem slots_of (h : Reach .disciplined (.init max) s) : Own s ∧ Slots s := slots_reach (own_init max) (slots_init max) h

theorem max_of {R : Rules} (h : Reach R (.init max) s) : s.pool.max = max := by
  refine h.inv (I := fun s => s.pool.max = max) rfl ?_ ?_
  · intro p calls k ih _ _
    cases k <;> exact ih
  · intro p pre pc post ch p' pc' ih _ hs
    have ret : ∀ {q c ch ok}, Closes p c ch (.ret q ok) → q.max = max := fun h => by
      rcases closes_ret h with ⟨rfl, _⟩ | ⟨s, bad, _, _, _, rfl, _⟩ <;> exact ih
    have snd : ∀ {q c ch m}, Closes p c ch (.send q m) → q.max = max := fun h => by
      obtain ⟨_, _, rfl, rfl⟩ := closes_send h; exact ih
    cases tr hs with
    | failedRet h => exact ret h
    | failedReclaim h => exact snd h
    | closed h => exact ret h
    | closeErr h => have := ret h; exact this
    | closeReclaim h => exact snd h
    | useRet h => exact ret h
    | useReclaim h => exact snd h
    | poolConn h => exact ret h
    | poolErr h => have := ret h; exact this
    | _ => exact ih

/-- Calls of `Close` of a connection in progress. -/
def PC.isClosing : PC → Bool
  | .closing _ | .closeSend _ => true
  | _ => false

/-- C48: the connections handed out, with those whose `Close` has not yet returned, are at most the maximum; and when that
many are out, `OpenPool` waits. Missing: connections closed twice, see `c48_c49_false` and `c48_c49_server_false`. -/
theorem c48_max_partial (h : Reach .disciplined (.init max) s) :
    s.pool.out.length + s.calls.countP PC.isClosing ≤ max ∧
    (s.pool.out.length = max → ∀ i, s.calls[i]? = some .receiving → Stuck s i) := by
  have hs := (slots_of h).2
  have hm := max_of h
  have hlen := hs.len
  unfold sizes at hlen
  have hle : ∀ l : List PC, l.countP PC.isClosing ≤ tot PC.size l := by
    intro l
    induction l with
    | nil => exact Nat.le_refl _
    | cons pc l ih =>
      have e : tot PC.size (pc :: l) = tot PC.size l + pc.size := by have := tot_mid PC.size [] l pc; simp [tot_nil] at this; simpa using this
      rw [e, List.countP_cons]
      cases pc <;> simp [PC.isClosing, PC.size] <;> omega
  refine ⟨by have := hle s.calls; omega, fun ho i hi ch => ?_⟩
  have hc : s.pool.chan = [] := List.eq_nil_of_length_eq_zero (by omega)
  simp only [State.next, hi, step, hc]

/-- C48 at work: a pool of one, and a second `OpenPool` that waits. -/
example : (after 1 (openNew 0 ++ [.call .openPool, .run 1 .go, .run 1 .go])).calls[1]? = some .receiving ∧
    (after 1 (openNew 0 ++ [.call .openPool, .run 1 .go, .run 1 .go])).pool.out.length = 1 := by decide

/-- C49: no two connections handed out have the same socket. Missing: connections closed twice, see `c48_c49_false`. -/
theorem c49_exclusive_partial (h : Reach .disciplined (.init max) s) :
    s.pool.out.Pairwise fun c d => c ≠ d ∧ ∀ k, sockOf s c = some k → sockOf s d ≠ some k := by
  have hs := (slots_of h).2
  have hc : ∀ c ∈ s.pool.out, 0 < toks s c := fun c hc => by
    have := List.count_pos_iff.mpr hc
    unfold toks; omega
  have hn : s.pool.out.Pairwise fun c d => c ≠ d := by
    have hle : ∀ c, s.pool.out.count c ≤ 1 := fun c => by have := hs.once c; unfold toks at this; omega
    generalize s.pool.out = l at hle
    induction l with
    | nil => exact .nil
    | cons a l ih =>
      refine .cons (fun b hb e => ?_) (ih fun c => ?_)
      · subst e
        have h1 := hle a
        rw [count_cons', one_same] at h1
        have := List.count_pos_iff.mpr hb
        omega
      · have := hle c
        rw [count_cons'] at this; omega
  refine hn.imp_of_mem fun ha hb hne => ⟨hne, fun k h1 h2 => hne (hs.socks _ _ k (hc _ ha) (hc _ hb) h1 h2)⟩

/-- C49 at work: two connections with a socket each. -/
example : (after 2 (openNew 0 ++ openNew 1)).pool.out = [0, 1] ∧ sockOf (after 2 (openNew 0 ++ openNew 1)) 0 = some 0 ∧ sockOf (after 2 (openNew 0 ++ openNew 1)) 1 = some 1 := by decide

/-! ## C50 -/

/-- Calls of `Close` of the pool that hold the lock. -/
def PC.inClose : PC → Bool
  | .poolClose _ | .poolCloseConn _ _ | .poolClosed _ => true
  | _ => false

theorem clean_conns {p p' : Pool} (hn : p'.nConns = p.nConns) (hc : ∀ c, (p'.conns c).pooled = (p.conns c).pooled ∧ (p'.conns c).closed = (p.conns c).closed) (h : Clean p) : Clean p' :=
  fun c hlt => by rw [(hc c).1, (hc c).2]; exact h c (by rw [← hn]; exact hlt)

/-- Only a `Close` of the pool takes connections away from it. -/
theorem clean_step {p p' : Pool} {ch : Choice} {pc pc' : PC} (h : Tr p ch pc p' pc') (hlt : ∀ c, 0 < pc.mine c ∨ c ∈ pc.works → c < p.nConns) (hc : Clean p) :
    Clean p' ∨ pc'.inClose = true := by
  have ret : ∀ {q c ch ok}, c < p.nConns → Closes p c ch (.ret q ok) → q = p := fun {q c ch ok} hlt h => by
    rcases closes_ret h with ⟨rfl, _⟩ | ⟨s, bad, _, e, _, rfl, _⟩
    · rfl
    · rw [(hc c hlt).1] at e; cases e
  have snd : ∀ {q c ch m}, Closes p c ch (.send q m) → Clean q := fun {q c ch m} h => by
    obtain ⟨e1, e2, rfl, rfl⟩ := closes_send h
    intro d hd
    rw [reclaim_conns]
    split
    · split
      · exact ⟨rfl, rfl⟩
      · exact ⟨e2, e1⟩
    · next hne => exact hc d (by have : (reclaim p c).1.nConns = p.nConns + 1 := rfl; omega)
  have updc : ∀ {c : Nat} {v : PConn}, v.pooled = (p.conns c).pooled ∧ v.closed = (p.conns c).closed →
      ∀ d, (upd p.conns c v d).pooled = (p.conns d).pooled ∧ (upd p.conns c v d).closed = (p.conns d).closed := fun {c v} hv d => by
    unfold upd; split
    · next e => subst e; exact hv
    · exact ⟨rfl, rfl⟩
  cases h with
  | dialFail => refine .inl (clean_conns (p := p) rfl (fun d => ?_) hc); refine updc (v := _) ?_ d; exact ⟨rfl, rfl⟩
  | initOk => refine .inl (clean_conns (p := p) rfl (fun d => ?_) hc); refine updc (v := _) ?_ d; exact ⟨rfl, rfl⟩
  | initFail => refine .inl (clean_conns (p := p) rfl (fun d => ?_) hc); refine updc (v := _) ?_ d; exact ⟨rfl, rfl⟩
  | initPanic => refine .inl (clean_conns (p := p) rfl (fun d => ?_) hc); refine updc (v := _) ?_ d; exact ⟨rfl, rfl⟩
  | failedRet h => rw [ret (hlt _ (.inl (by simp [PC.mine, one_same]))) h]; exact .inl hc
  | failedReclaim h => exact .inl (snd h)
  | closed h => rw [ret (hlt _ (.inr (by simp [PC.works]))) h]; exact .inl hc
  | closeErr h => have := ret (hlt _ (.inr (by simp [PC.works]))) h; subst this; exact .inl hc
  | closeReclaim h => exact .inl (snd h)
  | useRet h => rw [ret (hlt _ (.inr (by simp [PC.works]))) h]; exact .inl hc
  | useReclaim h => exact .inl (snd h)
  | poolNext => exact .inr rfl
  | poolConn => exact .inr rfl
  | poolErr => exact .inr rfl
  | _ => exact .inl hc

theorem mine_lt {p : Pool} {pre post : List PC} {pc : PC} (ho : Own ⟨p, pre ++ pc :: post⟩) : ∀ c, 0 < pc.mine c ∨ c ∈ pc.works → c < p.nConns := fun c hc => by
  rcases hc with hc | hc
  · refine Nat.lt_of_not_le fun hn => ?_
    have := ho.fresh c hn
    unfold places at this
    simp only [tot_mid] at this
    omega
  · exact given_lt ho (ho.works pc (mem_mid.mpr (.inl rfl)) c hc)

theorem clean_reach {R : Rules} (hR : ∀ ch, R.run ch → ch ≠ .closePanics) (h : Reach R (.init max) s) : Clean s.pool ∨ s.pool.closed = true ∨ ∃ pc ∈ s.calls, pc.inClose = true := by
  have key : (Own s ∧ Reach R (.init max) s) ∧ (Clean s.pool ∨ s.pool.closed = true ∨ ∃ pc ∈ s.calls, pc.inClose = true) := by
    induction h with
    | refl => exact ⟨⟨own_init max, .refl⟩, .inl fun c _ => ⟨rfl, rfl⟩⟩
    | @call t u k h0 h1 h ih =>
      obtain ⟨⟨i1, -⟩, i3⟩ := ih
      have h' := h
      obtain ⟨hl, rfl⟩ := next_call h
      refine ⟨⟨own_call hl i1, .call h0 h1 h'⟩, ?_⟩
      rcases i3 with i | i | ⟨pc, hm, hp⟩
      · refine .inl ?_
        cases k with
        | use c e n =>
          refine clean_conns (p := t.pool) rfl (fun d => ?_) i
          unfold Call.start upd; simp only; split
          · next e => subst e; exact ⟨rfl, rfl⟩
          · exact ⟨rfl, rfl⟩
        | _ => exact i
      · refine .inr (.inl ?_); cases k <;> exact i
      · exact .inr (.inr ⟨pc, List.mem_append_left _ hm, hp⟩)
    | @run t u i ch h0 h1 h ih =>
      obtain ⟨⟨i1, i2⟩, i3⟩ := ih
      have h' := h
      obtain ⟨pre, pc, post, p', pc', e, hs, rfl⟩ := next_run h
      obtain ⟨p, calls⟩ := t
      simp only at e hs
      subst e
      refine ⟨⟨own_step (tr hs) i1, .run h0 h1 h'⟩, ?_⟩
      rcases i3 with i | i | ⟨q, hm, hp⟩
      · rcases clean_step (tr hs) (mine_lt i1) i with h | h
        · exact .inl h
        · exact .inr (.inr ⟨pc', mem_mid.mpr (.inl rfl), h⟩)
      · exact .inr (.inl ((tr_poolClosed (tr hs)).1 i))
      · rcases mem_mid.mp hm with rfl | hm
        · have hcl := closed_of_done h0 q (mem_mid.mpr (.inl rfl))
          cases tr hs with
          | poolEnd => exact .inr (.inl rfl)
          | poolNext => exact .inr (.inr ⟨_, mem_mid.mpr (.inl rfl), rfl⟩)
          | poolConn => exact .inr (.inr ⟨_, mem_mid.mpr (.inl rfl), rfl⟩)
          | poolErr => exact .inr (.inl rfl)
          | poolUnlock => exact .inr (.inl (hcl ⟨_, .inl rfl⟩))
          | poolPanic hch => exact absurd hch (hR _ h1)
          | _ => cases hp
        · exact .inr (.inr ⟨q, mem_mid.mpr (.inr hm), hp⟩)
  exact key.2

/-- C50: a `Close` of a connection never has to wait. Missing: connections closed twice, see `c50_block_false`. -/
theorem c50_never_blocks_partial (h : Reach .disciplined (.init max) s) (hi : s.calls[i]? = some pc) (hc : pc.isClosing = true) (ch : Choice) :
    ∃ u, s.next (.run i ch) = some u := by
  have hs := (slots_of h).2
  have hp : ∃ x, step s.pool ch pc = some x := by
    cases pc with
    | closing c =>
      simp only [step]
      cases closeConn ch s.pool c with
      | ret q ok => cases ok <;> exact ⟨_, rfl⟩
      | send q m => exact ⟨_, rfl⟩
    | closeSend m =>
      have hlen := hs.len
      unfold sizes at hlen
      have := tot_mem (f := PC.size) (List.mem_of_getElem? hi)
      have e : (PC.closeSend m).size = 1 := rfl
      exact ⟨_, if_pos (by omega)⟩
    | _ => cases hc
  obtain ⟨⟨p', pc'⟩, hx⟩ := hp
  exact ⟨_, by simp only [State.next, hi, hx]; rfl⟩

/-- C50: as long as the pool is not closed, nothing has panicked with the lock held, and no call is in progress, all
connections that are not out are in the pool: each `Close` that returned nil has returned one slot. For panics see C104. -/
theorem c50_slots_partial (h : Reach .calm (.init max) s) (hc : s.pool.closed = false) (hd : ∀ pc ∈ s.calls, ∃ r, pc = .done r) :
    s.pool.chan.length + s.pool.out.length = max := by
  have hs := (slots_of h.disciplined).2
  have hcl : Clean s.pool := by
    rcases clean_reach (R := .calm) (fun _ h => h.1.2) h with h | h | ⟨pc, hm, hp⟩
    · exact h
    · rw [hc] at h; cases h
    · obtain ⟨r, rfl⟩ := hd pc hm; cases hp
  have := hs.all (lost_calm h) hcl
  have hz : tot PC.size s.calls = 0 := by
    generalize s.calls = l at hd
    induction l with
    | nil => rfl
    | cons pc l ih =>
      have e : tot PC.size (pc :: l) = tot PC.size l + pc.size := by have := tot_mid PC.size [] l pc; simp [tot_nil] at this; simpa using this
      obtain ⟨r, rfl⟩ := hd pc (List.mem_cons_self)
      rw [e, ih fun q hq => hd q (List.mem_cons_of_mem _ hq)]
      rfl
  unfold sizes at this
  rw [max_of h] at this
  omega

/-- C50 at work: two connections, one closed. -/
example : (after 2 (openNew 0 ++ openNew 1 ++ closeIt 2 0)).pool.chan = [2] ∧ (after 2 (openNew 0 ++ openNew 1 ++ closeIt 2 0)).pool.out = [1] := by decide

/-! ## C52 -/

theorem tr_err {p p' : Pool} {ch : Choice} {pc pc' : PC} (h : Tr p ch pc p' pc') {d : Nat} (hd : d < p.nConns) (he : (p.conns d).connErr = true) :
    (p'.conns d).connErr = true ∧ d < p'.nConns := by
  have ret : ∀ {q c ch ok}, Closes p c ch (.ret q ok) → (q.conns d).connErr = true ∧ d < q.nConns := fun {q c ch ok} h => by
    rcases closes_ret h with ⟨rfl, _⟩ | ⟨s, bad, _, e, _, rfl, _⟩
    · exact ⟨he, hd⟩
    · refine ⟨?_, hd⟩
      unfold shutConn upd; simp only; split
      · next e => subst e; simp [he]
      · exact he
  have snd : ∀ {q c ch m}, Closes p c ch (.send q m) → (q.conns d).connErr = true ∧ d < q.nConns := fun {q c ch m} h => by
    obtain ⟨e1, e2, rfl, rfl⟩ := closes_send h
    rw [reclaim_conns, if_neg (by omega)]
    exact ⟨he, Nat.lt_succ_of_lt hd⟩
  have updc : ∀ {c : Nat} {v : PConn}, ((p.conns c).connErr = true → v.connErr = true) → (upd p.conns c v d).connErr = true := fun {c v} hv => by
    unfold upd; split
    · next e => subst e; exact hv he
    · exact he
  cases h with
  | dialFail => exact ⟨by refine updc (v := _) ?_; exact id, hd⟩
  | initOk => exact ⟨by refine updc (v := _) ?_; exact id, hd⟩
  | initFail => exact ⟨by refine updc (v := _) ?_; intro h; simp [h], hd⟩
  | initPanic => exact ⟨by refine updc (v := _) ?_; exact id, hd⟩
  | poolNext => exact ⟨by refine updc (v := _) ?_; exact id, hd⟩
  | failedRet h => exact ret h
  | failedReclaim h => exact snd h
  | closed h => exact ret h
  | closeErr h => have := ret h; exact this
  | closeReclaim h => exact snd h
  | useRet h => exact ret h
  | useReclaim h => exact snd h
  | poolConn h => exact ret h
  | poolErr h => have := ret h; exact this
  | _ => exact ⟨he, hd⟩

/-- Connection `c` is broken, and its socket `k` belongs to no other slot. -/
structure Broken (c k : Nat) (s : State) : Prop where
  err : (s.pool.conns c).connErr = true
  lt : c < s.pool.nConns
  old : k < s.pool.nSocks
  only : ∀ d, 0 < toks s d → (s.pool.conns d).sock = some k → d = c

theorem broken_reach {c k : Nat} (ho : Own s) (hs : Slots s) (hb : Broken c k s) (h : Reach .disciplined s t) : Broken c k t ∧ (toks s c = 0 → toks t c = 0) := by
  have key := h.inv (I := fun t => (Own t ∧ Slots t) ∧ Broken c k t ∧ (toks s c = 0 → toks t c = 0)) ⟨⟨ho, hs⟩, hb, id⟩ ?_ ?_
  · exact key.2
  · rintro p calls kk ⟨⟨i1, i2⟩, hb, hz⟩ hc hl
    refine ⟨⟨own_call hl i1, slots_call hc i2⟩, ?_⟩
    have e : (kk.start p).1.nConns = p.nConns ∧ (kk.start p).1.nSocks = p.nSocks ∧
        (∀ d, ((kk.start p).1.conns d).sock = (p.conns d).sock ∧ ((p.conns d).connErr = true → ((kk.start p).1.conns d).connErr = true)) ∧
        (∀ c, loc (kk.start p).1 (kk.start p).2 c = p.chan.count c + p.out.count c) := by
      cases kk with
      | use c e n =>
        refine ⟨rfl, rfl, fun d => ?_, fun _ => rfl⟩
        unfold Call.start upd; simp only; split
        · next e => subst e; exact ⟨rfl, fun h => by simp [h]⟩
        · exact ⟨rfl, id⟩
      | close c =>
        have hc : c ∈ p.out := hc
        refine ⟨rfl, rfl, fun d => ⟨rfl, id⟩, fun d => ?_⟩
        simp only [Call.start, loc, PC.tok, List.count_erase]
        have := List.count_pos_iff.mpr hc
        unfold one
        by_cases e : c = d
        · subst e; simp; omega
        · have : (c == d) = false := by simpa using e
          simp [this, e]
      | _ => exact ⟨rfl, rfl, fun d => ⟨rfl, id⟩, fun _ => rfl⟩
    obtain ⟨e1, e2, e3, e4⟩ := e
    have ht : ∀ c, toks ⟨(kk.start p).1, calls ++ [(kk.start p).2]⟩ c = toks ⟨p, calls⟩ c := fun c => by
      have := e4 c
      unfold toks; unfold loc at this
      simp only [tot_mid, tot_nil]
      omega
    refine ⟨⟨(e3 c).2 hb.err, by simp only [e1]; exact hb.lt, by simp only [e2]; exact hb.old, fun d h1 h2 => ?_⟩, fun h => by rw [ht]; exact hz h⟩
    rw [ht] at h1
    simp only [e3] at h2
    exact hb.only d h1 h2
  · rintro p pre pc post ch p' pc' ⟨⟨i1, i2⟩, hb, hz⟩ hc hst
    have htr := tr hst
    refine ⟨⟨own_step htr i1, slots_step htr hc i1 i2⟩, ?_⟩
    obtain ⟨g1, g2, g3⟩ := tr_slots htr (i2.tame pc (mem_mid.mpr (.inl rfl))) hc fun c hc => by
      rcases hc with hc | hc
      · refine Nat.lt_of_not_le fun hn => ?_
        have := i2.fresh c hn
        rw [toks_mid] at this
        unfold loc at this
        omega
      · exact given_lt i1 (i1.works pc (mem_mid.mpr (.inl rfl)) c hc)
    obtain ⟨b1, b2⟩ := tr_err htr hb.lt hb.err
    have old : k < p'.nSocks := Nat.lt_of_lt_of_le hb.old (tr_socks htr).2.2
    rcases g3 with g | ⟨x, rfl, m1, m2, m3⟩
    · have le : ∀ c, toks ⟨p', pre ++ pc' :: post⟩ c ≤ toks ⟨p, pre ++ pc :: post⟩ c := fun c => by
        rw [toks_mid, toks_mid]; have := g.loc c; omega
      refine ⟨⟨b1, b2, old, fun d h1 h2 => ?_⟩, fun h => by have := hz h; have := le c; omega⟩
      have h1' := Nat.lt_of_lt_of_le h1 (le d)
      simp only at h2
      rcases g.sock d with e | e | ⟨e, _, _⟩
      · rw [e] at h2; exact hb.only d h1' h2
      · rw [e] at h2; cases h2
      · rw [e] at h2; cases h2
        have := hb.old
        simp only at this; omega
    · have hx : 0 < toks ⟨p, pre ++ pc :: post⟩ x := by rw [toks_mid]; unfold loc; omega
      have eq : ∀ c, toks ⟨(reclaim p x).1, pre ++ pc' :: post⟩ c + one c x = toks ⟨p, pre ++ pc :: post⟩ c + one c p.nConns := fun c => by
        rw [toks_mid, toks_mid]; have := m1 c; omega
      have hlt : c < p.nConns := hb.lt
      refine ⟨⟨b1, b2, old, fun d h1 h2 => ?_⟩, fun h => ?_⟩
      · by_cases e : d = p.nConns
        · subst e
          obtain ⟨a1, a2⟩ := reclaim_sock h2
          have := hb.only x hx a1
          subst this
          have := hb.err
          simp only at this
          rw [a2] at this; cases this
        · simp only at h2
          rw [reclaim_conns, if_neg e] at h2
          have h3 := eq d
          have h4 : one d p.nConns = 0 := if_neg (Ne.symm e)
          exact hb.only d (by omega) h2
      · have h3 := eq c
        have h4 : one c p.nConns = 0 := if_neg (by omega)
        have := hz h
        omega

theorem out_handed {R : Rules} (h : Reach R (.init max) s) : (∀ c ∈ s.pool.out, c ∈ s.pool.handed) ∧ ∀ c, PC.closing c ∈ s.calls → c ∈ s.pool.handed := by
  refine h.inv (I := fun s => (∀ c ∈ s.pool.out, c ∈ s.pool.handed) ∧ ∀ c, PC.closing c ∈ s.calls → c ∈ s.pool.handed) ⟨fun c h => (by cases h), fun c h => (by cases h)⟩ ?_ ?_
  · rintro p calls k ⟨i1, i2⟩ _ hl
    have e : (k.start p).1.handed = p.handed := by cases k <;> rfl
    have e' : ∀ c ∈ (k.start p).1.out, c ∈ p.out := fun c hc => by
      cases k with
      | close d => exact List.mem_of_mem_erase hc
      | _ => exact hc
    refine ⟨fun c hc => by simp only [e]; exact i1 c (e' c hc), fun c hc => ?_⟩
    simp only [e]
    rcases List.mem_append.mp hc with hc | hc
    · exact i2 c hc
    · have := List.mem_singleton.mp hc
      cases k <;> cases this
      exact hl
  · rintro p pre pc post ch p' pc' ⟨i1, i2⟩ _ hs
    have ht := tr hs
    have hmono : ∀ c, c ∈ p.handed → c ∈ p'.handed := fun c hm => by
      rcases (tr_given ht).1 c (.inl hm) with h | h
      · exact h
      · subst h
        cases ht with
        | initOk => exact hm
        | alive => exact hm
    have hout : ∀ c ∈ p'.out, c ∈ p.out ∨ pc = .closing c ∨ c ∈ p'.handed := fun c hc => by
      have ret : ∀ {q d ch ok}, Closes p d ch (.ret q ok) → q.out = p.out := fun h => by
        rcases closes_ret h with ⟨rfl, _⟩ | ⟨s, bad, _, _, _, rfl, _⟩ <;> rfl
      have snd : ∀ {q d ch m}, Closes p d ch (.send q m) → q.out = p.out := fun h => by
        obtain ⟨_, _, rfl, rfl⟩ := closes_send h; rfl
      cases ht with
      | openedSome =>
        rcases List.mem_append.mp hc with h | h
        · exact .inl h
        · exact .inr (.inr (List.mem_append_right _ h))
      | closeErr h =>
        rcases List.mem_append.mp hc with h' | h'
        · rw [ret h] at h'; exact .inl h'
        · rw [List.mem_singleton.mp h']; exact .inr (.inl rfl)
      | failedRet h => rw [ret h] at hc; exact .inl hc
      | failedReclaim h => rw [snd h] at hc; exact .inl hc
      | closed h => rw [ret h] at hc; exact .inl hc
      | closeReclaim h => rw [snd h] at hc; exact .inl hc
      | useRet h => rw [ret h] at hc; exact .inl hc
      | useReclaim h => rw [snd h] at hc; exact .inl hc
      | poolConn h => rw [ret h] at hc; exact .inl hc
      | poolErr h => simp only [ret h] at hc; exact .inl hc
      | _ => exact .inl hc
    have hpc : ∀ c, pc' ≠ .closing c := fun c e => by cases ht <;> cases e
    refine ⟨fun c hc => ?_, fun c hc => ?_⟩
    · rcases hout c hc with h | h | h
      · exact hmono c (i1 c h)
      · exact hmono c (i2 c (mem_mid.mpr (.inl h.symm)))
      · exact h
    · rcases mem_mid.mp hc with e | hc
      · exact absurd e.symm (hpc c)
      · exact hmono c (i2 c (mem_mid.mpr (.inr hc)))

theorem handed_mono {R : Rules} (h : Reach R s t) : ∀ c ∈ s.pool.handed, c ∈ t.pool.handed := by
  refine h.inv (I := fun t => ∀ c ∈ s.pool.handed, c ∈ t.pool.handed) (fun c h => h) ?_ ?_
  · intro p calls k ih _ _ c hc
    have e : (k.start p).1.handed = p.handed := by cases k <;> rfl
    simp only [e]; exact ih c hc
  · intro p pre pc post ch p' pc' ih _ hs c hc
    have ht := tr hs
    have hm := ih c hc
    rcases (tr_given ht).1 c (.inl hm) with h | h
    · exact h
    · subst h
      cases ht with
      | initOk => exact hm
      | alive => exact hm

/-- C52: the socket of a connection with a connection error is never handed out again. After the error no other connection
handed out has this socket, and once `Close` of the connection has returned nil no connection has it. Missing: connections
that broke without `connErr` being set (see `c52_false`), and connections closed twice. -/
theorem c52_replaced_partial (h : Reach .disciplined (.init max) s) (hc : c ∈ s.pool.out) (he : (s.pool.conns c).connErr = true) (hk : sockOf s c = some k)
    (h' : Reach .disciplined s t) :
    (∀ d ∈ t.pool.out, sockOf t d = some k → d = c) ∧
    (c ∉ t.pool.out → .closing c ∉ t.calls → Reach .disciplined t u → ∀ d ∈ u.pool.out, sockOf u d ≠ some k) := by
  obtain ⟨ho, hs⟩ := slots_of h
  have hpos : ∀ {s : State}, ∀ d ∈ s.pool.out, 0 < toks s d := fun {s} d hd => by
    have := List.count_pos_iff.mpr hd
    unfold toks; omega
  have hb : Broken c k s := ⟨he, Nat.lt_of_not_le fun hn => by have := hs.fresh c hn; have := hpos c hc; omega, hs.sockLt c k hk,
    fun d h1 h2 => hs.socks d c k h1 (hpos c hc) h2 hk⟩
  obtain ⟨hbt, -⟩ := broken_reach ho hs hb h'
  refine ⟨fun d hd hdk => hbt.only d (hpos d hd) hdk, fun hn hcl hu d hd hdk => ?_⟩
  obtain ⟨hot, hst⟩ := slots_reach ho hs h'
  have hz : toks t c = 0 := by
    have hh := handed_mono h' c ((out_handed h).1 c hc)
    have h1 := hot.once c
    have h2 := List.count_pos_iff.mpr hh
    have h3 : t.pool.out.count c = 0 := List.count_eq_zero.mpr hn
    unfold places at h1
    have h4 : ∀ l : List PC, .closing c ∉ l → tot (PC.tok c) l ≤ tot (PC.mine c) l := by
      intro l hl
      induction l with
      | nil => exact Nat.le_refl _
      | cons pc l ih =>
        have e : ∀ f : PC → Nat, tot f (pc :: l) = tot f l + f pc := fun f => by have := tot_mid f [] l pc; simp [tot_nil] at this; simpa using this
        rw [e, e]
        have := ih fun h => hl (List.mem_cons_of_mem _ h)
        have : pc.tok c ≤ pc.mine c := by
          cases pc with
          | failed d n => cases n <;> simp [PC.tok, PC.mine]
          | failedSend m d n => simp only [PC.tok, PC.mine]; omega
          | opened r => cases r <;> exact Nat.le_refl _
          | closing d =>
            have : d ≠ c := fun e => hl (by rw [e]; exact List.mem_cons_self)
            have e : PC.tok c (.closing d) = 0 := if_neg this
            rw [e]; exact Nat.zero_le _
          | usingSend m d n => exact Nat.zero_le _
          | _ => exact Nat.le_refl _
        omega
    have := h4 t.calls hcl
    unfold toks
    omega
  obtain ⟨hbu, hzu⟩ := broken_reach hot hst hbt hu
  have e := hbu.only d (hpos d hd) hdk
  subst e
  have := hpos d hd
  have := hzu hz
  omega

/-- C52 at work: a connection breaks and is closed, and the next `OpenPool` opens another socket. -/
example : (after 1 (openNew 0 ++ [.call (.use 0 true 0), .run 1 .go])).pool.out = [0] ∧
    ((after 1 (openNew 0 ++ [.call (.use 0 true 0), .run 1 .go])).pool.conns 0).connErr = true ∧
    sockOf (after 1 (openNew 0 ++ [.call (.use 0 true 0), .run 1 .go])) 0 = some 0 ∧
    (after 1 (openNew 0 ++ [.call (.use 0 true 0), .run 1 .go] ++ closeIt 2 0 ++ openNew 3)).pool.out = [1] ∧
    sockOf (after 1 (openNew 0 ++ [.call (.use 0 true 0), .run 1 .go] ++ closeIt 2 0 ++ openNew 3)) 1 = some 1 := by decide

end Bolt.Pooling
