import Verif.Proofs.PoolSocks
import Verif.Props.Pool4

/-!
# Pools: how many sockets are open (C97), closing a pool does not wait for clients (C98) and can be
repeated (C99)
-/

namespace Bolt.Pooling

variable {max : Nat} {s t u : State}

/-! ## C97 -/

/-- C97: of the sockets that a pool has open at most `max` belong to connections on which no error was recorded. Missing:
connections on which an error was recorded, see `c97_false`; connections closed twice. -/
theorem c97_sockets_partial (h : Reach .calm (.init max) s) {ks : List Nat} (hn : ks.Nodup)
    (hk : ∀ k ∈ ks, k < s.pool.nSocks ∧ s.pool.shut k = false ∧ ∀ c, sockOf s c = some k → (s.pool.conns c).connErr = false) : ks.length ≤ max := by
  obtain ⟨_, hs, hk'⟩ := socks_reach h
  have hex : ∀ k ∈ ks, ∃ c, sockOf s c = some k ∧ 0 < toks s c := fun k hm => by
    obtain ⟨h1, h2, h3⟩ := hk k hm
    obtain ⟨c, _, h4, h5⟩ := hk'.held k h1 h2
    refine ⟨c, h4, h5.resolve_right fun e => ?_⟩
    rw [h3 c h4] at e; cases e
  have hl : ∃ cs : List Nat, cs.Nodup ∧ cs.length = ks.length ∧ ∀ c ∈ cs, 0 < toks s c ∧ ∃ k ∈ ks, sockOf s c = some k := by
    clear hk
    induction ks with
    | nil => exact ⟨[], .nil, rfl, fun _ h => (by cases h)⟩
    | cons k ks ih =>
      obtain ⟨h1, h2⟩ := List.nodup_cons.mp hn
      obtain ⟨cs, a, b, d⟩ := ih h2 fun k hm => hex k (by simp [hm])
      obtain ⟨c, e, f⟩ := hex k (by simp)
      refine ⟨c :: cs, List.nodup_cons.mpr ⟨fun hm => ?_, a⟩, by simp [b], fun x hx => ?_⟩
      · obtain ⟨_, k', h5, h6⟩ := d c hm
        rw [e] at h6; cases h6
        exact h1 h5
      · rcases List.mem_cons.mp hx with rfl | hx
        · exact ⟨f, k, by simp, e⟩
        · obtain ⟨g, k', h5, h6⟩ := d x hx
          exact ⟨g, k', by simp [h5], h6⟩
  obtain ⟨cs, a, b, d⟩ := hl
  have h1 := slots_count s a fun c hc => (d c hc).1
  have h2 := hs.len
  have h3 := max_of h
  omega

/-- C97 at work: two sockets open in a pool of two. -/
example : (after 2 (openNew 0 ++ openNew 1)).pool.nSocks = 2 ∧ (after 2 (openNew 0 ++ openNew 1)).pool.shut 0 = false ∧
    (after 2 (openNew 0 ++ openNew 1)).pool.shut 1 = false ∧ sockOf (after 2 (openNew 0 ++ openNew 1)) 1 = some 1 := by decide

/-- A pool of one at rest, with `n` sockets open. -/
structure Rest (n : Nat) (p : Pool) : Prop where
  one : p.max = 1
  chan : ∃ c, p.chan = [c] ∧ p.conns c = .fresh
  lock : p.lock = false
  closed : p.closed = false
  shut : ∀ k, p.shut k = false
  out : p.out = []
  socks : p.nSocks = n

theorem reach_step {R : Rules} {p p' : Pool} {pre : List PC} {pc pc' : PC} {ch : Choice} (hR : R.run ch) (h : step p ch pc = some (p', pc')) :
    Reach R ⟨p, pre ++ [pc]⟩ ⟨p', pre ++ [pc']⟩ :=
  .run .refl hR (next_of_step h)

theorem rest_next {n : Nat} {p : Pool} {calls : List PC} (h : Rest n p) :
    ∃ p' r1 r2 r3, Rest (n + 1) p' ∧ Reach .calm ⟨p, calls⟩ ⟨p', calls ++ [.done r1] ++ [.done r2] ++ [.done r3]⟩ := by
  obtain ⟨h1, ⟨c, h2, h3⟩, h4, h5, h6, h7, h8⟩ := h
  have go : Rules.calm.run .go := ⟨⟨by simp, by simp⟩, fun _ _ => (by intro h; cases h)⟩
  have ok : Rules.calm.run .initOk := ⟨⟨by simp, by simp⟩, fun _ _ => (by intro h; cases h)⟩
  have hnil : nilOrClosed { p with lock := true, chan := [] } c = true := by simp [nilOrClosed, h3, PConn.fresh]
  -- OpenPool
  have o0 : Reach .calm ⟨p, calls⟩ ⟨p, calls ++ [.opening]⟩ := .call (k := .openPool) .refl trivial (by simp [State.next, Call.legal, Call.start])
  have o1 : Reach .calm ⟨p, calls ++ [.opening]⟩ ⟨{ p with lock := true }, calls ++ [.locked]⟩ := reach_step go (by simp [step, h4])
  have o2 : Reach .calm ⟨{ p with lock := true }, calls ++ [.locked]⟩ ⟨{ p with lock := true }, calls ++ [.receiving]⟩ := reach_step go (by simp [step, h5])
  have o3 : Reach .calm ⟨{ p with lock := true }, calls ++ [.receiving]⟩ ⟨{ p with lock := true, chan := [] }, calls ++ [.received c]⟩ := reach_step go (by simp [step, h2])
  let q : Pool := { p with lock := true, chan := [], conns := upd p.conns c { p.conns c with sock := some p.nSocks }, inited := upd p.inited p.nSocks true, nSocks := p.nSocks + 1, refs := p.refs ++ [c] }
  have o4 : Reach .calm ⟨{ p with lock := true, chan := [] }, calls ++ [.received c]⟩ ⟨q, calls ++ [.opened (some c)]⟩ := reach_step ok (by simp only [step, hnil, if_true]; rfl)
  let q' : Pool := { q with lock := false, out := q.out ++ [c], handed := q.handed ++ [c] }
  have o5 : Reach .calm ⟨q, calls ++ [.opened (some c)]⟩ ⟨q', calls ++ [.done (.opened c)]⟩ := reach_step go rfl
  -- a call that fails
  have hout : c ∈ q'.out := by simp [q']
  have hhand : c ∈ q'.handed := by simp [q']
  let r : Pool := { q' with conns := upd q'.conns c { q'.conns c with connErr := (q'.conns c).connErr || true } }
  have u0 : Reach .calm ⟨q', calls ++ [.done (.opened c)]⟩ ⟨r, calls ++ [.done (.opened c)] ++ [.using c 0]⟩ :=
    .call (k := .use c true 0) .refl ⟨hout, rfl⟩ (by simp only [State.next, Call.legal, hhand, if_true]; rfl)
  have u1 : Reach .calm ⟨r, calls ++ [.done (.opened c)] ++ [.using c 0]⟩ ⟨r, calls ++ [.done (.opened c)] ++ [.done .used]⟩ := reach_step go rfl
  -- Close
  let v : Pool := { r with out := r.out.erase c }
  have c0 : Reach .calm ⟨r, calls ++ [.done (.opened c)] ++ [.done .used]⟩ ⟨v, calls ++ [.done (.opened c)] ++ [.done .used] ++ [.closing c]⟩ :=
    .call (k := .close c) .refl hout (by have : c ∈ r.handed := hhand; simp only [State.next, Call.legal, this, if_true]; rfl)
  have hv : v.conns c = ⟨some p.nSocks, true, false, true⟩ := by
    show upd _ c _ c = _
    rw [upd_same]
    show (⟨(q'.conns c).sock, _, (q'.conns c).closed, (q'.conns c).pooled⟩ : PConn) = _
    have : q'.conns c = { PConn.fresh with sock := some p.nSocks } := by show upd _ c _ c = _; rw [upd_same, h3]
    rw [this]; rfl
  have hcl : closeConn .go v c = .send (reclaim v c).1 v.nConns := by unfold closeConn; simp [hv, reclaim]
  have c1 : Reach .calm ⟨v, calls ++ [.done (.opened c)] ++ [.done .used] ++ [.closing c]⟩ ⟨(reclaim v c).1, calls ++ [.done (.opened c)] ++ [.done .used] ++ [.closeSend v.nConns]⟩ :=
    reach_step go (by simp only [step, hcl])
  have hsend : step (reclaim v c).1 .go (.closeSend v.nConns) = some ({ (reclaim v c).1 with chan := [v.nConns] }, .done (.closed true)) := by
    have hm : (reclaim v c).1.max = 1 := h1
    have hc : (reclaim v c).1.chan = [] := rfl
    simp only [step, send, hm, hc, List.length_nil, Nat.lt_one_iff, if_true, List.nil_append]
  have c2 := reach_step (R := .calm) (pre := calls ++ [.done (.opened c)] ++ [.done .used]) go hsend
  refine ⟨{ (reclaim v c).1 with chan := [v.nConns] }, _, _, _, ⟨h1, ⟨v.nConns, rfl, ?_⟩, rfl, h5, h6, ?_, ?_⟩, o0.trans (o1.trans (o2.trans (o3.trans (o4.trans (o5.trans (u0.trans (u1.trans (c0.trans (c1.trans c2)))))))))⟩
  · show (reclaim v c).1.conns v.nConns = _
    rw [reclaim_conns, if_pos rfl, hv]; rfl
  · show (p.out ++ [c]).erase c = []
    rw [h7]; simp
  · show p.nSocks + 1 = n + 1
    rw [h8]

/-- C97 is false: a connection with an error recorded is replaced when it is closed, and its socket stays open. So a pool
of one connection whose clients open, use and close one connection after the other can have any number of sockets open
while nobody holds a connection. -/
theorem c97_false (n : Nat) : ∃ s, Reach .calm (.init 1) s ∧ s.pool.max = 1 ∧ s.pool.out = [] ∧ (∀ pc ∈ s.calls, ∃ r, pc = .done r) ∧
    s.pool.nSocks = n ∧ ∀ k < n, s.pool.shut k = false := by
  have key : ∃ s, Reach .calm (.init 1) s ∧ Rest n s.pool ∧ ∀ pc ∈ s.calls, ∃ r, pc = .done r := by
    induction n with
    | zero => exact ⟨.init 1, .refl, ⟨rfl, ⟨0, rfl, rfl⟩, rfl, rfl, fun _ => rfl, rfl, rfl⟩, fun _ h => (by cases h)⟩
    | succ n ih =>
      obtain ⟨⟨p, calls⟩, h1, h2, h3⟩ := ih
      obtain ⟨p', r1, r2, r3, a, b⟩ := rest_next (calls := calls) h2
      refine ⟨_, h1.trans b, a, fun pc hm => ?_⟩
      simp only [List.mem_append, List.mem_singleton] at hm
      rcases hm with ((hm | hm) | hm) | hm
      · exact h3 pc hm
      · exact ⟨_, hm⟩
      · exact ⟨_, hm⟩
      · exact ⟨_, hm⟩
  obtain ⟨s, h1, h2, h3⟩ := key
  exact ⟨s, h1, h2.one, h2.out, h3, h2.socks, fun k _ => h2.shut k⟩

/-! ## C98 -/

/-- The steps that a `Close` of the pool with the lock has still to make, at most. -/
def PC.left : PC → Nat
  | .poolClose rest => 2 * rest.length + 2
  | .poolCloseConn _ rest => 2 * rest.length + 3
  | .poolClosed _ | .panicking => 1
  | _ => 0

/-- Steps of call number `i`. -/
def Act.of (i : Nat) : Act → Bool
  | .run j _ => j == i
  | .call _ => false

/-- A `Close` of the pool with the lock can always go on, whatever the environment chooses, and comes closer to its end. -/
theorem close_step {R : Rules} (h : Reach R (.init max) s) {pc : PC} (hi : pc ∈ s.calls) (hc : pc.inClose = true ∨ pc = .panicking) (ch : Choice) :
    ∃ p' pc', step s.pool ch pc = some (p', pc') ∧ pc'.left < pc.left ∧ ((pc'.inClose = true ∨ pc' = .panicking) ∨ ∃ r, (r = .panicked ∨ ∃ ok, r = .poolClosed ok) ∧ pc' = .done r) := by
  cases pc with
  | poolClose rest =>
    cases rest with
    | nil => exact ⟨_, _, rfl, by simp [PC.left], .inl (.inl rfl)⟩
    | cons c rest => exact ⟨_, _, rfl, by simp [PC.left]; omega, .inl (.inl rfl)⟩
  | poolCloseConn c rest =>
    have hp := unpooled h c rest hi
    simp only [step]
    split
    · exact ⟨_, _, rfl, by simp [PC.left], .inl (.inr rfl)⟩
    · have hcl := closes s.pool c ch
      cases hr : closeConn ch s.pool c with
      | ret q ok => cases ok <;> exact ⟨_, _, rfl, by simp [PC.left], .inl (.inl rfl)⟩
      | send q m =>
        rw [hr] at hcl
        have := (closes_send hcl).2.1
        rw [hp] at this; cases this
  | poolClosed ok => exact ⟨_, _, rfl, by simp [PC.left], .inr ⟨_, .inr ⟨ok, rfl⟩, rfl⟩⟩
  | panicking => exact ⟨_, _, rfl, by simp [PC.left], .inr ⟨_, .inl rfl, rfl⟩⟩
  | _ => rcases hc with hc | hc <;> cases hc

theorem getElem?_set_self' {l : List PC} {i : Nat} {x y : PC} (h : l[i]? = some x) : (l.set i y)[i]? = some y := by
  obtain ⟨hlt, _⟩ := List.getElem?_eq_some_iff.mp h
  simp [hlt]

/-- C98: a `Close` of the pool that has taken the lock needs no other call to go on: whatever happens in between, it makes at
most `left` steps of its own, and at any time it has returned, or panicked, or can make its next one. Before it has the lock it waits
exactly as long as another call holds it. Missing: `OpenPool` waits for a connection with the lock, see `c98_false`;
requests on the connection, when a statement or transaction is open, are one step here. -/
theorem c98_close_partial (h : Reach .any (.init max) s) {i : Nat} {pc : PC} (hi : s.calls[i]? = some pc) :
    (pc.inClose = true → ∀ {as t}, s.exec as = some t → as.countP (Act.of i) ≤ pc.left ∧
      ((∃ ok, t.calls[i]? = some (.done (.poolClosed ok))) ∨ t.calls[i]? = some (.done .panicked) ∨ ∀ ch, ∃ u, t.next (.run i ch) = some u)) ∧
    (pc = .poolClosing → (Stuck s i ↔ ∃ q ∈ s.calls, q.holds = true) ∧ ∀ ch u, s.next (.run i ch) = some u → u.calls[i]? = some (.poolClose s.pool.refs)) := by
  constructor
  · have key : ∀ (as : List Act) (s t : State) (pc : PC), Reach .any (.init max) s → s.calls[i]? = some pc → ((pc.inClose = true ∨ pc = .panicking) ∨ ∃ r, (r = .panicked ∨ ∃ ok, r = .poolClosed ok) ∧ pc = .done r) →
        s.exec as = some t → as.countP (Act.of i) ≤ pc.left ∧ ((∃ ok, t.calls[i]? = some (.done (.poolClosed ok))) ∨ t.calls[i]? = some (.done .panicked) ∨ ∀ ch, ∃ u, t.next (.run i ch) = some u) := by
      intro as
      induction as with
      | nil =>
        intro s t pc h hi hc he
        cases he
        refine ⟨Nat.zero_le _, ?_⟩
        rcases hc with hc | ⟨_, rfl | ⟨ok, rfl⟩, rfl⟩
        · refine .inr (.inr fun ch => ?_)
          obtain ⟨p', pc', hs, _, _⟩ := close_step h (List.mem_of_getElem? hi) hc ch
          exact ⟨_, by simp only [State.next, hi, hs]; rfl⟩
        · exact .inr (.inl hi)
        · exact .inl ⟨ok, hi⟩
      | cons a as ih =>
        intro s t pc h hi hc he
        unfold State.exec at he
        cases hn : s.next a with
        | none => rw [hn] at he; cases he
        | some u =>
          simp only [hn] at he
          have hu : Reach .any (.init max) u := by
            cases a with
            | call k => exact .call h trivial hn
            | run j ch => exact .run h trivial hn
          rw [List.countP_cons]
          cases a with
          | call k =>
            obtain ⟨_, rfl⟩ := next_call hn
            have hlt : i < s.calls.length := (List.getElem?_eq_some_iff.mp hi).1
            exact ih _ t pc hu (by simp only; rw [List.getElem?_append_left hlt]; exact hi) hc he
          | run j ch =>
            by_cases e : j = i
            · subst e
              have hof : Act.of j (.run j ch) = true := by simp [Act.of]
              rw [if_pos hof]
              rcases hc with hc | ⟨r, _, rfl⟩
              · obtain ⟨p', pc', hs, hl, hc'⟩ := close_step h (List.mem_of_getElem? hi) hc ch
                simp only [State.next, hi, hs] at hn
                cases hn
                obtain ⟨h1, h2⟩ := ih _ t pc' hu (getElem?_set_self' hi) hc' he
                exact ⟨by omega, h2⟩
              · simp only [State.next, hi, step] at hn; cases hn
            · have hof : Act.of i (.run j ch) = false := by simp [Act.of, e]
              rw [if_neg (by simp [hof])]
              refine ih _ t pc hu ?_ hc he
              simp only [State.next] at hn
              split at hn
              · cases hn
              · split at hn
                · cases hn
                · cases hn
                  simp only
                  rw [List.getElem?_set_ne e]; exact hi
    exact fun hc {as t} he => key as s t pc h hi (.inl (.inl hc)) he
  · rintro rfl
    have hl := (locked_reach (locked_init max) h).one
    constructor
    · constructor
      · intro hst
        have := hst .go
        simp only [State.next, hi, step] at this
        cases hlk : s.pool.lock with
        | false => simp [hlk] at this
        | true =>
          rw [hlk] at hl
          have : 0 < s.calls.countP PC.holds := by rw [hl]; exact Nat.one_pos
          exact List.countP_pos_iff.mp this
      · intro hq ch
        have := List.countP_pos_iff.mpr hq
        have hlk : s.pool.lock = true := by
          cases e : s.pool.lock with
          | true => rfl
          | false => rw [e] at hl; simp at hl; obtain ⟨q, h1, h2⟩ := hq; rw [hl q h1] at h2; cases h2
        simp [State.next, hi, step, hlk]
    · intro ch u hu
      simp only [State.next, hi, step] at hu
      cases hlk : s.pool.lock with
      | true => simp [hlk] at hu
      | false => simp only [hlk] at hu; cases hu; exact getElem?_set_self' hi

/-- C98 at work: the pool is closed while a client holds its connection. -/
example : (after 1 (openNew 0 ++ [.call .poolClose, .run 1 .go])).calls[1]? = some (.poolClose [0]) ∧
    (after 1 (openNew 0 ++ closePool 1 1)).calls[1]? = some (.done (.poolClosed true)) ∧ (after 1 (openNew 0 ++ closePool 1 1)).pool.out = [0] := by decide

/-- C98 is false: an `OpenPool` that waits for a connection holds the lock, so that `Close` of the pool waits for a client to
return a connection. Both go on only when the client that holds one closes it. -/
theorem c98_false : ∃ s, Reach .client (.init 1) s ∧ s.calls = [.done (.opened 0), .receiving, .poolClosing] ∧ s.pool.out = [0] ∧ Stuck s 1 ∧ Stuck s 2 :=
  ⟨_, client_after (as := openNew 0 ++ [.call .openPool, .run 1 .go, .run 1 .go, .call .poolClose]) (by decide), by decide, by decide,
    fun ch => by cases ch <;> rfl, fun ch => by cases ch <;> rfl⟩

/-! ## C99 -/

/-- Closing statements and rolling back transactions does not fail. -/
def Rules.noStmt : Rules := ⟨fun _ _ => True, fun ch => ch ≠ .stmtFails⟩

/-- A `Close` of the pool that has failed. -/
def PC.failedClose : PC → Bool
  | .poolClosed false | .done (.poolClosed false) => true
  | _ => false

/-- The connections of `connRefs` that are closed. -/
def nShut (p : Pool) : Nat := p.refs.countP fun c => (p.conns c).closed

/-- A `Close` of the pool works on `connRefs`. -/
def PC.onRefs (p : Pool) : PC → Prop
  | .poolClose rest => ∀ c ∈ rest, c ∈ p.refs
  | .poolCloseConn c rest => ∀ d ∈ c :: rest, d ∈ p.refs
  | _ => True

structure Tries (s : State) : Prop where
  refs : ∀ pc ∈ s.calls, pc.onRefs s.pool
  count : s.calls.countP PC.failedClose ≤ nShut s.pool

theorem onRefs_mono {p p' : Pool} (h : ∀ c ∈ p.refs, c ∈ p'.refs) {pc : PC} (ho : pc.onRefs p) : pc.onRefs p' := by
  unfold PC.onRefs at ho ⊢
  split
  · exact fun c hc => h c (ho c hc)
  · exact fun c hc => h c (ho c hc)
  · trivial

theorem countP_mono_of {l : List Nat} {f g : Nat → Bool} (h : ∀ c ∈ l, f c = true → g c = true) : l.countP f ≤ l.countP g := by
  induction l with
  | nil => exact Nat.le_refl _
  | cons a l ih =>
    rw [List.countP_cons, List.countP_cons]
    have h1 := ih fun c hc => h c (by simp [hc])
    have h2 := h a (by simp)
    cases hf : f a with
    | false => simp; omega
    | true => simp [h2 hf]; omega

theorem countP_more {l : List Nat} {f g : Nat → Bool} (h : ∀ c ∈ l, f c = true → g c = true) {a : Nat} (ha : a ∈ l) (hf : f a = false) (hg : g a = true) :
    l.countP f + 1 ≤ l.countP g := by
  induction l with
  | nil => cases ha
  | cons b l ih =>
    rw [List.countP_cons, List.countP_cons]
    have h1 := countP_mono_of fun c hc => h c (List.mem_cons_of_mem b hc)
    have h2 := h b (by simp)
    rcases List.mem_cons.mp ha with rfl | ha
    · simp [hf, hg]; omega
    · have := ih (fun c hc => h c (by simp [hc])) ha
      cases hf' : f b with
      | false => simp; omega
      | true => simp [h2 hf']; omega

theorem tries_reach (h : Reach .noStmt (.init max) s) : Own s ∧ Tries s := by
  refine h.inv (I := fun s => Own s ∧ Tries s) ⟨own_init max, fun _ h => (by cases h), Nat.zero_le _⟩ ?_ ?_
  · rintro p calls k ⟨ho, h1, h2⟩ _ hl
    have e : (k.start p).1.refs = p.refs ∧ (∀ d, ((k.start p).1.conns d).closed = (p.conns d).closed) ∧ (k.start p).2.failedClose = false ∧ ∀ q, (k.start p).2.onRefs q := by
      cases k with
      | use c e n =>
        refine ⟨rfl, fun d => ?_, rfl, fun _ => trivial⟩
        unfold Call.start upd; simp only; split
        · next h => subst h; rfl
        · rfl
      | _ => exact ⟨rfl, fun _ => rfl, rfl, fun _ => trivial⟩
    obtain ⟨e1, e2, e3, e4⟩ := e
    refine ⟨own_call hl ho, fun pc hm => ?_, ?_⟩
    · rcases List.mem_append.mp hm with hm | hm
      · exact onRefs_mono (fun c hc => by simp only [e1]; exact hc) (h1 pc hm)
      · rw [List.mem_singleton.mp hm]; exact e4 _
    · simp only [List.countP_append, List.countP_cons, List.countP_nil, e3, nShut, e1, e2]
      simpa [nShut] using h2
  · rintro p pre pc post ch p' pc' ⟨ho, h1, h2⟩ (hch : ch ≠ .stmtFails) hs
    have ht := tr hs
    have hcl := (tr_closer ht).1
    have href : ∃ l, p'.refs = p.refs ++ l := by
      have ret : ∀ {q c ch ok}, Closes p c ch (.ret q ok) → q.refs = p.refs := fun h => by
        rcases closes_ret h with ⟨rfl, _⟩ | ⟨s, bad, _, _, _, rfl, _⟩ <;> rfl
      have snd : ∀ {q c ch m}, Closes p c ch (.send q m) → q.refs = p.refs := fun h => by
        obtain ⟨_, _, rfl, rfl⟩ := closes_send h; rfl
      cases ht with
      | initOk => exact ⟨_, rfl⟩
      | failedRet h => exact ⟨[], by rw [ret h, List.append_nil]⟩
      | failedReclaim h => exact ⟨[], by rw [snd h, List.append_nil]⟩
      | closed h => exact ⟨[], by rw [ret h, List.append_nil]⟩
      | closeErr h => exact ⟨[], by simp only [ret h, List.append_nil]⟩
      | closeReclaim h => exact ⟨[], by rw [snd h, List.append_nil]⟩
      | useRet h => exact ⟨[], by rw [ret h, List.append_nil]⟩
      | useReclaim h => exact ⟨[], by rw [snd h, List.append_nil]⟩
      | poolConn h => exact ⟨[], by rw [ret h, List.append_nil]⟩
      | poolErr h => exact ⟨[], by simp only [ret h, List.append_nil]⟩
      | _ => exact ⟨[], by simp⟩
    obtain ⟨l, hl⟩ := href
    have hsub : ∀ c ∈ p.refs, c ∈ p'.refs := fun c hc => by rw [hl]; exact List.mem_append_left _ hc
    have hmono : ∀ c ∈ p.refs, (p.conns c).closed = true → (p'.conns c).closed = true := fun c hc => hcl c (given_lt ho (ho.refs c hc))
    have hme := h1 pc (mem_mid.mpr (.inl rfl))
    refine ⟨own_step ht ho, fun q hq => ?_, ?_⟩
    · rcases mem_mid.mp hq with rfl | hq
      · cases ht with
        | poolLock => exact fun c hc => hc
        | poolNext => exact hme
        | poolConn h => exact fun c hc => hsub c (hme c (List.mem_cons_of_mem _ hc))
        | _ => exact trivial
      · exact onRefs_mono hsub (h1 q (mem_mid.mpr (.inr hq)))
    · have hle : nShut p ≤ nShut p' := by
        unfold nShut
        rw [hl, List.countP_append]
        have := countP_mono_of (f := fun c => (p.conns c).closed) (g := fun c => (p'.conns c).closed) hmono
        omega
      simp only [List.countP_append, List.countP_cons] at h2 ⊢
      have hgen : (pc'.failedClose = true → pc.failedClose = true) → List.countP PC.failedClose pre + (List.countP PC.failedClose post + if pc'.failedClose = true then 1 else 0) ≤ nShut p' := fun hi => by
        cases e' : pc'.failedClose with
        | false => simp; omega
        | true => simp [hi e'] at h2; simp; omega
      cases ht with
      | @poolErr c rest q h =>
        have hc : c ∈ p.refs := hme c (by simp)
        have : nShut p + 1 ≤ nShut { q with closed := true } := by
          rcases closes_ret h with ⟨rfl, h' | h' | h'⟩ | ⟨s, bad, hf, _, _, rfl, _⟩
          · cases h'.2
          · exact absurd h'.1 hch
          · cases h'.2.2
          · refine countP_more (l := p.refs) (fun d hd hcd => ?_) hc hf ?_
            · exact hmono d hd hcd
            · simp only [shutConn, upd_same]
        have e : (PC.poolCloseConn c rest).failedClose = false := rfl
        simp [e] at h2
        simp [PC.failedClose]
        omega
      | @poolUnlock ok => refine hgen ?_; cases ok <;> intro h <;> exact h
      | _ => refine hgen fun h => ?_; cases h

/-- C99: of all calls of `Close` of a pool, whenever made, at most as many fail as there are connections in it; so calling it
again and again returns nil in the end. Missing: closing a statement or rolling back a transaction fails, see `c99_false`. -/
theorem c99_retry_partial (h : Reach .noStmt (.init max) s) :
    s.calls.countP (fun pc => decide (pc = .done (.poolClosed false))) ≤ s.pool.refs.length := by
  have h1 := (tries_reach h).2.count
  have h2 : s.calls.countP (fun pc => decide (pc = .done (.poolClosed false))) ≤ s.calls.countP PC.failedClose :=
    List.countP_mono_left fun pc _ h => by rw [of_decide_eq_true h]; rfl
  have h3 : nShut s.pool ≤ s.pool.refs.length := List.countP_le_length
  omega

/-- C99 at work: two connections, both sockets fail to close, the third call succeeds. -/
example : (after 2 (openNew 0 ++ openNew 1 ++ [.call .poolClose, .run 2 .go, .run 2 .go, .run 2 .closeErr, .run 2 .go] ++
    [.call .poolClose, .run 3 .go, .run 3 .go, .run 3 .go, .run 3 .go, .run 3 .closeErr, .run 3 .go] ++ closePool 4 2)).calls =
    [.done (.opened 0), .done (.opened 1), .done (.poolClosed false), .done (.poolClosed false), .done (.poolClosed true)] := by decide

/-- A pool in which the first connection has yet to be closed. -/
structure Dirty (p : Pool) : Prop where
  lock : p.lock = false
  refs : p.refs = [0, 1]
  open0 : (p.conns 0).closed = false
  shut : p.shut 1 = false
  sock : (p.conns 1).sock = some 1

theorem dirty_next {p : Pool} {calls : List PC} (h : Dirty p) :
    ∃ p', Dirty p' ∧ Reach .any ⟨p, calls⟩ ⟨p', calls ++ [.done (.poolClosed false)]⟩ := by
  obtain ⟨h1, h2, h3, h4, h5⟩ := h
  have a0 : Reach .any ⟨p, calls⟩ ⟨p, calls ++ [.poolClosing]⟩ := .call (k := .poolClose) .refl trivial (by simp [State.next, Call.legal, Call.start])
  have a1 : Reach .any ⟨p, calls ++ [.poolClosing]⟩ ⟨{ p with lock := true }, calls ++ [.poolClose [0, 1]]⟩ := reach_step (ch := .go) trivial (by simp [step, h1, h2])
  let q : Pool := { p with lock := true, conns := upd p.conns 0 { p.conns 0 with pooled := false } }
  have a2 : Reach .any ⟨{ p with lock := true }, calls ++ [.poolClose [0, 1]]⟩ ⟨q, calls ++ [.poolCloseConn 0 [1]]⟩ := reach_step (ch := .go) trivial rfl
  have hq : (q.conns 0).closed = false := h3
  have hc : closeConn .stmtFails q 0 = .ret q false := by unfold closeConn; simp [hq]
  have a3 : Reach .any ⟨q, calls ++ [.poolCloseConn 0 [1]]⟩ ⟨{ q with closed := true }, calls ++ [.poolClosed false]⟩ := reach_step (ch := .stmtFails) trivial (by simp [step, hc])
  have a4 : Reach .any ⟨{ q with closed := true }, calls ++ [.poolClosed false]⟩ ⟨{ q with closed := true, lock := false }, calls ++ [.done (.poolClosed false)]⟩ := reach_step (ch := .go) trivial rfl
  refine ⟨{ q with closed := true, lock := false }, ⟨rfl, h2, hq, h4, ?_⟩, a0.trans (a1.trans (a2.trans (a3.trans a4)))⟩
  exact h5

/-- C99 is false when closing the statement of a connection fails every time (its server does not answer, say): `Close` of the
pool never gets to the connections behind it, however often it is called. -/
theorem c99_false (n : Nat) : ∃ s, Reach .any (.init 2) s ∧ s.calls = [.done (.opened 0), .done (.opened 1)] ++ List.replicate n (.done (.poolClosed false)) ∧
    sockOf s 1 = some 1 ∧ s.pool.shut 1 = false ∧ s.pool.refs.length = 2 := by
  have key : ∃ s, Reach .any (.init 2) s ∧ Dirty s.pool ∧ s.calls = [.done (.opened 0), .done (.opened 1)] ++ List.replicate n (.done (.poolClosed false)) := by
    induction n with
    | zero => exact ⟨after 2 (openNew 0 ++ openNew 1), reach_after (by decide), ⟨by decide, by decide, by decide, by decide, by decide⟩, by decide⟩
    | succ n ih =>
      obtain ⟨⟨p, calls⟩, h1, h2, h3⟩ := ih
      obtain ⟨p', h4, h5⟩ := dirty_next (calls := calls) h2
      refine ⟨_, h1.trans h5, h4, ?_⟩
      simp only at h3
      simp only [h3, List.append_assoc]
      rw [List.replicate_succ']
  obtain ⟨s, h1, h2, h3⟩ := key
  exact ⟨s, h1, h3, h2.sock, h2.shut, by rw [h2.refs]; rfl⟩

end Bolt.Pooling
