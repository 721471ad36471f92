import Verif.Model.Pool

/-!
# Runs of a pool: inversion of steps, the induction principle, and the lock
-/

namespace Bolt.Pooling

/-- What may happen: which calls clients make, and what the environment does. -/
structure Rules where
  call : Pool → Call → Prop
  run : Choice → Prop

/-- Anything. -/
def Rules.any : Rules := ⟨fun _ _ => True, fun _ => True⟩

/-- The states that can be reached from one, under rules. -/
inductive Reach (R : Rules) (s : State) : State → Prop
  | refl : Reach R s s
  | call {t u : State} {k : Call} : Reach R s t → R.call t.pool k → t.next (.call k) = some u → Reach R s u
  | run {t u : State} {i : Nat} {ch : Choice} : Reach R s t → R.run ch → t.next (.run i ch) = some u → Reach R s u

theorem Reach.trans {R : Rules} {s t u : State} (h1 : Reach R s t) (h2 : Reach R t u) : Reach R s u := by
  induction h2 with
  | refl => exact h1
  | call _ hr h ih => exact .call ih hr h
  | run _ hr h ih => exact .run ih hr h

theorem Reach.mono {R R' : Rules} {s t : State} (hc : ∀ p k, R.call p k → R'.call p k) (hr : ∀ ch, R.run ch → R'.run ch)
    (h : Reach R s t) : Reach R' s t := by
  induction h with
  | refl => exact .refl
  | call _ h1 h ih => exact .call ih (hc _ _ h1) h
  | run _ h1 h ih => exact .run ih (hr _ h1) h

theorem Reach.any {R : Rules} {s t : State} (h : Reach R s t) : Reach .any s t :=
  h.mono (fun _ _ _ => trivial) (fun _ _ => trivial)

theorem reach_exec {s t : State} : ∀ {as : List Act}, s.exec as = some t → Reach .any s t
  | [], h => by cases h; exact .refl
  | a :: as, h => by
    unfold State.exec at h
    cases hn : s.next a with
    | none => rw [hn] at h; cases h
    | some u =>
      simp only [hn] at h
      have h1 : Reach .any s u := by
        cases a with
        | call k => exact Reach.call (t := s) .refl trivial hn
        | run i ch => exact Reach.run (t := s) .refl trivial hn
      exact h1.trans (reach_exec h)

theorem next_call {s u : State} {k : Call} (h : s.next (.call k) = some u) :
    k.legal s.pool ∧ u = ⟨(k.start s.pool).1, s.calls ++ [(k.start s.pool).2]⟩ := by
  simp only [State.next] at h
  by_cases hl : k.legal s.pool
  · rw [if_pos hl] at h; injection h with h; exact ⟨hl, h.symm⟩
  · rw [if_neg hl] at h; cases h

theorem split_at {l : List α} : ∀ {i : Nat} {x : α}, l[i]? = some x → ∃ pre post, l = pre ++ x :: post ∧ ∀ y, l.set i y = pre ++ y :: post := by
  induction l with
  | nil => intro i x h; simp at h
  | cons a l ih =>
    intro i x h
    cases i with
    | zero => simp at h; subst h; exact ⟨[], l, rfl, fun y => rfl⟩
    | succ i =>
      obtain ⟨pre, post, h1, h2⟩ := ih (by simpa using h)
      exact ⟨a :: pre, post, by rw [h1]; rfl, fun y => by simp [h2]⟩

theorem next_run {s u : State} {i : Nat} {ch : Choice} (h : s.next (.run i ch) = some u) :
    ∃ pre pc post p' pc', s.calls = pre ++ pc :: post ∧ step s.pool ch pc = some (p', pc') ∧ u = ⟨p', pre ++ pc' :: post⟩ := by
  unfold State.next at h
  cases hi : s.calls[i]? with
  | none => simp only [hi] at h; cases h
  | some pc =>
    simp only [hi] at h
    cases hs : step s.pool ch pc with
    | none => rw [hs] at h; cases h
    | some x =>
      obtain ⟨p', pc'⟩ := x
      rw [hs] at h
      cases h
      obtain ⟨pre, post, h1, h2⟩ := split_at hi
      exact ⟨pre, pc, post, p', pc', h1, hs, by rw [h2]⟩

theorem next_of_step {p p' : Pool} {pre post : List PC} {pc pc' : PC} {ch : Choice} (h : step p ch pc = some (p', pc')) :
    State.next ⟨p, pre ++ pc :: post⟩ (.run pre.length ch) = some ⟨p', pre ++ pc' :: post⟩ := by
  unfold State.next
  have : (pre ++ pc :: post)[pre.length]? = some pc := by simp
  simp only [this, h]
  simp

/-- Induction over what happens. -/
theorem Reach.inv {R : Rules} {I : State → Prop} {s t : State} (h : Reach R s t) (h0 : I s)
    (hc : ∀ p calls k, I ⟨p, calls⟩ → R.call p k → k.legal p → I ⟨(k.start p).1, calls ++ [(k.start p).2]⟩)
    (hr : ∀ p pre pc post ch p' pc', I ⟨p, pre ++ pc :: post⟩ → R.run ch → step p ch pc = some (p', pc') →
      I ⟨p', pre ++ pc' :: post⟩) : I t := by
  induction h with
  | refl => exact h0
  | call _ h1 h ih =>
    obtain ⟨hl, rfl⟩ := next_call h
    exact hc _ _ _ ih h1 hl
  | @run t u i ch _ h1 h ih =>
    obtain ⟨pre, pc, post, p', pc', e, hs, rfl⟩ := next_run h
    refine hr _ _ _ _ _ _ _ ?_ h1 hs
    rw [← e]
    exact ih

/-! ## Closing a connection -/

/-- The pool after `Close` of a connection has closed its socket. -/
def shutConn (p : Pool) (c s : Nat) (bad : Bool) : Pool :=
  { p with shut := upd p.shut s true, conns := upd p.conns c { p.conns c with closed := true, connErr := (p.conns c).connErr || bad } }

/-- What `Close` of a connection does. -/
inductive Closes (p : Pool) (c : Nat) (ch : Choice) : Closing → Prop
  | already : (p.conns c).closed = true → Closes p c ch (.ret p true)
  | stmt : (p.conns c).closed = false → ch = .stmtFails → Closes p c ch (.ret p false)
  | reclaim : (p.conns c).closed = false → (p.conns c).pooled = true → Closes p c ch (.send (reclaim p c).1 p.nConns)
  | none : (p.conns c).closed = false → (p.conns c).pooled = false → (p.conns c).sock = none → Closes p c ch (.ret p true)
  | shut (s : Nat) (bad : Bool) : (p.conns c).closed = false → (p.conns c).pooled = false → (p.conns c).sock = some s →
      (ch = .closeErr → bad = true) → (p.shut s = true → bad = true) → Closes p c ch (.ret (shutConn p c s bad) !bad)

theorem closes (p : Pool) (c : Nat) (ch : Choice) : Closes p c ch (closeConn ch p c) := by
  unfold closeConn
  by_cases hc : (p.conns c).closed = true
  · simp only [if_pos hc]; exact .already hc
  · have hc' : (p.conns c).closed = false := by simpa using hc
    simp only [if_neg hc]
    by_cases h : ch = .stmtFails
    · simp only [if_pos h]; exact .stmt hc' h
    · simp only [if_neg h]
      by_cases hp : (p.conns c).pooled = true
      · simp only [if_pos hp]; exact .reclaim hc' hp
      · have hp' : (p.conns c).pooled = false := by simpa using hp
        simp only [if_neg hp]
        split
        · next hs => exact .none hc' hp' hs
        · next s hs => exact .shut s (decide (ch = Choice.closeErr) || p.shut s) hc' hp' hs (by intro h; simp [h]) (by intro h; simp [h])

theorem closes_ret {p p' : Pool} {c : Nat} {ch : Choice} {ok : Bool} (h : Closes p c ch (.ret p' ok)) :
    (p' = p ∧ (((p.conns c).closed = true ∧ ok = true) ∨ (ch = .stmtFails ∧ ok = false) ∨
        ((p.conns c).pooled = false ∧ (p.conns c).sock = none ∧ ok = true))) ∨
      ∃ s bad, (p.conns c).closed = false ∧ (p.conns c).pooled = false ∧ (p.conns c).sock = some s ∧ p' = shutConn p c s bad ∧ ok = !bad := by
  generalize hx : Closing.ret p' ok = x at h
  cases h with
  | already h => cases hx; exact .inl ⟨rfl, .inl ⟨h, rfl⟩⟩
  | stmt _ h => cases hx; exact .inl ⟨rfl, .inr (.inl ⟨h, rfl⟩)⟩
  | reclaim => cases hx
  | none _ h1 h2 => cases hx; exact .inl ⟨rfl, .inr (.inr ⟨h1, h2, rfl⟩)⟩
  | shut s bad h0 h1 h2 => injection hx with hx hy; exact .inr ⟨s, bad, h0, h1, h2, hx, hy⟩

theorem closes_send {p p' : Pool} {c m : Nat} {ch : Choice} (h : Closes p c ch (.send p' m)) :
    (p.conns c).closed = false ∧ (p.conns c).pooled = true ∧ p' = (reclaim p c).1 ∧ m = p.nConns := by
  cases h with
  | reclaim h1 h2 => exact ⟨h1, h2, rfl, rfl⟩

/-! ## Steps -/

/-- The steps, one by one. -/
inductive Tr (p : Pool) (ch : Choice) : PC → Pool → PC → Prop
  | lock : p.lock = false → Tr p ch .opening { p with lock := true } .locked
  | refuse : p.closed = true → Tr p ch .locked p (.opened none)
  | check : p.closed = false → Tr p ch .locked p .receiving
  | receive {c r} : p.chan = c :: r → Tr p ch .receiving { p with chan := r } (.received c)
  | dialFail {c} : nilOrClosed p c = true → ch = .dialFail →
      Tr p ch (.received c) { p with conns := upd p.conns c { p.conns c with sock := none } } (.failed c 1)
  | initOk {c} : nilOrClosed p c = true → ch = .initOk →
      Tr p ch (.received c) { p with conns := upd p.conns c { p.conns c with sock := some p.nSocks }, inited := upd p.inited p.nSocks true, nSocks := p.nSocks + 1, refs := p.refs ++ [c] } (.opened (some c))
  | initFail {c e n} : nilOrClosed p c = true → ch = .initFail e n →
      Tr p ch (.received c) { p with conns := upd p.conns c { p.conns c with sock := some p.nSocks, connErr := (p.conns c).connErr || e }, nSocks := p.nSocks + 1 } (.failed c (n + 1))
  | initPanic {c} : nilOrClosed p c = true → ch = .panics →
      Tr p ch (.received c) { p with conns := upd p.conns c { p.conns c with sock := some p.nSocks }, nSocks := p.nSocks + 1 } .panicking
  | alive {c} : nilOrClosed p c = false → Tr p ch (.received c) p (.opened (some c))
  | failedEnd {c} : Tr p ch (.failed c 0) p (.opened none)
  | failedRet {c n p' ok} : Closes p c .go (.ret p' ok) → Tr p ch (.failed c (n + 1)) p' (.failed c n)
  | failedReclaim {c n p' m} : Closes p c .go (.send p' m) → Tr p ch (.failed c (n + 1)) p' (.failedSend m c n)
  | failedSend {m c n} : p.chan.length < p.max → Tr p ch (.failedSend m c n) { p with chan := p.chan ++ [m] } (.failed c n)
  | openedNone : Tr p ch (.opened none) { p with lock := false } (.done .openFailed)
  | openedSome {c} : Tr p ch (.opened (some c)) { p with lock := false, out := p.out ++ [c], handed := p.handed ++ [c] } (.done (.opened c))
  | closed {c p'} : Closes p c ch (.ret p' true) → Tr p ch (.closing c) p' (.done (.closed true))
  | closeErr {c p'} : Closes p c ch (.ret p' false) → Tr p ch (.closing c) { p' with out := p'.out ++ [c] } (.done (.closed false))
  | closeReclaim {c p' m} : Closes p c ch (.send p' m) → Tr p ch (.closing c) p' (.closeSend m)
  | closeSend {m} : p.chan.length < p.max → Tr p ch (.closeSend m) { p with chan := p.chan ++ [m] } (.done (.closed true))
  | useEnd {c} : Tr p ch (.using c 0) p (.done .used)
  | useRet {c n p' ok} : Closes p c ch (.ret p' ok) → Tr p ch (.using c (n + 1)) p' (.using c n)
  | useReclaim {c n p' m} : Closes p c ch (.send p' m) → Tr p ch (.using c (n + 1)) p' (.usingSend m c n)
  | useSend {m c n} : p.chan.length < p.max → Tr p ch (.usingSend m c n) { p with chan := p.chan ++ [m] } (.using c n)
  | poolLock : p.lock = false → Tr p ch .poolClosing { p with lock := true } (.poolClose p.refs)
  | poolEnd : Tr p ch (.poolClose []) { p with closed := true } (.poolClosed true)
  | poolNext {c rest} : Tr p ch (.poolClose (c :: rest)) { p with conns := upd p.conns c { p.conns c with pooled := false } } (.poolCloseConn c rest)
  | poolConn {c rest p'} : Closes p c ch (.ret p' true) → Tr p ch (.poolCloseConn c rest) p' (.poolClose rest)
  | poolErr {c rest p'} : Closes p c ch (.ret p' false) → Tr p ch (.poolCloseConn c rest) { p' with closed := true } (.poolClosed false)
  | poolUnlock {ok} : Tr p ch (.poolClosed ok) { p with lock := false } (.done (.poolClosed ok))
  | poolPanic {c rest} : ch = .closePanics → (p.conns c).closed = false → Tr p ch (.poolCloseConn c rest) p .panicking
  | panicEnd : Tr p ch .panicking { p with lock := false } (.done .panicked)

theorem tr {p p' : Pool} {ch : Choice} {pc pc' : PC} (h : step p ch pc = some (p', pc')) : Tr p ch pc p' pc' := by
  cases pc with
  | opening =>
    simp only [step] at h
    cases hl : p.lock with
    | true => simp [hl] at h
    | false => rw [hl] at h; cases h; exact .lock hl
  | locked =>
    simp only [step] at h
    cases hl : p.closed with
    | true => rw [hl] at h; cases h; exact .refuse hl
    | false => rw [hl] at h; cases h; exact .check hl
  | receiving =>
    simp only [step] at h
    cases hl : p.chan with
    | nil => rw [hl] at h; cases h
    | cons c r => rw [hl] at h; cases h; exact .receive hl
  | received c =>
    simp only [step] at h
    cases hn : nilOrClosed p c with
    | false => rw [hn] at h; cases h; exact .alive hn
    | true =>
      rw [hn] at h
      simp only [if_true] at h
      cases ch with
      | dialFail => cases h; exact .dialFail hn rfl
      | initOk => cases h; exact .initOk hn rfl
      | initFail e n => cases h; exact .initFail hn rfl
      | go => cases h
      | stmtFails => cases h
      | closeErr => cases h
      | panics => cases h; exact .initPanic hn rfl
      | closePanics => cases h
  | failed c n =>
    cases n with
    | zero => cases h; exact .failedEnd
    | succ n =>
      simp only [step] at h
      have hc := closes p c .go
      cases hr : closeConn .go p c with
      | ret q ok => rw [hr] at h hc; cases h; exact .failedRet hc
      | send q m => rw [hr] at h hc; cases h; exact .failedReclaim hc
  | failedSend m c n =>
    simp only [step, send] at h
    split at h
    · next hl => cases h; exact .failedSend hl
    · cases h
  | opened r =>
    cases r with
    | none => cases h; exact .openedNone
    | some c => cases h; exact .openedSome
  | closing c =>
    simp only [step] at h
    have hc := closes p c ch
    cases hr : closeConn ch p c with
    | ret q ok =>
      rw [hr] at h hc
      cases ok with
      | true => cases h; exact .closed hc
      | false => cases h; exact .closeErr hc
    | send q m => rw [hr] at h hc; cases h; exact .closeReclaim hc
  | closeSend m =>
    simp only [step, send] at h
    split at h
    · next hl => cases h; exact .closeSend hl
    · cases h
  | «using» c n =>
    cases n with
    | zero => cases h; exact .useEnd
    | succ n =>
      simp only [step] at h
      have hc := closes p c ch
      cases hr : closeConn ch p c with
      | ret q ok => rw [hr] at h hc; cases h; exact .useRet hc
      | send q m => rw [hr] at h hc; cases h; exact .useReclaim hc
  | usingSend m c n =>
    simp only [step, send] at h
    split at h
    · next hl => cases h; exact .useSend hl
    · cases h
  | poolClosing =>
    simp only [step] at h
    cases hl : p.lock with
    | true => simp [hl] at h
    | false => rw [hl] at h; cases h; exact .poolLock hl
  | poolClose rest =>
    cases rest with
    | nil => cases h; exact .poolEnd
    | cons c rest => cases h; exact .poolNext
  | poolCloseConn c rest =>
    simp only [step] at h
    split at h
    · next hp => cases h; exact .poolPanic hp.1 hp.2
    · have hc := closes p c ch
      cases hr : closeConn ch p c with
      | ret q ok =>
        rw [hr] at h hc
        cases ok with
        | true => cases h; exact .poolConn hc
        | false => cases h; exact .poolErr hc
      | send q m => rw [hr] at h hc; cases h
  | poolClosed ok => cases h; exact .poolUnlock
  | panicking => cases h; exact .panicEnd
  | done r => cases h

/-! ## The lock -/

/-- Calls that hold the lock. -/
def PC.holds : PC → Bool
  | .locked | .receiving | .received _ | .failed _ _ | .failedSend _ _ _ | .opened _ | .poolClose _ | .poolCloseConn _ _ | .poolClosed _ | .panicking => true
  | _ => false

/-- `OpenPool` calls that found the pool not closed. -/
def PC.inside : PC → Bool
  | .receiving | .received _ | .failed _ _ | .failedSend _ _ _ | .opened (some _) => true
  | _ => false

/-- The lock is held by exactly the one call that is inside; such a call knows whether the pool is closed. -/
structure Locked (s : State) : Prop where
  one : s.calls.countP PC.holds = s.pool.lock.toNat
  notClosed : ∀ pc ∈ s.calls, pc.inside = true → s.pool.closed = false

theorem closes_lock {p p' : Pool} {c : Nat} {ch : Choice} {ok : Bool} (h : Closes p c ch (.ret p' ok)) : p'.lock = p.lock ∧ p'.closed = p.closed := by
  cases h <;> exact ⟨rfl, rfl⟩

theorem closes_lock' {p p' : Pool} {c m : Nat} {ch : Choice} (h : Closes p c ch (.send p' m)) : p'.lock = p.lock ∧ p'.closed = p.closed := by
  cases h; exact ⟨rfl, rfl⟩

theorem tr_lock {p p' : Pool} {ch : Choice} {pc pc' : PC} (h : Tr p ch pc p' pc') :
    (p'.lock = p.lock ∧ pc'.holds = pc.holds) ∨ (p.lock = false ∧ p'.lock = true ∧ pc.holds = false ∧ pc'.holds = true) ∨
      (p'.lock = false ∧ pc.holds = true ∧ pc'.holds = false) := by
  cases h with
  | lock h => exact .inr (.inl ⟨h, rfl, rfl, rfl⟩)
  | poolLock h => exact .inr (.inl ⟨h, rfl, rfl, rfl⟩)
  | openedNone => exact .inr (.inr ⟨rfl, rfl, rfl⟩)
  | openedSome => exact .inr (.inr ⟨rfl, rfl, rfl⟩)
  | poolUnlock => exact .inr (.inr ⟨rfl, rfl, rfl⟩)
  | panicEnd => exact .inr (.inr ⟨rfl, rfl, rfl⟩)
  | failedRet h => exact .inl ⟨(closes_lock h).1, rfl⟩
  | failedReclaim h => exact .inl ⟨(closes_lock' h).1, rfl⟩
  | closed h => exact .inl ⟨(closes_lock h).1, rfl⟩
  | closeErr h => exact .inl ⟨(closes_lock h).1, rfl⟩
  | closeReclaim h => exact .inl ⟨(closes_lock' h).1, rfl⟩
  | useRet h => exact .inl ⟨(closes_lock h).1, rfl⟩
  | useReclaim h => exact .inl ⟨(closes_lock' h).1, rfl⟩
  | poolConn h => exact .inl ⟨(closes_lock h).1, rfl⟩
  | poolErr h => exact .inl ⟨(closes_lock h).1, rfl⟩
  | _ => exact .inl ⟨rfl, rfl⟩

/-- Only a call that holds the lock and is not inside `OpenPool` closes the pool; only `OpenPool` on a pool that is not
closed gets inside. -/
theorem tr_closed {p p' : Pool} {ch : Choice} {pc pc' : PC} (h : Tr p ch pc p' pc') :
    ((p'.closed = p.closed ∧ (pc'.inside = true → pc.inside = true ∨ p.closed = false)) ∨
      (p'.closed = true ∧ pc.holds = true ∧ pc'.inside = false)) := by
  cases h with
  | check h => exact .inl ⟨rfl, fun _ => .inr h⟩
  | poolEnd => exact .inr ⟨rfl, rfl, rfl⟩
  | poolErr => exact .inr ⟨rfl, rfl, rfl⟩
  | failedRet h => exact .inl ⟨(closes_lock h).2, fun _ => .inl rfl⟩
  | failedReclaim h => exact .inl ⟨(closes_lock' h).2, fun _ => .inl rfl⟩
  | closed h => exact .inl ⟨(closes_lock h).2, fun h => by cases h⟩
  | closeErr h => exact .inl ⟨(closes_lock h).2, fun h => by cases h⟩
  | closeReclaim h => exact .inl ⟨(closes_lock' h).2, fun h => by cases h⟩
  | useRet h => exact .inl ⟨(closes_lock h).2, fun h => by cases h⟩
  | useReclaim h => exact .inl ⟨(closes_lock' h).2, fun h => by cases h⟩
  | poolConn h => exact .inl ⟨(closes_lock h).2, fun h => by cases h⟩
  | _ => exact .inl ⟨rfl, fun h => by first | exact .inl rfl | cases h⟩

theorem holds_of_inside {pc : PC} (h : pc.inside = true) : pc.holds = true := by
  cases pc <;> first | rfl | cases h

theorem count_mid (f : PC → Bool) (pre post : List PC) (pc : PC) :
    (pre ++ pc :: post).countP f = pre.countP f + post.countP f + (f pc).toNat := by
  rw [List.countP_append, List.countP_cons]
  cases f pc <;> simp <;> omega

theorem locked_call {p : Pool} {calls : List PC} (k : Call) (h : Locked ⟨p, calls⟩) : Locked ⟨(k.start p).1, calls ++ [(k.start p).2]⟩ := by
  obtain ⟨h1, h2⟩ := h
  have e : (k.start p).1.lock = p.lock ∧ (k.start p).1.closed = p.closed ∧ (k.start p).2.holds = false := by
    cases k <;> exact ⟨rfl, rfl, rfl⟩
  refine ⟨?_, fun pc hm hi => ?_⟩
  · rw [count_mid]
    simp only [e.1, e.2.2, List.countP_nil]
    simpa using h1
  · rw [e.2.1]
    rcases List.mem_append.mp hm with hm | hm
    · exact h2 _ hm hi
    · rw [List.mem_singleton.mp hm] at hi
      rw [holds_of_inside hi] at e
      cases e.2.2

theorem locked_step {p p' : Pool} {ch : Choice} {pc pc' : PC} {pre post : List PC} (h : Tr p ch pc p' pc') (hl : Locked ⟨p, pre ++ pc :: post⟩) :
    Locked ⟨p', pre ++ pc' :: post⟩ := by
  obtain ⟨h1, h2⟩ := hl
  simp only at h1 h2
  rw [count_mid] at h1
  refine ⟨?_, fun q hm hi => ?_⟩
  · simp only
    rw [count_mid]
    rcases tr_lock h with ⟨e1, e2⟩ | ⟨e1, e2, e3, e4⟩ | ⟨e1, e2, e3⟩
    · rw [e1, e2]; exact h1
    · rw [e1, e3] at h1; rw [e2, e4]; simp only [Bool.toNat_true, Bool.toNat_false] at h1 ⊢; omega
    · rw [e2] at h1; rw [e1, e3]
      have : p.lock.toNat ≤ 1 := by cases p.lock <;> simp
      simp only [Bool.toNat_true, Bool.toNat_false] at h1 ⊢; omega
  · rcases tr_closed h with ⟨e1, e2⟩ | ⟨e1, e2, e3⟩
    · simp only
      rw [e1]
      rcases List.mem_append.mp hm with hm | hm
      · exact h2 _ (List.mem_append_left _ hm) hi
      · rcases List.mem_cons.mp hm with rfl | hm
        · rcases e2 hi with e | e
          · exact h2 _ (by simp) e
          · exact e
        · exact h2 _ (by simp [hm]) hi
    · exfalso
      have hpost : pre.countP PC.holds + post.countP PC.holds = 0 := by
        rw [e2] at h1
        have : p.lock.toNat ≤ 1 := by cases p.lock <;> simp
        simp only [Bool.toNat_true, Bool.toNat_false] at h1 ⊢; omega
      have hq : q ∈ pre ∨ q ∈ post := by
        rcases List.mem_append.mp hm with hm | hm
        · exact .inl hm
        · rcases List.mem_cons.mp hm with rfl | hm
          · rw [e3] at hi; cases hi
          · exact .inr hm
      have hh := holds_of_inside hi
      rcases hq with hq | hq
      · have := List.countP_pos_iff.mpr ⟨q, hq, hh⟩; omega
      · have := List.countP_pos_iff.mpr ⟨q, hq, hh⟩; omega

theorem locked_init (max : Nat) : Locked (.init max) := ⟨rfl, fun pc h => by cases h⟩

theorem locked_reach {R : Rules} {s t : State} (hs : Locked s) (h : Reach R s t) : Locked t :=
  h.inv hs (fun _ _ k hi _ _ => locked_call k hi) (fun _ _ _ _ _ _ _ hi _ hs => locked_step (tr hs) hi)

end Bolt.Pooling
