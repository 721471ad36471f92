import Verif.Model.CloseRace

/-!
# Closing a connection while its pool is being closed (C100)
-/

namespace Bolt.Race

theorem run_append (s : State) (a b : List (Bool × Bool)) : s.run (a ++ b) = (s.run a).run b := by
  induction a generalizing s with
  | nil => rfl
  | cons x a ih => exact ih _

/-- Induction over schedules. -/
theorem run_inv {I : State → Prop} {B : Bool → Prop} (hstep : ∀ s c b, B b → I s → I (s.next c b)) {s : State} (h : I s) {sch : List (Bool × Bool)} (hb : ∀ x ∈ sch, B x.2) :
    I (s.run sch) := by
  induction sch generalizing s with
  | nil => exact h
  | cons x sch ih => exact ih (hstep s x.1 x.2 (hb x (by simp)) h) fun y hy => hb y (by simp [hy])

/-! ## What holds at all times -/

/-- Calls that have closed the socket. -/
def PC.past : PC → Bool
  | .flag _ | .err => true
  | _ => false

/-- Where `Close` of the pool can be: its own write has happened, so it never finds `poolDriver` set. -/
def PC.direct : PC → Bool
  | .unset | .start | .pool | .sock | .flag _ | .err | .done _ => true
  | _ => false

structure Inv (s : State) : Prop where
  closed : s.mem.closed = true → s.mem.shut = true
  client : s.client.past = true → s.mem.shut = true
  pool : s.pool.past = true → s.mem.shut = true
  direct : s.pool.direct = true
  unset : s.pool = .unset ∨ s.mem.poolDriver = false
  done : (∃ ok, s.pool = .done ok) → s.mem.shut = true

theorem inv_init (e : Bool) : Inv (.init e) := ⟨by decide +revert, by decide +revert, by decide +revert, rfl, .inl rfl, by rintro ⟨ok, h⟩; cases h⟩

theorem inv_next (s : State) (c b : Bool) (h : Inv s) : Inv (s.next c b) := by
  obtain ⟨m, cl, po⟩ := s
  obtain ⟨h1, h2, h3, h4, h5, h6⟩ := h
  simp only at h1 h2 h3 h4 h5 h6
  cases c with
  | true =>
    cases cl with
    | start | pool | call | test1 | test2 => simp only [State.next, step, if_true]; split <;> exact ⟨h1, fun h => (by cases h), h3, h4, h5, h6⟩
    | flag e => cases e <;> exact ⟨fun _ => h2 rfl, fun _ => h2 rfl, h3, h4, h5, h6⟩
    | sock => exact ⟨fun _ => rfl, fun _ => rfl, fun _ => rfl, h4, h5, fun _ => rfl⟩
    | unset => exact ⟨h1, fun h => (by cases h), h3, h4, .inr rfl, h6⟩
    | _ => exact ⟨h1, fun h => (by cases h), h3, h4, h5, h6⟩
  | false =>
    have hp : po ≠ .unset → m.poolDriver = false := fun hne => h5.resolve_left hne
    cases po with
    | unset => exact ⟨h1, h2, fun h => (by cases h), rfl, .inr rfl, fun ⟨ok, h⟩ => (by cases h)⟩
    | start =>
      simp only [State.next, step, Bool.false_eq_true, if_false]
      split
      · next hc => exact ⟨h1, h2, fun h => (by cases h), rfl, .inr (hp (by simp)), fun _ => h1 hc⟩
      · exact ⟨h1, h2, fun h => (by cases h), rfl, .inr (hp (by simp)), fun ⟨ok, h⟩ => (by cases h)⟩
    | pool =>
      simp only [State.next, step, Bool.false_eq_true, if_false, hp (by simp)]
      exact ⟨h1, h2, fun h => (by cases h), rfl, .inr (hp (by simp)), fun ⟨ok, h⟩ => (by cases h)⟩
    | sock => exact ⟨fun _ => rfl, fun _ => rfl, fun _ => rfl, rfl, .inr (hp (by simp)), fun _ => rfl⟩
    | flag e =>
      have := h3 rfl
      cases e <;> exact ⟨fun _ => this, h2, fun _ => this, rfl, .inr (hp (by simp)), fun _ => this⟩
    | err => exact ⟨h1, h2, fun h => (by cases h), rfl, .inr (hp (by simp)), fun _ => h3 rfl⟩
    | done ok => exact ⟨h1, h2, fun h => (by cases h), rfl, .inr (hp (by simp)), h6⟩
    | _ => cases h4

/-- Calls that will return nil, or have. -/
def PC.fine : PC → Bool
  | .flag false | .done true => true
  | _ => false

/-- Calls that will return an error, or have. -/
def PC.fails : PC → Bool
  | .flag true | .err | .done false => true
  | _ => false

/-- When closing the socket once does not fail. -/
structure One (s : State) : Prop where
  shut : s.mem.shut = true → s.client.fine = true ∨ s.pool.fine = true
  client : s.client.fails = true → s.pool.fine = true
  pool : s.pool.fails = true → s.client.fine = true

theorem step_fine {b : Bool} {m : Mem} {pc : PC} (h : pc.fine = true) : (step b m pc).2.fine = true ∧ (step b m pc).1.shut = m.shut := by
  unfold PC.fine at h; split at h
  · exact ⟨rfl, rfl⟩
  · exact ⟨rfl, rfl⟩
  · cases h

/-- What one call does, when the socket is closed only if the other call is fine or it is itself. -/
theorem one_call {m : Mem} {pc other : PC} (h1 : m.shut = true → pc.fine = true ∨ other.fine = true) (h2 : pc.fails = true → other.fine = true) (h3 : other.fails = true → pc.fine = true) :
    ((step false m pc).1.shut = true → (step false m pc).2.fine = true ∨ other.fine = true) ∧ ((step false m pc).2.fails = true → other.fine = true) ∧
    (other.fails = true → (step false m pc).2.fine = true) := by
  have keep : ∀ {x : Mem × PC}, x.1.shut = m.shut → pc.fine = false → x.2.fails = false → (x.1.shut = true → x.2.fine = true ∨ other.fine = true) ∧ (x.2.fails = true → other.fine = true) ∧
      (other.fails = true → x.2.fine = true) := fun e hf hx => ⟨fun h => .inr ((h1 (e ▸ h)).resolve_left (by simp [hf])), fun h => (by rw [hx] at h; cases h), fun h => (by have := h3 h; rw [hf] at this; cases this)⟩
  cases pc with
  | sock =>
    have hn : ∀ h, other.fails = true → h := fun _ h => (by cases h3 h)
    cases hs : m.shut with
    | false => exact ⟨fun _ => .inl (by simp [step, hs, PC.fine]), fun h => (by simp [step, hs, PC.fails] at h), hn _⟩
    | true =>
      have := (h1 hs).resolve_left (by simp [PC.fine])
      exact ⟨fun _ => .inr this, fun _ => this, hn _⟩
  | flag e =>
    cases e with
    | false => exact ⟨fun _ => .inl rfl, fun h => (by cases h), fun _ => rfl⟩
    | true => exact ⟨fun _ => .inr (h2 rfl), fun _ => h2 rfl, fun h => (by cases h3 h)⟩
  | err => exact ⟨fun _ => .inr (h2 rfl), fun _ => h2 rfl, fun h => (by cases h3 h)⟩
  | done ok =>
    cases ok with
    | true => exact ⟨fun _ => .inl rfl, fun h => (by cases h), fun _ => rfl⟩
    | false => exact ⟨fun _ => .inr (h2 rfl), fun _ => h2 rfl, fun h => (by cases h3 h)⟩
  | start | pool | call | test1 | test2 => refine keep rfl rfl ?_; simp only [step]; split <;> rfl
  | unset | copy1 | copy2 | send | panicked => exact keep rfl rfl rfl

theorem one_next (s : State) (c b : Bool) (hb : b = false) (h : One s) : One (s.next c b) := by
  obtain ⟨m, cl, po⟩ := s
  obtain ⟨h1, h2, h3⟩ := h
  subst hb
  cases c with
  | true =>
    obtain ⟨a1, a2, a3⟩ := one_call (m := m) (pc := cl) (other := po) h1 h2 h3
    exact ⟨a1, a2, a3⟩
  | false =>
    obtain ⟨a1, a2, a3⟩ := one_call (m := m) (pc := po) (other := cl) (fun h => (h1 h).symm) h3 h2
    exact ⟨fun h => (a1 h).symm, a3, a2⟩

/-! ## How long it takes -/

/-- How many steps a call has still to make, at most. -/
def PC.rank : PC → Nat
  | .unset => 10
  | .start => 9
  | .pool => 8
  | .call => 7
  | .test1 => 6
  | .test2 => 5
  | .copy1 => 4
  | .copy2 _ => 3
  | .sock => 3
  | .flag _ => 2
  | .err => 1
  | .send _ => 1
  | .done _ | .panicked => 0

theorem step_rank (b : Bool) (m : Mem) (pc : PC) : (step b m pc).2.rank ≤ pc.rank - 1 := by
  cases pc <;> simp only [step] <;> try split
  all_goals simp [PC.rank]

theorem run_rank (sch : List (Bool × Bool)) (s : State) :
    (s.run sch).client.rank ≤ s.client.rank - sch.countP (·.1) ∧ (s.run sch).pool.rank ≤ s.pool.rank - sch.countP (! ·.1) := by
  induction sch generalizing s with
  | nil => exact ⟨Nat.le_refl _, Nat.le_refl _⟩
  | cons x sch ih =>
    obtain ⟨c, b⟩ := x
    obtain ⟨h1, h2⟩ := ih (s.next c b)
    cases c with
    | true =>
      have h3 : (s.next true b).client.rank ≤ s.client.rank - 1 := step_rank b s.mem s.client
      have h4 : (s.next true b).pool = s.pool := rfl
      rw [h4] at h2
      simp only [State.run, List.countP_cons]
      simp
      omega
    | false =>
      have h3 : (s.next false b).pool.rank ≤ s.pool.rank - 1 := step_rank b s.mem s.pool
      have h4 : (s.next false b).client = s.client := rfl
      rw [h4] at h1
      simp only [State.run, List.countP_cons]
      simp
      omega

theorem rank_zero {pc : PC} (h : pc.rank = 0) : (∃ ok, pc = .done ok) ∨ pc = .panicked := by
  cases pc with
  | done ok => exact .inl ⟨ok, rfl⟩
  | panicked => exact .inr rfl
  | _ => simp [PC.rank] at h

/-! ## C100 -/

/-- C100: whatever the interleaving of a client's `Close` of its connection with the pool's, both come to an end by
themselves; the pool's never panics, and when it has returned the socket is closed; if closing the socket does not fail, at
most one of the two returns an error. Missing: that neither panics nor returns an error, see `c100_panic_false` and
`c100_error_false`. -/
theorem c100_race_partial (e : Bool) (sch : List (Bool × Bool)) :
    let s := (State.init e).run sch
    (9 ≤ sch.countP (·.1) → (∃ ok, s.client = .done ok) ∨ s.client = .panicked) ∧ (10 ≤ sch.countP (! ·.1) → ∃ ok, s.pool = .done ok) ∧
    s.pool ≠ .panicked ∧ ((∃ ok, s.pool = .done ok) → s.mem.shut = true) ∧
    ((∀ x ∈ sch, x.2 = false) → ¬ (s.client = .done false ∧ s.pool = .done false)) := by
  have hi : Inv ((State.init e).run sch) := run_inv (B := fun _ => True) (fun s c b _ h => inv_next s c b h) (inv_init e) fun _ _ => trivial
  obtain ⟨r1, r2⟩ := run_rank sch (.init e)
  have e1 : (State.init e).client.rank = 9 := rfl
  have e2 : (State.init e).pool.rank = 10 := rfl
  have hnp : ((State.init e).run sch).pool ≠ .panicked := fun h => by
    have := hi.direct
    rw [h] at this; cases this
  refine ⟨fun h => rank_zero (by omega), fun h => (rank_zero (by omega)).resolve_right hnp, hnp, hi.done, fun hb hd => ?_⟩
  have ho : One ((State.init e).run sch) := run_inv (B := fun b => b = false) (fun s c b hb h => one_next s c b hb h)
    ⟨fun h => (by cases h), fun h => (by cases h), fun h => (by cases h)⟩ hb
  have := ho.client (by rw [hd.1]; rfl)
  rw [hd.2] at this; cases this

/-- C100: calls that do not overlap return nil, when closing the socket does not fail: the client's first. -/
theorem c100_first_partial (e : Bool) :
    let s := (State.init e).run (List.replicate 9 (true, false))
    s.client = .done true ∧ s.mem.sent.isSome = true ∧ (s.run (List.replicate 10 (false, false))).pool = .done true := by
  cases e <;> decide

/-- C100: the pool's first. -/
theorem c100_last_partial (e : Bool) :
    let s := (State.init e).run (List.replicate 10 (false, false))
    s.pool = .done true ∧ (s.run (List.replicate 9 (true, false))).client = .done true := by
  cases e <;> decide

/-- C100 is false: `Close` of the connection panics when the pool's loop sets `poolDriver` to nil between its two reads of
that field. -/
theorem c100_panic_false : ∃ sch, (∀ x ∈ sch, x.2 = false) ∧ ((State.init false).run sch).client = .panicked :=
  ⟨[(true, false), (true, false), (false, false), (true, false)], by decide, by decide⟩

/-- C100 is false: both close the socket, and `Close` of the pool gets the error, without any fault of the network. (It then
stops, and leaves the connections after this one open: `c98`, `c99`.) -/
theorem c100_error_false : ∃ sch, (∀ x ∈ sch, x.2 = false) ∧ ((State.init false).run sch).client = .done true ∧ ((State.init false).run sch).pool = .done false :=
  ⟨[(false, false), (true, false), (true, false), (false, false), (false, false), (true, false), (false, false), (true, false), (false, false), (false, false)], by decide, by decide, by decide⟩

/-- C100: and the client gets the error. -/
theorem c100_client_false : ∃ sch, (∀ x ∈ sch, x.2 = false) ∧ ((State.init false).run sch).client = .done false ∧ ((State.init false).run sch).pool = .done true :=
  ⟨[(false, false), (true, false), (true, false), (false, false), (false, false), (false, false), (true, false), (true, false), (true, false), (false, false)], by decide, by decide, by decide⟩

/-- C100 at work: the client's `Close` returns its connection while the pool closes the socket. -/
example : (State.init false).run [(true, false), (true, false), (true, false), (false, false), (true, false), (false, false), (true, false), (false, false), (false, false), (false, false), (true, false), (true, false), (true, false)] =
    ⟨⟨true, false, false, true, some (some (true, false))⟩, .done true, .done true⟩ := by decide

end Bolt.Race
