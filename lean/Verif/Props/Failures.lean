import Verif.Proofs.Failures
import Verif.Model.Opening
import Verif.Spec.Histories

/-!
# Failures are acknowledged, and reported failures were received

C78, C79, for every peer, every state and every call.
-/

namespace Bolt

variable {σ : Type} {P : Peer σ}

/-- C78 for a single call, whether it returns or panics. -/
theorem c78_call (n : Nat) (op : Op) (w : World σ) : ∃ l, Handled l ∧
    match op.run P (closeN P n) w with
    | .ok _ w' | .panic _ w' | .deep w' => w'.log = w.log ++ l := by
  obtain ⟨l, h1, h2, _⟩ := tells_op (tells_closeN (P := P) n) op w
  refine ⟨l, h2, ?_⟩
  cases h : op.run P (closeN P n) w <;> rw [h] at h1 <;> exact h1

/-- C78: any sequence of calls. -/
theorem c78_calls {n : Nat} {w w' : World σ} (h : Reach P n w w') : ∃ l, w'.log = w.log ++ l ∧ Handled l := by
  induction h with
  | refl => exact ⟨[], by simp, .nil⟩
  | @step w1 w2 op e _ _ hr ih =>
    obtain ⟨l, h1, h2⟩ := ih
    obtain ⟨l', h3, h4⟩ := c78_call (P := P) n op w1
    rw [hr] at h4
    exact ⟨l ++ l', by rw [h4, h1, List.append_assoc], h2.append h3⟩

/-- C78 for opening a connection. -/
theorem c78_init (n : Nat) (tok : KVs) (w : World σ) : ∃ l, Handled l ∧
    match initSession P (closeN P n) tok w with
    | .ok _ w' | .panic _ w' | .deep w' => w'.log = w.log ++ l := by
  have hc := tells_closeN (P := P) n
  have h0 : Tells (fun _ => False) (sendInit P (closeN P n) tok) := by
    unfold sendInit
    repeat' first | exact (tells_consume hc).any | tell_step
  have h : Tells (fun _ => False) (initSession P (closeN P n) tok) := by
    unfold initSession
    repeat' first | exact h0.any | exact hc.any | tell_step
  obtain ⟨l, h1, h2, _⟩ := h w
  refine ⟨l, h2, ?_⟩
  cases h : initSession P (closeN P n) tok w <;> rw [h] at h1 <;> exact h1

/-- C79: when a call returns an error whose innermost error is FAILURE with metadata `md`, that FAILURE was received
during this call; and the server confirmed that it executes statements again, or the FAILURE was its answer to RESET. The
hypothesis says that no error of the decoder is a FAILURE; the decoder has none. -/
theorem c79_reported {n : Nat} {op : Op} {w w' : World σ} {e : GoErr} {md : KVs} (h : op.run P (closeN P n) w = .ok (some e) w')
    (he : e.innerMost = .failure md) (hb : ∀ e half, .recv (.bad e half) ∈ w'.log → ∀ md, e.innerMost ≠ .failure md) :
    ∃ l, w'.log = w.log ++ l ∧ Reported md l := by
  obtain ⟨l, h1, _, h3⟩ := tells_op (tells_closeN (P := P) n) op w
  rw [h] at h1
  change w'.log = _ at h1
  refine ⟨l, h1, ?_⟩
  rcases h3 _ _ h md he with h | h | ⟨e', half, h4, h5⟩
  · exact h.elim
  · exact h
  · exact (hb e' half (by rw [h1]; simp [h4]) md h5).elim

/-! ## Cases -/

/-- What was sent and received, as numbers. -/
def Event.tag : Event → Nat
  | .send (.run _ _) none => 1
  | .send .pullAll none => 2
  | .send .ackFailure none => 3
  | .send .reset none => 4
  | .recv (.val (.success _)) => 11
  | .recv (.val (.failure _)) => 12
  | .recv (.val .ignored) => 13
  | _ => 0

/-- A server that refuses a query, then ACK_FAILURE, and accepts RESET. -/
def stubborn : List (List Item) :=
  [[.val (.failure [([99], .int .int64 1)])], [.val .ignored], [.val (.failure [])], [.val (.success [])]]

/-- C78 and C79 apply to it: the call returns an error with the metadata of the first FAILURE. -/
theorem c78_case : ∃ e w, (Op.exec [65] []).run script (closeN script 1) (scriptConn stubborn) = .ok (some e) w ∧
    w.log.map Event.tag = [1, 2, 12, 3, 13, 12, 4, 11] ∧ ∃ md, e.innerMost = .failure md := by
  obtain ⟨a, w, h1, h2⟩ := Out.of_test (o := (Op.exec [65] []).run script (closeN script 1) (scriptConn stubborn))
    (p := fun a w => (match a with | some e => (match e.innerMost with | .failure _ => true | _ => false) | none => false) &&
      w.log.map Event.tag == [1, 2, 12, 3, 13, 12, 4, 11]) (by decide +kernel)
  cases a with
  | none => cases h2
  | some e =>
    rw [Bool.and_eq_true] at h2
    refine ⟨e, w, h1, by simpa using h2.2, ?_⟩
    have h3 := h2.1
    cases hi : e.innerMost with
    | failure md => exact ⟨md, rfl⟩
    | _ => simp only [hi] at h3; cases h3

example : ∃ e w md l, (Op.exec [65] []).run script (closeN script 1) (scriptConn stubborn) = .ok (some e) w ∧ e.innerMost = .failure md ∧
    w.log = (scriptConn stubborn).log ++ l ∧ Reported md l ∧ Handled l := by
  obtain ⟨e, w, h1, h2, md, h3⟩ := c78_case
  have hb : ∀ e half, .recv (.bad e half) ∈ w.log → ∀ md, e.innerMost ≠ .failure md := by
    intro e half he
    have : 0 ∈ w.log.map Event.tag := List.mem_map.2 ⟨_, he, rfl⟩
    rw [h2] at this
    simp at this
  obtain ⟨l, h4, h5⟩ := c79_reported h1 h3 hb
  obtain ⟨l', h6, h7⟩ := c78_call (P := script) 1 (.exec [65] []) (scriptConn stubborn)
  rw [h1] at h7
  have : l' = l := List.append_cancel_left (h7.symm.trans h4)
  subst this
  exact ⟨e, w, md, l', h1, h3, h4, h5, h6⟩

end Bolt
