import Verif.Spec.Failures

/-!
# Failures the server does not let the driver clear

A driver that got FAILURE clears it with ACK_FAILURE, and if that is refused with RESET. The server does not let it when
RESET is answered with anything but SUCCESS, or ACK_FAILURE with something that is neither SUCCESS nor FAILURE; IGNORED
messages before the answer are what the server still had to say about earlier requests. Then the session is of no use any
more. Stated about the sequence of messages sent and received only.
-/

namespace Bolt

/-- The value is no answer to a request that has to be obeyed: not SUCCESS, and not IGNORED. -/
def Denies (v : Val) : Prop := v ≠ .ignored ∧ ∀ md, v ≠ .success md

/-- Among these events the server did not let the driver clear a failure. -/
inductive Hopeless : List Event → Prop where
  | reset {l1 ig : List Event} {v : Val} {l2 : List Event} : OnlyIgnored ig → Denies v →
      Hopeless (l1 ++ .send .reset none :: (ig ++ .recv (.val v) :: l2))
  | ack {l1 ig : List Event} {v : Val} {l2 : List Event} : OnlyIgnored ig → Denies v → (∀ md, v ≠ .failure md) →
      Hopeless (l1 ++ .send .ackFailure none :: (ig ++ .recv (.val v) :: l2))

/-- The current statement has rows that closing the connection has to empty first: rows of a prepared statement. Rows of a
query made on the connection itself are not emptied (`closeStmt`, stmt.go:63). -/
def World.HoldsRows {σ : Type} (w : World σ) : Prop :=
  ∃ s r, w.statement = some s ∧ (w.stmt s).rows = some r ∧ (w.row r).closeStmt = false

end Bolt
