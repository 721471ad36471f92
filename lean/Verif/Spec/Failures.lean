import Verif.Model.Session
import Verif.Model.Errors

/-!
# What Bolt asks of a client that receives FAILURE

After FAILURE the server ignores everything until it is sent ACK_FAILURE or RESET. So the next message a client sends
after FAILURE is ACK_FAILURE; when the server answers that with FAILURE too, it is RESET. Stated about the sequence of
messages sent and received only.
-/

namespace Bolt

/-- Neither a FAILURE received, nor ACK_FAILURE or RESET sent. -/
def Event.plain : Event → Bool
  | .recv (.val (.failure _)) => false
  | .send .ackFailure _ => false
  | .send .reset _ => false
  | _ => true

/-- Nothing but IGNORED messages received. -/
def OnlyIgnored (l : List Event) : Prop := ∀ e ∈ l, e = .recv (.val .ignored)

/-- RESET, and what follows until it is answered: sending it failed, or IGNORED messages and then something else were
read. -/
inductive ResetBlock : List Event → Prop where
  | unsent (e : GoErr) : ResetBlock [.send .reset (some e)]
  | answered {ig : List Event} (i : Item) : OnlyIgnored ig → i.isIgnored = false → ResetBlock (.send .reset none :: (ig ++ [.recv i]))

/-- ACK_FAILURE, and what follows until it is answered; if by FAILURE, RESET and what follows until that is answered. -/
inductive AckBlock : List Event → Prop where
  | unsent (e : GoErr) : AckBlock [.send .ackFailure (some e)]
  | answered {ig : List Event} (i : Item) : OnlyIgnored ig → i.isIgnored = false → (Event.recv i).plain = true →
      AckBlock (.send .ackFailure none :: (ig ++ [.recv i]))
  | refused {ig r : List Event} (md : KVs) : OnlyIgnored ig → ResetBlock r →
      AckBlock (.send .ackFailure none :: (ig ++ .recv (.val (.failure md)) :: r))

/-- Every FAILURE received is acknowledged at once, and nothing else is acknowledged. -/
inductive Handled : List Event → Prop where
  | nil : Handled []
  | plain {e : Event} {l : List Event} : e.plain = true → Handled l → Handled (e :: l)
  | failure {a l : List Event} (md : KVs) : AckBlock a → Handled l → Handled (.recv (.val (.failure md)) :: (a ++ l))

/-- The server answered ACK_FAILURE with SUCCESS, or with FAILURE and then RESET with SUCCESS: it will execute
statements again. -/
inductive Settled : List Event → Prop where
  | ack {ig : List Event} (md : KVs) : OnlyIgnored ig → Settled (.send .ackFailure none :: (ig ++ [.recv (.val (.success md))]))
  | reset {ig ig' : List Event} (md md' : KVs) : OnlyIgnored ig → OnlyIgnored ig' →
      Settled (.send .ackFailure none :: (ig ++ .recv (.val (.failure md)) :: .send .reset none :: (ig' ++ [.recv (.val (.success md'))])))

/-- Among these events, FAILURE with this metadata was received and settled, or it was the answer to RESET. -/
def Reported (md : KVs) (l : List Event) : Prop :=
  (∃ l1 a l2, l = l1 ++ .recv (.val (.failure md)) :: (a ++ l2) ∧ Settled a) ∨
  (∃ l1 ig l2, l = l1 ++ .send .reset none :: (ig ++ .recv (.val (.failure md)) :: l2) ∧ OnlyIgnored ig)

end Bolt
