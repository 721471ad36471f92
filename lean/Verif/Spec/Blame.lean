import Verif.Spec.Failures

/-!
# When a caller should see `driver.ErrBadConn`

doc.go:91-93: "If there is an error with the database connection, you should get a sql/driver ErrBadConn as per the best
practice recommendations of the Golang SQL Driver. However, this error may be wrapped, so you might have to call
`InnerMost` to get it". Stated about the messages sent and received and the error returned only.
-/

namespace Bolt

/-- The error is or wraps `driver.ErrBadConn`: `InnerMost` (errors/errors.go:53-63) gives it. -/
def GoErr.isBadConn (e : GoErr) : Bool := match e.innerMost with | .badConn => true | _ => false

/-- Reading or writing the socket failed, otherwise than by the end of the stream: before a message, within one, or
while sending one. -/
def Event.netErr : Event → Bool
  | .recv .ioerr => true
  | .recv (.bad e _) => e.isBadConn
  | .send _ (some e) => e.isBadConn
  | _ => false

/-- The network failed during these exchanges. -/
def NetErr (l : List Event) : Prop := ∃ x ∈ l, x.netErr = true

/-- The server answered RESET with FAILURE. -/
def RefusedReset (l : List Event) : Prop :=
  ∃ l1 ig md l2, l = l1 ++ .send .reset none :: (ig ++ .recv (.val (.failure md)) :: l2) ∧ OnlyIgnored ig

/-- One of the answers a server may give to ACK_FAILURE and RESET. -/
def Val.isAnswer : Val → Bool
  | .success _ | .failure _ | .ignored => true
  | _ => false

/-- The server answered ACK_FAILURE or RESET with something else than SUCCESS, FAILURE or IGNORED. -/
def StrangeAnswer (l : List Event) : Prop :=
  ∃ l1 m ig v l2, l = l1 ++ .send m none :: (ig ++ .recv (.val v) :: l2) ∧ OnlyIgnored ig ∧ (m = .ackFailure ∨ m = .reset) ∧ v.isAnswer = false

end Bolt
