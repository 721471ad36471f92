import Verif.Model.Session

/-!
# A connection of a pool and its users, one after the other

conn.go:361-387 and driver.go:176-193 on the state of the session. The channel, the lock and the choice of the connection
are in Verif/Model/Pool.lean; here one connection is followed from user to user.
-/

namespace Bolt

variable {σ : Type} (P : Peer σ) (close : M σ (Option GoErr))

/-- `boltConn.Close` (conn.go:361-387) of a connection with a pool, up to the call of `reclaim`, which does not fail
(Verif/Model/Pool.lean). After an error the connection stays with its user. -/
def pooledClose : M σ (Option GoErr) := do
  if ← M.get fun w => w.closed then M.pure none
  else
    let err ← (do
      match ← M.get fun w => w.statement with
      | none => M.pure none
      | some s => stmtClose P close s)
    match err with
    | some e => M.pure (some e)
    | none =>
      let err ← (do
        match ← M.get fun w => w.transaction with
        | none => M.pure none
        | some t => txFinish P close qRollback t)
      match err with
      | some e => M.pure (some (.wrap "Error rolling back transaction when closing connection" (some e)))
      | none => M.pure none

/-- `reclaim` (driver.go:176-193): with `connErr` or `closed` set a new connection takes the slot (`none`), otherwise a
copy of all fields, on the same socket. The lists of objects go with it: the copy refers to none of them unless
`statement` or `transaction` is set, and `c69_clean` (Verif/Props/Tenant.lean) says they are not. -/
def handOver (w : World σ) : Option (World σ) := if w.connErr || w.closed then none else some w

end Bolt
