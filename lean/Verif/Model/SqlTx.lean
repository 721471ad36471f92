import Verif.Model.Retry

/-!
# Transactions of `database/sql` on top of the driver

`DB.Begin` takes a connection as `Db.call` says and keeps it; `Tx.Exec` makes the driver's call on it, without trying again;
`Tx.Commit` and `Tx.Rollback` call the driver's `Commit` or `Rollback` and put the connection back among the idle ones, unless
the error is `driver.ErrBadConn` itself (database/sql/sql.go, `Tx.close`; its documentation: "After a call to Commit or
Rollback, all operations on the transaction fail"). The simplifications of `Model/Retry` apply; `Tx.Query` and `Tx.Prepare`
are not modelled.
-/

namespace Bolt

variable {σ : Type}

/-- `Tx.Exec` for one statement after the other, whatever the result of those before: `Exec` (conn.go:820-832). -/
def txExecs (P : Peer σ) (close : M σ (Option GoErr)) : List (Str × List DVal) → M σ (List (Except GoErr KVs))
  | [] => M.pure []
  | (q, args) :: rest => do
    let r ← sqlExec P close q args
    let rs ← txExecs P close rest
    M.pure (r :: rs)

/-- The statements and then `Commit` (tx.go:29-61) or `Rollback` (tx.go:64-96) of transaction `t`. -/
def txBody (P : Peer σ) (close : M σ (Option GoErr)) (l : List (Str × List DVal)) (commits : Bool) (t : Nat) : M σ (List (Except GoErr KVs) × Option GoErr) := do
  let rs ← txExecs P close l
  let e ← if commits then commit P close t else rollback P close t
  M.pure (rs, e)

/-- `DB.Begin`, the statements, and the end of the transaction: the error of Begin, or the results of the statements and the error
of the end. The connection is that of the last call made; the transaction the last begun on it (conn.go:548). `none`: a call panicked. -/
def Db.tx (P : Peer σ) (n : Nat) (dial : Nat → Except GoErr (World σ)) (l : List (Str × List DVal)) (commits : Bool) (d : Db σ) :
    Option (Except GoErr (List (Except GoErr KVs) × Option GoErr) × Db σ) :=
  match d.call P n dial .begin with
  | none => none
  | some (some e, d1) => some (.error e, d1)
  | some (none, d1) =>
    match d1.tries.getLast? with
    | none => none
    | some t =>
      match txBody P (closeN P n) l commits (t.after.txs.length - 1) t.after with
      | .ok r w =>
        let d2 := { d1 with tries := d1.tries ++ [⟨t.after, w⟩] }
        some (.ok r, if isErrBadConn r.2 then d2 else { d2 with free := d2.free ++ [w] })
      | _ => none

end Bolt
