import Verif.Model.Surface
import Verif.Model.Session
import Verif.Model.Opening

/-!
# The calls of database/sql and the interface values calls return

Simplification, as in `execNeo`: after a panic the deferred `stmt.Close()` of `Exec` is not run; see Model/Deferred.lean.
-/

namespace Bolt

variable {σ : Type} (P : Peer σ) (close : M σ (Option GoErr))

/-- `params, err := driverArgsToMap(args)` (conn.go:750, stmt.go:83, stmt.go:175) -/
def convertArgs (args : List DVal) : M σ (Except GoErr KVs) := fun w =>
  match driverArgsToMap args with
  | .ok kvs => .ok (.ok kvs) w
  | .error (.err e) => .ok (.error e) w
  | .error (.panic p) => .panic p w
  | .error .fuel => .deep w

/-- `boltStmt.Exec` (stmt.go:82-88) -/
def sqlStmtExec (s : Nat) (args : List DVal) : M σ (Except GoErr KVs) := do
  match ← convertArgs args with
  | .error e => M.pure (.error e)
  | .ok kvs => stmtExecNeo P close s kvs

/-- `boltConn.Exec` (conn.go:820-832): the guards come before the arguments are looked at. -/
def sqlExec (query : Str) (args : List DVal) : M σ (Except GoErr KVs) := do
  match ← guardConn with
  | some e => M.pure (.error e)
  | none =>
    let s ← newStmt query []
    let res ← sqlStmtExec P close s args
    let _ ← stmtClose P close s
    M.pure res

/-- A Go interface value that can hold a pointer to a rows or statement object: nil, or a pointer, which may itself be
nil. -/
inductive Iface where
  | nil
  | ptr (p : Option Nat)
  deriving DecidableEq

/-- `return f()` where `f` returns a pointer and an error, nil being the pointer when there is an error, and the caller's
result is an interface: the pointer is put into the interface whether nil or not (conn.go:476, 481, 754, 758,
stmt.go:179, 184). -/
def viaPtr : Except GoErr Nat → Iface × Option GoErr
  | .ok r => (.ptr (some r), none)
  | .error e => (.ptr none, some e)

/-- `return nil, err` where the result is an interface (conn.go:486-494, 798-816, stmt.go:210-243). -/
def viaIface : Except GoErr Nat → Iface × Option GoErr
  | .ok r => (.ptr (some r), none)
  | .error e => (.nil, some e)

/-- `boltConn.Query` (conn.go:749-755) -/
def sqlQuery (query : Str) (args : List DVal) : M σ (Iface × Option GoErr) := do
  match ← convertArgs args with
  | .error e => M.pure (.nil, some e)
  | .ok kvs => M.pure (viaPtr (← queryNeo P close query kvs))

/-- `boltStmt.Query` (stmt.go:174-180) -/
def sqlStmtQuery (s : Nat) (args : List DVal) : M σ (Iface × Option GoErr) := do
  match ← convertArgs args with
  | .error e => M.pure (.nil, some e)
  | .ok kvs => M.pure (viaPtr (← stmtQueryNeo P close s kvs))

/-- `boltConn.QueryNeo` (conn.go:757-759) with the interface it returns -/
def apiQuery (query : Str) (kvs : KVs) : M σ (Iface × Option GoErr) := do M.pure (viaPtr (← queryNeo P close query kvs))

/-- `boltStmt.QueryNeo` (stmt.go:183-185) -/
def apiStmtQuery (s : Nat) (kvs : KVs) : M σ (Iface × Option GoErr) := do M.pure (viaPtr (← stmtQueryNeo P close s kvs))

/-- `Prepare`, `PrepareNeo` (conn.go:475-482) -/
def apiPrepare (query : Str) : M σ (Iface × Option GoErr) := do M.pure (viaPtr (← prepare query []))

/-- `PreparePipeline` (conn.go:485-494) -/
def apiPreparePipeline (queries : List Str) : M σ (Iface × Option GoErr) := do M.pure (viaIface (← prepare [] queries))

/-- `boltConn.QueryPipeline` (conn.go:798-816) -/
def apiQueryPipeline (queries : List Str) (l : List KVs) : M σ (Iface × Option GoErr) := do
  M.pure (viaIface (← queryPipeline P close queries l))

/-- `boltStmt.QueryPipeline` (stmt.go:210-243) -/
def apiStmtQueryPipeline (s : Nat) (l : List KVs) : M σ (Iface × Option GoErr) := do
  M.pure (viaIface (← stmtQueryPipeline P close s l))

/-- `Open` and `OpenNeo` (driver.go:58-65): `return newBoltConn(connStr, d)`, whose result is a pointer (conn.go:98-109), as an
interface; `none` when opening panics. The first object is the connection. The other arguments are those of `newBoltConn`. -/
def apiOpen (dial : Config → Except GoErr Sock) (order : KVs → KVs) (n : Nat) (u : URL) (sockCloseErr : Bool) : Option (Iface × Option GoErr) :=
  match newBoltConn dial order n u sockCloseErr with
  | .error e => some (viaPtr (.error e))
  | .ok (.ok (some e) _) => some (viaPtr (.error (.wrap "An error occurred initializing connection" (some e))))
  | .ok (.ok none _) => some (viaPtr (.ok 0))
  | .ok _ => none

/-- `rows.Close()` on the interface: nil and a nil pointer are dereferenced (rows.go:121-122). -/
def apiCloseRows : Iface → M σ (Option GoErr)
  | .ptr (some r) => rowsClose P close r
  | _ => fun w => .panic .nilDeref w

end Bolt
