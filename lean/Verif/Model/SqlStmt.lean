import Verif.Model.SqlRows

/-!
# Prepared statements of `database/sql` on top of the driver

`DB.Prepare` prepares on an idle connection and puts it back; `sql.Stmt.Query` and `sql.Stmt.Exec` take an idle connection and, when the statement was
prepared on it, use the driver's statement; `sql.Stmt.Close` closes the driver's statement (database/sql/sql.go, `Stmt.connStmt` and
`Stmt.finalClose`). Modelled is what that makes of the driver when there is one idle connection and nothing else uses it: the calls
below, one after the other. The rows are those of `Model/SqlRows`.
-/

namespace Bolt

variable {σ : Type}

/-- A use of a prepared statement: `sql.Stmt.Exec`, or `sql.Stmt.Query` and the loop over at most `m` of its rows. -/
inductive StmtCall where
  | exec (args : List DVal)
  | query (args : List DVal) (m : Nat)

def StmtCall.args : StmtCall → List DVal
  | .exec a => a
  | .query a _ => a

/-- What its user gets: the metadata of the result or the error; the records, the error of `Rows.Err` and that of `Rows.Close`, or the error of Query. -/
inductive StmtRes where
  | exec (r : Except GoErr KVs)
  | query (r : Except GoErr (List (List DVal) × Option GoErr × Option GoErr))

/-- `boltStmt.Exec` (stmt.go:82-88), `boltStmt.Query` (stmt.go:174-180). -/
def stmtRun (P : Peer σ) (close : M σ (Option GoErr)) (s : Nat) : StmtCall → M σ StmtRes
  | .exec args => do M.pure (.exec (← sqlStmtExec P close s args))
  | .query args m => do
    match ← sqlStmtQuery P close s args with
    | (_, some e) => M.pure (.query (.error e))
    | (.ptr (some r), none) => do M.pure (.query (.ok (← sqlRows P close m r)))
    | (_, none) => M.panic .nilDeref

/-- One after the other, whatever the result of those before. -/
def stmtRuns (P : Peer σ) (close : M σ (Option GoErr)) (s : Nat) : List StmtCall → M σ (List StmtRes)
  | [] => M.pure []
  | a :: l => do
    let x ← stmtRun P close s a
    let xs ← stmtRuns P close s l
    M.pure (x :: xs)

/-- `DB.Prepare` (`boltConn.Prepare`, conn.go:475-477), the executions, and `sql.Stmt.Close` (`boltStmt.Close`, stmt.go:57-72): the error of
Prepare, or the results of the executions and the error of Close. -/
def sqlPrepared (P : Peer σ) (close : M σ (Option GoErr)) (q : Str) (l : List StmtCall) : M σ (Except GoErr (List StmtRes × Option GoErr)) := do
  match ← apiPrepare q with
  | (_, some e) => M.pure (.error e)
  | (.ptr (some s), none) => do
    let xs ← stmtRuns P close s l
    let c ← stmtClose P close s
    M.pure (.ok (xs, c))
  | (_, none) => M.panic .nilDeref

end Bolt
