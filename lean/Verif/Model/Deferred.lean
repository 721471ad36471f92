import Verif.Model.Sql
import Verif.Spec.Reach

/-!
# Deferred calls: conn.go:761-770, 820-861

The four calls with a `defer` as they are when something panics: the deferred call runs then as well. The definitions of
Model/Session.lean stop at the panic; without a panic they are the same (`c103_same`).
-/

namespace Bolt

variable {σ : Type} (P : Peer σ) (close : M σ (Option GoErr))

/-- `defer d()` before `x`: `d` runs when `x` has returned and when it has panicked; its result is dropped. A panic in `d`
replaces that of `x`. -/
def deferred (d : M σ β) (x : M σ α) : M σ α := fun w =>
  match x w with
  | .ok a w1 =>
    match d w1 with
    | .ok _ w2 => .ok a w2
    | .panic p w2 => .panic p w2
    | .deep w2 => .deep w2
  | .panic p w1 =>
    match d w1 with
    | .ok _ w2 => .panic p w2
    | .panic q w2 => .panic q w2
    | .deep w2 => .deep w2
  | .deep w1 => .deep w1

/-- `QueryNeoAll` (conn.go:761-770) -/
def queryNeoAllD (query : Str) (params : KVs) : M σ (Except GoErr (List (List Val) × KVs × Option KVs × Option GoErr)) := do
  match ← queryNeo P close query params with
  | .error e => M.pure (.error e)
  | .ok r => deferred (rowsClose P close r) (do
    let (data, md, err) ← rowsAll P close r
    let hdr ← M.get fun w => (w.row r).md
    M.pure (.ok (data, hdr, md, err)))

/-- `ExecNeo` (conn.go:835-847) -/
def execNeoD (query : Str) (params : KVs) : M σ (Except GoErr KVs) := do
  match ← guardConn with
  | some e => M.pure (.error e)
  | none =>
    let s ← newStmt query []
    deferred (stmtClose P close s) (stmtExecNeo P close s params)

/-- `ExecPipeline` (conn.go:849-861) -/
def execPipelineD (queries : List Str) (params : List KVs) : M σ (Except GoErr (List KVs)) := do
  match ← guardConn with
  | some e => M.pure (.error e)
  | none =>
    let s ← newStmt [] queries
    deferred (stmtClose P close s) (stmtExecPipeline P close s params)

/-- `Exec` (conn.go:820-832) -/
def sqlExecD (query : Str) (args : List DVal) : M σ (Except GoErr KVs) := do
  match ← guardConn with
  | some e => M.pure (.error e)
  | none =>
    let s ← newStmt query []
    deferred (stmtClose P close s) (sqlStmtExec P close s args)

/-- Makes the call, with its deferred calls. -/
def Op.runD : Op → M σ (Option GoErr)
  | .exec q kvs => do M.pure (exceptErr (← execNeoD P close q kvs))
  | .queryAll q kvs => do
    match ← queryNeoAllD P close q kvs with
    | .error e => M.pure (some e)
    | .ok x => M.pure x.2.2.2
  | .execPipe qs l => do M.pure (exceptErr (← execPipelineD P close qs l))
  | op => op.run P close

end Bolt
