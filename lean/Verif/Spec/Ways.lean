import Verif.Spec.Histories

/-! The ways to run queries with this driver, as calls, and what they return for given answers. -/

namespace Bolt
open PackStream

/-- The parameters stand for one PackStream map only; so do all without a `float32` that is not a number. -/
def Definite (kvs : KVs) : Prop := ∀ ps ps', MeansKVs kvs ps → MeansKVs kvs ps' → ps = ps'

/-- QueryNeo, All, Close. -/
def wayAll (x : Str × KVs) : List (Call KVs) := [.query x.1 x.2, .all, .closeRows]

/-- What it returns. -/
def Answer.viaAll (a : Answer) : List Res := [.rows a.header, .all a.records a.summary, .done]

/-- QueryNeo, NextNeo until the end, Close. -/
def wayNext (n : Nat) (x : Str × KVs) : List (Call KVs) := .query x.1 x.2 :: List.replicate n .next ++ [.closeRows]

/-- PrepareNeo, QueryNeo of the statement, NextNeo until the end, Close of rows and statement. -/
def wayStmt (n : Nat) (x : Str × KVs) : List (Call KVs) :=
  .prepare x.1 :: .stQuery x.2 :: List.replicate n .next ++ [.closeRows, .closeStmt]

/-- What reading the rows one by one returns. -/
def Answer.viaNext (a : Answer) : List Res := .rows a.header :: a.records.map .row ++ [.eof a.summary, .done]

/-- PrepareNeo, ExecNeo of the statement, Close. -/
def wayStmtExec (x : Str × KVs) : List (Call KVs) := [.prepare x.1, .stExec x.2, .closeStmt]

/-- The calls return `rs` and leave the connection idle and the database in state `d'`. -/
def Comes {δ : Type} (D : DB δ) (close : M (Srv δ) (Option GoErr)) (w : World (Srv δ)) (cs : List (Call KVs)) (rs : List Res) (d' : δ) : Prop :=
  ∃ h' w', runCalls D.peer close .none cs w = .ok (rs, h') w' ∧ Idle w' d'

end Bolt
