import Verif.Model.Session

/-!
# Reachable connection states

Every sequence of API calls, on any of the objects handed out so far, against any peer.
-/

namespace Bolt

/-- An API call on the connection, or on statement `s`, rows `r`, transaction `t`. -/
inductive Op where
  | exec (q : Str) (kvs : KVs)
  | query (q : Str) (kvs : KVs)
  | queryAll (q : Str) (kvs : KVs)
  | execPipe (qs : List Str) (l : List KVs)
  | queryPipe (qs : List Str) (l : List KVs)
  | prepare (q : Str)
  | preparePipe (qs : List Str)
  | begin
  | stExec (s : Nat) (kvs : KVs)
  | stQuery (s : Nat) (kvs : KVs)
  | stExecPipe (s : Nat) (l : List KVs)
  | stQueryPipe (s : Nat) (l : List KVs)
  | next (r : Nat)
  | all (r : Nat)
  | nextPipe (r : Nat)
  | closeRows (r : Nat)
  | closeStmt (s : Nat)
  | commit (t : Nat)
  | rollback (t : Nat)
  | close
  | setChunkSize (n : UInt16)

/-- The error an API call returned, if any. -/
def exceptErr {α : Type} : Except GoErr α → Option GoErr
  | .error e => some e
  | .ok _ => none

/-- Makes the call; gives the error it returned. -/
def Op.run {σ : Type} (P : Peer σ) (close : M σ (Option GoErr)) : Op → M σ (Option GoErr)
  | .exec q kvs => do M.pure (exceptErr (← execNeo P close q kvs))
  | .query q kvs => do M.pure (exceptErr (← queryNeo P close q kvs))
  | .queryAll q kvs => do
    match ← queryNeoAll P close q kvs with
    | .error e => M.pure (some e)
    | .ok x => M.pure x.2.2.2
  | .execPipe qs l => do M.pure (exceptErr (← execPipeline P close qs l))
  | .queryPipe qs l => do M.pure (exceptErr (← queryPipeline P close qs l))
  | .prepare q => do M.pure (exceptErr (← Bolt.prepare q []))
  | .preparePipe qs => do M.pure (exceptErr (← Bolt.prepare [] qs))
  | .begin => do M.pure (exceptErr (← begin_ P close))
  | .stExec s kvs => do M.pure (exceptErr (← stmtExecNeo P close s kvs))
  | .stQuery s kvs => do M.pure (exceptErr (← stmtQueryNeo P close s kvs))
  | .stExecPipe s l => do M.pure (exceptErr (← stmtExecPipeline P close s l))
  | .stQueryPipe s l => do M.pure (exceptErr (← stmtQueryPipeline P close s l))
  | .next r => do M.pure (← nextNeo P close r).2.2
  | .all r => do M.pure (← rowsAll P close r).2.2
  | .nextPipe r => do M.pure (← nextPipeline P close r).err
  | .closeRows r => rowsClose P close r
  | .closeStmt s => stmtClose P close s
  | .commit t => Bolt.commit P close t
  | .rollback t => Bolt.rollback P close t
  | .close => connClose P close
  | .setChunkSize n => do
    Bolt.setChunkSize n
    M.pure none

/-- The object the call is made on exists. -/
def Op.Exists {σ : Type} (w : World σ) : Op → Prop
  | .stExec s _ | .stQuery s _ | .stExecPipe s _ | .stQueryPipe s _ | .closeStmt s => s < w.stmts.length
  | .next r | .all r | .nextPipe r | .closeRows r => r < w.rows.length
  | .commit t | .rollback t => t < w.txs.length
  | _ => True

/-- The call would open something or run a query on the connection or on statement `s`, `none` being the connection. -/
def Op.opens : Op → Option (Option Nat)
  | .exec .. | .query .. | .queryAll .. | .execPipe .. | .queryPipe .. | .prepare _ | .preparePipe _ | .begin => some none
  | .stExec s _ | .stQuery s _ | .stExecPipe s _ | .stQueryPipe s _ => some (some s)
  | _ => none

/-- The call reads rows `r`. -/
def Op.reads : Op → Option Nat
  | .next r | .all r | .nextPipe r => some r
  | _ => none

/-- The call is refused: an error, and nothing at all has happened. -/
def Op.Refused {σ : Type} (P : Peer σ) (n : Nat) (w : World σ) (op : Op) : Prop :=
  ∃ e, op.run P (closeN P n) w = .ok (some e) w

/-- A new connection: nothing open, whatever the peer has sent so far. -/
structure NewConn {σ : Type} (w : World σ) : Prop where
  stmts : w.stmts = []
  rows : w.rows = []
  txs : w.txs = []
  statement : w.statement = none
  transaction : w.transaction = none
  closed : w.closed = false

/-- `w'` is reached from `w` by API calls that returned; failure handling nests closes at most `n` deep. -/
inductive Reach {σ : Type} (P : Peer σ) (n : Nat) : World σ → World σ → Prop where
  | refl (w : World σ) : Reach P n w w
  | step {w w1 w2 : World σ} {op : Op} {e : Option GoErr} : Reach P n w w1 → op.Exists w1 →
      op.run P (closeN P n) w1 = .ok e w2 → Reach P n w w2

/-- `w'` is reached from `w` by the calls `ops`, in this order, all of which returned. -/
inductive Made {σ : Type} (P : Peer σ) (n : Nat) : World σ → List Op → World σ → Prop where
  | nil (w : World σ) : Made P n w [] w
  | snoc {w w1 w2 : World σ} {ops : List Op} {op : Op} {e : Option GoErr} : Made P n w ops w1 → op.Exists w1 →
      op.run P (closeN P n) w1 = .ok e w2 → Made P n w (ops ++ [op]) w2

end Bolt
