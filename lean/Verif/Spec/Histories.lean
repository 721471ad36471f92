import Verif.Spec.Abstract

/-!
# Histories of calls, and what they should give

Used to state properties of sequences of calls without reference to the driver's internals.
-/

namespace Bolt
open PackStream

/-- An open connection on which nothing is going on: no statement is open, everything received has been read,
and the server is ready. -/
structure Idle {δ : Type} (w : World (Srv δ)) (d : δ) : Prop where
  synced : Synced w d .ready
  statement : w.statement = none
  transaction : w.transaction = none
  chunk : 0 < w.chunkSize ∧ w.chunkSize ≤ 65535

/-- Between the two nothing was sent, nothing received and nothing opened or closed on the connection; there may be
more (closed) statements than before. -/
structure Untouched {σ : Type} (w w' : World σ) : Prop where
  sink : w'.sink = w.sink
  srv : w'.srv = w.srv
  inbox : w'.inbox = w.inbox
  statement : w'.statement = w.statement
  transaction : w'.transaction = w.transaction
  closed : w'.closed = w.closed
  connErr : w'.connErr = w.connErr
  chunkSize : w'.chunkSize = w.chunkSize
  stmts : ∀ s, s < w.stmts.length → w'.stmts[s]? = w.stmts[s]?
  rows : w'.rows = w.rows
  txs : w'.txs = w.txs

/-- A query whose parameters the encoder does not support and that fits the encoder's buffer of `cs` bytes. -/
def Rejected (cs : Nat) (q : Str) (kvs : KVs) : Prop := ¬ (Val.run q kvs).Supported ∧ (Val.run q kvs).footprint < cs

/-- Makes the calls one after the other and collects the results. -/
def runCalls {σ : Type} (P : Peer σ) (close : M σ (Option GoErr)) (h : Handles) : List (Call KVs) → M σ (List Res × Handles)
  | [] => M.pure ([], h)
  | c :: cs => do
    let x ← c.run P close h
    let y ← runCalls P close x.2 cs
    M.pure (x.1 :: y.1, y.2)

/-- No statement, rows or transaction yet. -/
def Handles.none : Handles := ⟨.none, .none, .none⟩

/-- The result a step through a pipeline is. -/
def PStep.res : PStep → Res
  | .row fs => .row fs
  | .next h m => .next h m
  | .done => .pipeEnd

section

/-- One use of a prepared query: run it, read `k` times, close the rows. -/
def roundCalls (x : KVs × Nat) : List (Call KVs) := .stQuery x.1 :: List.replicate x.2 .next ++ [.closeRows]

/-- What one use gives: the records in order, then the end with the summary; or the failure, and no rows. -/
def Outcome.roundRes (k : Nat) : Outcome → List Res
  | .refused md => .failure md :: List.replicate k .localError ++ [.done]
  | .answer hd rs (.summary md) => .rows hd :: (rs.map Res.row ++ [Res.eof md]).take k ++ [.done]
  | .answer _ _ (.broken _) => []

/-- `k` reads stay within the answer, and the answer does not break off. -/
def Outcome.Within (k : Nat) : Outcome → Prop
  | .refused _ => True
  | .answer _ rs (.summary _) => k ≤ rs.length + 1
  | .answer _ _ (.broken _) => False

/-- Every use stays within its answer. -/
def DB.RoundsWithin {δ : Type} (D : DB δ) (q : Str) : δ → List (PSs × Nat) → Prop
  | _, [] => True
  | d, (ps, k) :: rest => (D.exec d q ps).2.Within k ∧ D.RoundsWithin q (D.exec d q ps).1 rest

/-- What the uses give: each the answer to its own execution of the query. -/
def DB.roundsRes {δ : Type} (D : DB δ) (q : Str) : δ → List (PSs × Nat) → List Res
  | _, [] => []
  | d, (ps, k) :: rest => (D.exec d q ps).2.roundRes k ++ D.roundsRes q (D.exec d q ps).1 rest

/-- The database after the uses. -/
def DB.roundsDb {δ : Type} (D : DB δ) (q : Str) : δ → List (PSs × Nat) → δ
  | d, [] => d
  | d, (ps, _) :: rest => D.roundsDb q (D.exec d q ps).1 rest

end

/-- What BEGIN, COMMIT or ROLLBACK should return. -/
def Outcome.cmdRes : Outcome → Res
  | .refused md => .failure md
  | .answer _ _ (.broken md) => .failure md
  | .answer _ _ (.summary _) => .done

/-- The two ways to finish a transaction and their queries. -/
inductive Finish : Call KVs → Str → Prop where
  | commit : Finish .commit [67, 79, 77, 77, 73, 84]
  | rollback : Finish .rollback [82, 79, 76, 76, 66, 65, 67, 75]

/-- A database for examples. Its state counts the queries. A query that begins with `A` is answered with two
records, `BR` breaks after one record, `RR` is refused; anything else has no records. -/
def demo : DB Nat where
  exec d q _ :=
    (d + 1, match q with
      | 65 :: _ => .answer [([104], .int .int64 d)] [[.int .int8 1], [.int .int8 2]] (.summary [([115], .int .int64 d)])
      | 66 :: 82 :: _ => .answer [] [[.int .int8 1]] (.broken [([98], .int .int64 d)])
      | 82 :: 82 :: _ => .refused [([114], .int .int64 d)]
      | _ => .answer [] [] (.summary []))

/-- A database for examples that refuses COMMIT and answers everything else without records. -/
def strict : DB Nat where
  exec d q _ := (d + 1, if q = [67, 79, 77, 77, 73, 84] then .refused [] else .answer [] [] (.summary []))

/-- A peer for examples that answers every write with a success. -/
def yes : Peer Unit where
  react _ bs := ((), if bs = [] then [] else [.val (.success [])])
  ended _ := false

/-- A new connection to it. -/
def yesConn : World Unit where
  stmts := []
  rows := []
  txs := []
  statement := none
  transaction := none
  closed := false
  connErr := false
  chunkSize := 4096
  sockCloseErr := false
  sink := { out := [], budget := none }
  inbox := []
  srv := ()
  log := []

/-- What was received, in order. -/
def receipts : List Event → List Item
  | [] => []
  | .recv i :: l => i :: receipts l
  | .send _ _ :: l => receipts l

/-- A peer that answers its first messages with the given items, and has closed the stream when there are no more. -/
def script : Peer (List (List Item)) where
  react s bs := if bs = [] then (s, []) else match s with | [] => ([], []) | x :: s => (s, x)
  ended s := s.isEmpty

/-- A new connection to it. -/
def scriptConn (l : List (List Item)) : World (List (List Item)) where
  stmts := []
  rows := []
  txs := []
  statement := none
  transaction := none
  closed := false
  connErr := false
  chunkSize := 4096
  sockCloseErr := false
  sink := { out := [], budget := none }
  inbox := []
  srv := l
  log := []

/-- SUCCESS to RUN; then a message whose decoding fails with io.EOF; then the end of the stream. -/
def cut : List (List Item) := [[.val (.success [])], [.bad .eof false]]

/-- The call returns, with a result and in a state that pass the test. -/
def Out.test {σ α : Type} (o : Out σ α) (p : α → World σ → Bool) : Bool :=
  match o with
  | .ok a w => p a w
  | _ => false

theorem Out.of_test {σ α : Type} {o : Out σ α} {p : α → World σ → Bool} (h : o.test p = true) : ∃ a w, o = .ok a w ∧ p a w = true := by
  cases o with
  | ok a w => exact ⟨a, w, rfl, h⟩
  | panic => cases h
  | deep => cases h

end Bolt
