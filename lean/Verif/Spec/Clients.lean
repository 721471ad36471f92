import Verif.Spec.Server

/-!
# Client programs

Loops over the API as a user of the driver would write them, used to state properties of sequences of calls.
-/

namespace Bolt

/-- What one `NextPipeline` call gives a client: a row, the header metadata of the next query together with
`Metadata()` of its rows object, or the end. -/
inductive PStep where
  | row (fs : List Val)
  | next (header md : KVs)
  | done

/-- Calls `NextPipeline` at most `n` times, going on with the next rows object when one is returned. Returns what
was seen, the error that stopped it, and the last rows object. -/
def walk {σ : Type} (P : Peer σ) (close : M σ (Option GoErr)) : Nat → Nat → M σ (List PStep × Option GoErr × Nat)
  | 0, r => M.pure ([], none, r)
  | n + 1, r => do
    let x ← nextPipeline P close r
    match x.err, x.row, x.next with
    | some e, _, _ => M.pure ([], some e, r)
    | none, some fs, _ => do
      let (steps, e, r') ← walk P close n r
      M.pure (.row fs :: steps, e, r')
    | none, none, some r1 => do
      let md ← M.get fun w => (w.row r1).md
      let (steps, e, r') ← walk P close n r1
      M.pure (.next (x.md.getD []) md :: steps, e, r')
    | none, none, none => M.pure ([.done], none, r)

/-- An answer that ended with a summary: header, records, summary. -/
structure Answer where
  header : KVs
  records : List (List Val)
  summary : KVs

/-- As an outcome. -/
def Answer.outcome (a : Answer) : Outcome := .answer a.header a.records (.summary a.summary)

/-- What a client should see when it walks the rows of a pipeline with these answers, the rows object of the first
one in hand. -/
def stepsOf : List Answer → List PStep
  | [] => []
  | [a] => a.records.map .row ++ [.done]
  | a :: b :: rest => a.records.map .row ++ [.next b.header b.header] ++ stepsOf (b :: rest)

/-- Calls `NextNeo` `n` times. -/
def nextN {σ : Type} (P : Peer σ) (close : M σ (Option GoErr)) (r : Nat) :
    Nat → M σ (List (Option (List Val) × Option KVs × Option GoErr))
  | 0 => M.pure []
  | n + 1 => do
    let x ← nextNeo P close r
    let xs ← nextN P close r n
    M.pure (x :: xs)

end Bolt
