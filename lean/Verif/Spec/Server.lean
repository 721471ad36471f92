import Verif.Model.Session
import Verif.Spec.Meaning
import Verif.Spec.Footprint
import Verif.Spec.Supported

/-!
# A Bolt v1 server

Written from the Bolt v1 documentation, independent of the driver: it reassembles chunks into messages,
parses them as PackStream, and runs the documented state machine READY / STREAMING / FAILED over an arbitrary
database. Not documented for a client that violates the protocol; here the server then closes the stream
(`gone`).
-/

namespace Bolt
open PackStream

/-- How the answer of a query ends: with a summary, or with a failure while the records are produced. -/
inductive Ending where
  | summary (md : KVs)
  | broken (md : KVs)

/-- What the database says to a query: refused, or a header, records and an ending. -/
inductive Outcome where
  | refused (md : KVs)
  | answer (header : KVs) (records : List (List Val)) (e : Ending)

/-- A database: any state, any effect, any answer. Parameters are PackStream values. -/
structure DB (δ : Type) where
  exec : δ → Str → List (Str × PS) → δ × Outcome

/-- State of the server's side of the session. -/
inductive Mode where
  | ready
  | streaming (records : List (List Val)) (e : Ending)
  | failed
  | gone

/-- The server: database, mode, and the bytes of a message not completely received. -/
structure Srv (δ : Type) where
  db : δ
  mode : Mode
  pending : Bytes

/-- The messages that end an answer, and the mode after it. -/
def Ending.reply : Ending → Mode × List Val
  | .summary md => (.ready, [.success md])
  | .broken md => (.failed, [.failure md])

/-- Requests. -/
inductive Req where
  | run (q : Str) (ps : List (Str × PS))
  | pullAll
  | discardAll
  | ackFailure
  | reset
  | invalid

/-- The request a message is. -/
def PS.req : PS → Req
  | .struct 0x10 [.str q, .map ps] => .run q ps
  | .struct 0x3F [] => .pullAll
  | .struct 0x2F [] => .discardAll
  | .struct 0x0E [] => .ackFailure
  | .struct 0x0F [] => .reset
  | _ => .invalid

/-- One request in one mode: new database state, new mode, responses in order. -/
def DB.handle {δ : Type} (D : DB δ) (d : δ) : Mode → Req → δ × Mode × List Val
  | .gone, _ => (d, .gone, [])
  | _, .reset => (d, .ready, [.success []])
  | .ready, .run q ps =>
    match D.exec d q ps with
    | (d', .refused md) => (d', .failed, [.failure md])
    | (d', .answer h rs e) => (d', .streaming rs e, [.success h])
  | .streaming rs e, .pullAll => (d, e.reply.1, rs.map .record ++ e.reply.2)
  | .streaming _ e, .discardAll => (d, e.reply.1, e.reply.2)
  | .failed, .ackFailure => (d, .ready, [.success []])
  | .failed, .run .. => (d, .failed, [.ignored])
  | .failed, .pullAll => (d, .failed, [.ignored])
  | .failed, .discardAll => (d, .failed, [.ignored])
  | _, _ => (d, .gone, [])

open Classical in
/-- The PackStream value a payload encodes, if it encodes one. -/
noncomputable def received (p : Bytes) : Req :=
  if h : ∃ q, Packs fullRange q p then PS.req (choose h) else .invalid

/-- The first complete message in a byte stream: its payload and what follows; `none` if there is none yet.
The first argument bounds the number of chunks. -/
def deframe : Nat → Bytes → Option (Bytes × Bytes)
  | 0, _ => none
  | f + 1, a :: b :: rest =>
    if ofBytes [a, b] = 0 then some ([], rest)
    else if rest.length < ofBytes [a, b] then none
    else
      match deframe f (rest.drop (ofBytes [a, b])) with
      | none => none
      | some (p, r) => some (rest.take (ofBytes [a, b]) ++ p, r)
  | _ + 1, _ => none

/-- Handles every complete message of a byte stream. The first argument bounds their number. -/
noncomputable def DB.absorb {δ : Type} (D : DB δ) : Nat → δ → Mode → Bytes → Srv δ × List Val
  | 0, d, m, bs => (⟨d, m, bs⟩, [])
  | f + 1, d, m, bs =>
    match deframe bs.length bs with
    | none => (⟨d, m, bs⟩, [])
    | some (p, rest) =>
      let h := D.handle d m (received p)
      let t := D.absorb f h.1 h.2.1 rest
      (t.1, h.2.2 ++ t.2)

/-- The server as the peer of a connection: it closes the stream when it is gone, else it stays silent. -/
noncomputable def DB.peer {δ : Type} (D : DB δ) : Peer (Srv δ) where
  react s bs :=
    let r := D.absorb (s.pending ++ bs).length s.db s.mode (s.pending ++ bs)
    (r.1, r.2.map .val)
  ended s := match s.mode with | .gone => true | _ => false

/-- The query was executed to its end. -/
def Outcome.succeeds : Outcome → Bool
  | .answer _ _ (.summary _) => true
  | _ => false

/-- The failure of a query that was not. -/
def Outcome.failure? : Outcome → Option KVs
  | .refused md => some md
  | .answer _ _ (.broken md) => some md
  | .answer _ _ (.summary _) => none

/-- The database executing queries one after the other, up to and including the first that fails. -/
def DB.runAll {δ : Type} (D : DB δ) (d : δ) : List (Str × List (Str × PS)) → δ × List Outcome
  | [] => (d, [])
  | (q, ps) :: rest =>
    if (D.exec d q ps).2.succeeds then
      let t := D.runAll (D.exec d q ps).1 rest
      (t.1, (D.exec d q ps).2 :: t.2)
    else ((D.exec d q ps).1, [(D.exec d q ps).2])

/-- The queries with the PackStream values their parameters stand for. -/
def MeansAll : List (Str × KVs) → List (Str × List (Str × PS)) → Prop
  | [], qs => qs = []
  | (q, kvs) :: rest, qs => ∃ ps rest', MeansKVs kvs ps ∧ MeansAll rest rest' ∧ qs = (q, ps) :: rest'

/-- A message that the encoder delivers unchanged with the given chunk size: supported, well typed, none of
the values it gets wrong, and either short or without a string longer than the chunk size. -/
def Sendable (cs : Nat) (v : Val) : Prop :=
  v.Typed ∧ v.Clean ∧ v.Supported ∧ 0 < cs ∧ cs ≤ 65535 ∧
    (v.footprint ≤ 65535 ∨ (8 ≤ cs ∧ v.StringsLe cs))

/-- The bytes are one message, and it means `v`. -/
def Carries (v : Val) (bs : Bytes) : Prop := ∃ q p, Means v q ∧ Packs fullRange q p ∧ Framed p bs

/-- The bytes are the messages `vs`, in order. -/
def CarriesAll : List Val → Bytes → Prop
  | [], bs => bs = []
  | v :: vs, bs => ∃ b bs', Carries v b ∧ CarriesAll vs bs' ∧ bs = b ++ bs'

/-- Between `w` and `w'` the driver wrote exactly the messages `vs`. -/
def Wrote {σ : Type} (w w' : World σ) (vs : List Val) : Prop :=
  ∃ bs, CarriesAll vs bs ∧ w'.sink.out = w.sink.out ++ bs

/-- The connection is open, working, and in step with a server in mode `m`: everything the server has sent has
been read. -/
structure Synced {δ : Type} (w : World (Srv δ)) (d : δ) (m : Mode) : Prop where
  closed : w.closed = false
  inbox : w.inbox = []
  srv : w.srv = ⟨d, m, []⟩
  budget : w.sink.budget = none

end Bolt
