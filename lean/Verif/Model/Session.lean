import Verif.Model.Encoder
import Verif.Model.Decoder
import Verif.Model.Errors

/-!
# The session layer: conn.go, stmt.go, rows.go, tx.go

One connection, the objects created on it, and the peer at the other end of the socket.

* Go pointers are indices into the lists `stmts`, `rows`, `txs` (allocation appends).
* A Go `error` result is an `Option GoErr`; a nil `interface{}` is `Val.nil`.
* A Go panic ends the call (`Out.panic`).
* The peer is a machine that is given the bytes of each `Encode` call and answers with what subsequent
  `Decode` calls will find. It is otherwise arbitrary. That whole messages can stand for the byte stream is
  `inbox_refines` (Verif/Proofs/Inbox.lean).
* Only connections that are not pooled (`poolDriver == nil`); the pool has its own model.
* Log output is not modelled.
* `log` is a ghost record of what crossed the socket; no Go counterpart.
-/

namespace Bolt

/-- What one `Decode` call on the connection meets. -/
inductive Item where
  /-- a message that decodes to `v` -/
  | val (v : Val)
  /-- a message whose payload does not decode, with the decoder's error; `half`: it is a SUCCESS message, so that
  what `Decode` returns beside the error is `messages.SuccessMessage{}` (decoder.go:502-506) -/
  | bad (e : GoErr) (half : Bool)
  /-- a message whose payload makes the decoder panic -/
  | boom (p : Panic)
  /-- the read fails (deadline, reset): conn.go:333-336 -/
  | ioerr
  /-- the peer has closed the stream -/
  | eof

/-- Ghost events. -/
inductive Event where
  /-- an `Encode` call and its error -/
  | send (v : Val) (err : Option GoErr)
  /-- a `Decode` call and what it met -/
  | recv (i : Item)

/-- The other end of the socket: `react` is given the bytes one `Encode` call wrote. `ended` tells whether a
read with nothing to come meets the end of the stream (`true`) or blocks until the deadline (`false`). -/
structure Peer (σ : Type) where
  react : σ → Bytes → σ × List Item
  ended : σ → Bool

/-- `boltStmt` (stmt.go:40-46). `conn` = the field is non-nil. A nil `queries` behaves like an empty one in
every method. -/
structure Stmt where
  query : Str
  queries : List Str
  conn : Bool
  closed : Bool
  rows : Option Nat
deriving Inhabited

/-- `boltRows` (rows.go:55-63). -/
structure Rows where
  md : KVs
  stmt : Nat
  closed : Bool
  consumed : Bool
  finished : Bool
  idx : Nat
  closeStmt : Bool
deriving Inhabited

/-- `boltConn` (conn.go:65-85) with the objects that refer to it, the socket and the peer. `connErr` = the
field is non-nil. `sockCloseErr` = closing the socket will report an error. -/
structure World (σ : Type) where
  stmts : List Stmt
  rows : List Rows
  /-- `boltTx.closed` (tx.go:17-20) -/
  txs : List Bool
  statement : Option Nat
  transaction : Option Nat
  closed : Bool
  connErr : Bool
  chunkSize : Nat
  sockCloseErr : Bool
  sink : Sink
  inbox : List Item
  srv : σ
  log : List Event

/-- Outcome of a call. -/
inductive Out (σ α : Type) where
  | ok (a : α) (w : World σ)
  | panic (p : Panic) (w : World σ)
  /-- nesting of `Close` inside failure handling exceeded the bound given to `closeN` -/
  | deep (w : World σ)

/-- A call on the connection. -/
abbrev M (σ α : Type) := World σ → Out σ α

namespace M

/-- return -/
def pure (a : α) : M σ α := fun w => .ok a w

/-- sequence -/
def bind (x : M σ α) (f : α → M σ β) : M σ β := fun w =>
  match x w with
  | .ok a w' => f a w'
  | .panic p w' => .panic p w'
  | .deep w' => .deep w'

/-- a runtime panic -/
def panic (p : Panic) : M σ α := fun w => .panic p w

/-- read a field -/
def get (f : World σ → α) : M σ α := fun w => .ok (f w) w

/-- assignment -/
def modify (f : World σ → World σ) : M σ Unit := fun w => .ok () (f w)

instance : Monad (M σ) where
  pure := M.pure
  bind := M.bind

end M

/-! ## Heap access -/

/-- `*s` -/
def World.stmt (w : World σ) (s : Nat) : Stmt := w.stmts[s]?.getD default
/-- `*r` -/
def World.row (w : World σ) (r : Nat) : Rows := w.rows[r]?.getD default
/-- `t.closed` -/
def World.txClosed (w : World σ) (t : Nat) : Bool := w.txs[t]?.getD false
/-- assignment to fields of `*s` -/
def World.setStmt (w : World σ) (s : Nat) (f : Stmt → Stmt) : World σ := { w with stmts := w.stmts.modify s f }
/-- assignment to fields of `*r` -/
def World.setRow (w : World σ) (r : Nat) (f : Rows → Rows) : World σ := { w with rows := w.rows.modify r f }

section
variable {σ : Type} (P : Peer σ)

/-! ## The socket -/

/-- Some write of `Encode` failed (as opposed to the value being rejected): then `boltConn.Write` recorded the
error (conn.go:352-355). -/
def streamFails (cs : Nat) (w : Sink) (v : Val) : Bool :=
  match ({ buf := [], w := w } : Enc).run cs (encOps v).writes with
  | (_, false) => true
  | (e, true) => (encOps v).err.isNone && !e.flush.2

/-- `encoding.NewEncoder(c, c.chunkSize).Encode(v)` with `boltConn.Write` (conn.go:340-357). Setting the
deadline is assumed to succeed. -/
def send (v : Val) : M σ (Option GoErr) := fun w =>
  let r := encodeTo w.chunkSize w.sink v
  let fresh := r.1.out.drop w.sink.out.length
  let q := if fresh = [] then (w.srv, []) else P.react w.srv fresh
  .ok r.2 { w with
    sink := r.1
    srv := q.1
    inbox := w.inbox ++ q.2
    connErr := w.connErr || streamFails w.chunkSize w.sink v
    log := w.log ++ [.send v r.2] }

/-- The error `Decode` returns when reading the length of the next message fails (decoder.go:44-47). -/
def readErr (e : GoErr) : GoErr :=
  .wrap "Couldn't read expected bytes for message length. Read: %d Expected: 2." (some e)

/-- The next item: what is there, or the end of the stream; a closed socket fails to read. -/
def nextItem (w : World σ) : Item :=
  match w.inbox with
  | i :: _ => i
  | [] => if w.closed then .ioerr else if P.ended w.srv then .eof else .ioerr

/-- `encoding.NewDecoder(c).Decode()` with `boltConn.Read` (conn.go:320-337): errors other than `io.EOF` are
recorded in `connErr` and become `driver.ErrBadConn`. The value beside an error is `SuccessMessage{}` for a SUCCESS
message that does not decode. Other values that `Decode` returns beside an error (a zero number, an empty list, a
half-filled structure) are taken to be nil: callers only ask whether there is an error and whether the value is a
`SuccessMessage`. -/
def recv : M σ (Val × Option GoErr) := fun w =>
  let i := nextItem P w
  let w' := { w with inbox := w.inbox.tail, log := w.log ++ [.recv i] }
  match i with
  | .val v => .ok (v, none) w'
  | .bad e half => .ok (if half then .success [] else .nil, some e) w'
  | .boom p => .panic p w'
  | .ioerr => .ok (.nil, some (readErr .badConn)) { w' with connErr := true }
  | .eof => .ok (.nil, some (readErr .eof)) w'

/-- The item is an IGNORED message. -/
def Item.isIgnored : Item → Bool
  | .val .ignored => true
  | _ => false

/-- The iterations of the loops in `ackFailure` and `reset` that `continue` (conn.go:411-421, 445-455): they
read IGNORED messages and do nothing else. That this is the loop: `skip_loop`. -/
def skipIgnored : M σ Unit := fun w =>
  .ok () { w with
    inbox := w.inbox.dropWhile Item.isIgnored
    log := w.log ++ (w.inbox.takeWhile Item.isIgnored).map .recv }

/-! ## Failure handling. `close` is `c.Close()`, see `closeN`. -/

/-- `reset` (conn.go:436-472) -/
def reset (close : M σ (Option GoErr)) : M σ (Option GoErr) := do
  match ← send P .reset with
  | some e => M.pure (some (.wrap "An error occurred encoding reset message" (some e)))
  | none =>
    skipIgnored
    match ← recv P with
    | (_, some e) => M.pure (some (.wrap "An error occurred decoding reset message response" (some e)))
    | (.success _, none) => M.pure none
    | (.failure md, none) =>
      let _ ← close
      M.pure (some (.wrap "Error resetting session. CLOSING SESSION!" (some (.failure md))))
    | (_, none) =>
      M.modify fun w => { w with connErr := true }
      let _ ← close
      M.pure (some .badConn)

/-- `ackFailure` (conn.go:402-434) -/
def ackFailure (close : M σ (Option GoErr)) : M σ (Option GoErr) := do
  match ← send P .ackFailure with
  | some e => M.pure (some (.wrap "An error occurred encoding ack failure message" (some e)))
  | none =>
    skipIgnored
    match ← recv P with
    | (_, some e) => M.pure (some (.wrap "An error occurred decoding ack failure message response" (some e)))
    | (.success _, none) => M.pure none
    | (.failure _, none) => reset P close
    | (_, none) =>
      M.modify fun w => { w with connErr := true }
      let _ ← close
      M.pure (some .badConn)

/-- `consume` (conn.go:551-573) -/
def consume (close : M σ (Option GoErr)) : M σ (Val × Option GoErr) := do
  match ← recv P with
  | (v, some e) => M.pure (v, some e)
  | (.failure md, none) =>
    match ← ackFailure P close with
    | some e => M.pure (.nil, some e)
    | none => M.pure (.failure md, some (.wrap "Neo4J reported a failure for the query" (some (.failure md))))
  | (v, none) => M.pure (v, none)

/-- A message that the loop of `consumeAll` appends to its responses: neither SUCCESS nor FAILURE. -/
def Item.isPlain : Item → Bool
  | .val (.success _) => false
  | .val (.failure _) => false
  | .val _ => true
  | _ => false

/-- The value of an item. -/
def Item.value : Item → Val
  | .val v => v
  | _ => .nil

/-- `consumeAll` (conn.go:575-592): the loop first reads the messages that are neither SUCCESS nor FAILURE,
then one more `consume` ends it, with an error or SUCCESS. That this is the loop: `consumeAll_loop`. -/
def consumeAll (close : M σ (Option GoErr)) : M σ (List Val × Val × Option GoErr) := fun w =>
  let plain := w.inbox.takeWhile Item.isPlain
  (consume P close >>= fun
    | (r, some e) => M.pure ([], r, some e)
    | (r, none) => M.pure (plain.map Item.value, r, none))
    { w with inbox := w.inbox.dropWhile Item.isPlain, log := w.log ++ plain.map .recv }

/-- `consumeAllMultiple` (conn.go:594-611); its first two results are never used. -/
def consumeAllMultiple (close : M σ (Option GoErr)) : Nat → M σ (Option GoErr)
  | 0 => M.pure none
  | n + 1 => do
    match ← consumeAll P close with
    | (_, _, some e) => M.pure (some e)
    | (_, _, none) => consumeAllMultiple close n

/-! ## Sending -/

/-- `sendRun` (conn.go:624-632) -/
def sendRun (query : Str) (args : KVs) : M σ (Option GoErr) := do
  match ← send P (.run query args) with
  | some e => M.pure (some (.wrap "An error occurred running query" (some e)))
  | none => M.pure none

/-- `sendPullAll` (conn.go:642-652) -/
def sendPullAll : M σ (Option GoErr) := do
  match ← send P .pullAll with
  | some e => M.pure (some (.wrap "An error occurred encoding pull all query" (some e)))
  | none => M.pure none

/-- `sendDiscardAll` (conn.go:710-720) -/
def sendDiscardAll : M σ (Option GoErr) := do
  match ← send P .discardAll with
  | some e => M.pure (some (.wrap "An error occurred encoding discard all query" (some e)))
  | none => M.pure none

/-- `sendRunConsume` (conn.go:634-640) -/
def sendRunConsume (close : M σ (Option GoErr)) (query : Str) (args : KVs) : M σ (Val × Option GoErr) := do
  match ← sendRun P query args with
  | some e => M.pure (.nil, some e)
  | none => consume P close

/-- `sendDiscardAllConsume` (conn.go:722-728) -/
def sendDiscardAllConsume (close : M σ (Option GoErr)) : M σ (Val × Option GoErr) := do
  match ← sendDiscardAll P with
  | some e => M.pure (.nil, some e)
  | none => consume P close

/-- `sendRunPullAll` (conn.go:662-669) -/
def sendRunPullAll (query : Str) (args : KVs) : M σ (Option GoErr) := do
  match ← sendRun P query args with
  | some e => M.pure (some e)
  | none => sendPullAll P

/-- `sendRunPullAllConsumeRun` (conn.go:671-678) -/
def sendRunPullAllConsumeRun (close : M σ (Option GoErr)) (query : Str) (args : KVs) : M σ (Val × Option GoErr) := do
  match ← sendRunPullAll P query args with
  | some e => M.pure (.nil, some e)
  | none => consume P close

/-- `sendRunPullAllConsumeSingle` (conn.go:680-693) -/
def sendRunPullAllConsumeSingle (close : M σ (Option GoErr)) (query : Str) (args : KVs) :
    M σ (Val × Val × Option GoErr) := do
  match ← sendRunPullAll P query args with
  | some e => M.pure (.nil, .nil, some e)
  | none =>
    match ← consume P close with
    | (run, some e) => M.pure (run, .nil, some e)
    | (run, none) =>
      let (pull, err) ← consume P close
      M.pure (run, pull, err)

/-- `sendRunPullAllConsumeAll` (conn.go:695-708), without the records, which its only caller drops. -/
def sendRunPullAllConsumeAll (close : M σ (Option GoErr)) (query : Str) (args : KVs) :
    M σ (Val × Val × Option GoErr) := do
  match ← sendRunPullAll P query args with
  | some e => M.pure (.nil, .nil, some e)
  | none =>
    match ← consume P close with
    | (run, some e) => M.pure (run, .nil, some e)
    | (run, none) =>
      let (_, pull, err) ← consumeAll P close
      M.pure (run, pull, err)

/-! ## Closing -/

/-- A method call on `s.conn`: a nil pointer dereference when the field is nil. -/
def withConn (s : Nat) (k : M σ α) : M σ α := fun w =>
  if (w.stmt s).conn then k w else .panic .nilDeref w

/-- The number of successes still to come (rows.go:143-154): `((numQueries - r.pipelineIndex) * 2) - 1`. -/
def numConsume (n idx : Nat) : Int := if n > 0 then ((n : Int) - idx) * 2 - 1 else 1

/-- The part of `boltRows.Close` that empties the stream (rows.go:126-161). A negative count would panic in
`make` (conn.go:597). -/
def rowsDrain (close : M σ (Option GoErr)) (r : Nat) : M σ (Option GoErr) := fun w =>
  let row := w.row r
  if !row.consumed then
    (show M σ (Option GoErr) from do
      match ← withConn row.stmt (sendDiscardAllConsume P close) with
      | (_, some e) => M.pure (some (.wrap "An error occurred discarding messages on row close" (some e)))
      | (.success _, none) => M.pure none
      | (_, none) => M.pure (some (.new "Unrecognized response type discarding all rows: Value: %#v"))) w
  else if !row.finished then
    (show M σ (Option GoErr) from do
      let n := numConsume (w.stmt row.stmt).queries.length row.idx
      if n < 0 then withConn row.stmt (M.panic .negMake)
      else
        match ← withConn row.stmt (consumeAllMultiple P close n.toNat) with
        | some e => M.pure (some (.wrap "An error occurred clearing out unconsumed stream" (some e)))
        | none => M.pure none) w
  else .ok none w

/-- `r.closed = true; r.statement.rows = nil` (rows.go:163-164) -/
def rowsMark (r : Nat) : M σ Unit :=
  M.modify fun w => (w.setRow r fun x => { x with closed := true }).setStmt (w.row r).stmt fun s => { s with rows := none }

/-- `boltRows.Close` (rows.go:121-170) for rows whose `closeStatement` is false. -/
def rowsClose0 (close : M σ (Option GoErr)) (r : Nat) : M σ (Option GoErr) := do
  if ← M.get fun w => (w.row r).closed then M.pure none
  else
    match ← rowsDrain P close r with
    | some e => M.pure (some e)
    | none =>
      rowsMark r
      M.pure none

/-- `s.closed = true; s.conn.statement = nil; s.conn = nil` (stmt.go:68-70) -/
def stmtMark (s : Nat) : M σ Unit := fun w =>
  if (w.stmt s).conn then
    .ok () ({ w with statement := none }.setStmt s fun x => { x with closed := true, conn := false })
  else .panic .nilDeref (w.setStmt s fun x => { x with closed := true })

/-- `boltStmt.Close` (stmt.go:57-72) -/
def stmtClose (close : M σ (Option GoErr)) (s : Nat) : M σ (Option GoErr) := do
  if ← M.get fun w => (w.stmt s).closed then M.pure none
  else
    let err ← (do
      match ← M.get fun w => (w.stmt s).rows with
      | none => M.pure none
      | some r =>
        if ← M.get fun w => (w.row r).closeStmt then M.pure none
        else rowsClose0 P close r)
    match err with
    | some e => M.pure (some e)
    | none =>
      stmtMark s
      M.pure none

/-- `boltRows.Close` (rows.go:121-170). -/
def rowsClose (close : M σ (Option GoErr)) (r : Nat) : M σ (Option GoErr) := do
  if ← M.get fun w => (w.row r).closed then M.pure none
  else
    match ← rowsDrain P close r with
    | some e => M.pure (some e)
    | none =>
      rowsMark r
      if ← M.get fun w => (w.row r).closeStmt then
        let s ← M.get fun w => (w.row r).stmt
        stmtClose P close s
      else M.pure none

/-- The value is a `messages.SuccessMessage`. -/
def Val.isSuccess : Val → Bool
  | .success _ => true
  | _ => false

/-- `Commit` (tx.go:29-61) and `Rollback` (tx.go:64-96): the same code up to the query and message texts. -/
def txFinish (close : M σ (Option GoErr)) (query : Str) (t : Nat) : M σ (Option GoErr) := do
  if ← M.get fun w => w.txClosed t then M.pure (some (.new "Transaction already closed"))
  else
    let err ← (do
      match ← M.get fun w => w.statement with
      | none => M.pure none
      | some s => stmtClose P close s)
    match err with
    | some e => M.pure (some (.wrap "An error occurred closing open rows in transaction" (some e)))
    | none =>
      match ← sendRunPullAllConsumeSingle P close query [] with
      | (_, _, some e) => M.pure (some (.wrap "An error occurred finishing transaction" (some e)))
      | (run, pull, none) =>
        if !run.isSuccess then M.pure (some (.new "Unrecognized response type finishing transaction: %#v"))
        else if !pull.isSuccess then M.pure (some (.new "Unrecognized response type pulling transaction: %#v"))
        else
          M.modify fun w => { w with transaction := none, txs := w.txs.set t true }
          M.pure none

/-- `"ROLLBACK"` -/
def qRollback : Str := [82, 79, 76, 76, 66, 65, 67, 75]
/-- `"COMMIT"` -/
def qCommit : Str := [67, 79, 77, 77, 73, 84]
/-- `"BEGIN"` -/
def qBegin : Str := [66, 69, 71, 73, 78]

/-- `boltConn.Close` (conn.go:361-400) without a pool. After the socket is closed nothing can be written to or
read from it. -/
def connClose (close : M σ (Option GoErr)) : M σ (Option GoErr) := do
  if ← M.get fun w => w.closed then M.pure none
  else
    let err ← (do
      match ← M.get fun w => w.statement with
      | none => M.pure none
      | some s => stmtClose P close s)
    match err with
    | some e => M.pure (some e)
    | none =>
      let err ← (do
        match ← M.get fun w => w.transaction with
        | none => M.pure none
        | some t => txFinish P close qRollback t)
      match err with
      | some e => M.pure (some (.wrap "Error rolling back transaction when closing connection" (some e)))
      | none =>
        M.modify fun w => { w with
          closed := true
          connErr := w.connErr || w.sockCloseErr
          sink := { w.sink with budget := some 0 }
          inbox := [] }
        if ← M.get fun w => w.sockCloseErr then M.pure (some .badConn) else M.pure none

/-- `c.Close()` as called from failure handling, nested at most `n` deep: closing drains open rows, which may
meet another failure, whose handling may close again. The bound does not matter: `c67_bound`. -/
def closeN : Nat → M σ (Option GoErr)
  | 0 => fun w => .deep w
  | n + 1 => connClose P (closeN n)

end

/-! ## API calls -/

section
variable {σ : Type} (P : Peer σ) (close : M σ (Option GoErr))

/-- `newStmt(query, conn)`, `newPipelineStmt(queries, conn)` (stmt.go:48-54) -/
def newStmt (query : Str) (queries : List Str) : M σ Nat := fun w =>
  .ok w.stmts.length { w with stmts := w.stmts ++ [{ query := query, queries := queries, conn := true, closed := false, rows := none }] }

/-- `&boltRows{...}` (rows.go:65-91) -/
def newRowsObj (row : Rows) : M σ Nat := fun w =>
  .ok w.rows.length { w with rows := w.rows ++ [row] }

/-- The guards `c.statement != nil`, `c.closed` at the start of conn.go:486-491, 497-502, 773-778, 799-804,
821-826, 836-841, 850-855. -/
def guardConn : M σ (Option GoErr) := fun w =>
  if w.statement.isSome then .ok (some (.new "An open statement already exists")) w
  else if w.closed then .ok (some (.new "Connection already closed")) w
  else .ok none w

/-- `prepare` (conn.go:496-505) and `PreparePipeline` (conn.go:485-494) -/
def prepare (query : Str) (queries : List Str) : M σ (Except GoErr Nat) := do
  match ← guardConn with
  | some e => M.pure (.error e)
  | none =>
    let s ← newStmt query queries
    M.modify fun w => { w with statement := some s }
    M.pure (.ok s)

/-- The guards `s.closed`, `s.rows != nil` (stmt.go:92-97, 123-128, 188-193, 211-216). -/
def guardStmt (s : Nat) : M σ (Option GoErr) := fun w =>
  if (w.stmt s).closed then .ok (some (.new "Neo4j Bolt statement already closed")) w
  else if (w.stmt s).rows.isSome then .ok (some (.new "Another query is already open")) w
  else .ok none w

/-- `boltStmt.ExecNeo` (stmt.go:91-120); the result is its metadata (result.go:22-24). -/
def stmtExecNeo (s : Nat) (params : KVs) : M σ (Except GoErr KVs) := do
  match ← guardStmt s with
  | some e => M.pure (.error e)
  | none =>
    let q ← M.get fun w => (w.stmt s).query
    match ← withConn s (sendRunPullAllConsumeAll P close q params) with
    | (_, _, some e) => M.pure (.error e)
    | (run, pull, none) =>
      if !run.isSuccess then M.pure (.error (.new "Unrecognized response type when running exec query: %#v"))
      else
        match pull with
        | .success md => M.pure (.ok md)
        | _ => M.pure (.error (.new "Unrecognized response when discarding exec rows: %#v"))

/-- The sending loop of `ExecPipeline` and `QueryPipeline` (stmt.go:134-139, 222-227). -/
def sendAll (msg : String) : List (Str × KVs) → M σ (Option GoErr)
  | [] => M.pure none
  | (q, ps) :: rest => do
    match ← sendRunPullAll P q ps with
    | some e => M.pure (some (.wrap msg (some e)))
    | none => sendAll msg rest

/-- The receiving loop of `ExecPipeline` (stmt.go:144-167). -/
def collect : Nat → M σ (Except GoErr (List KVs))
  | 0 => M.pure (.ok [])
  | n + 1 => do
    match ← consume P close with
    | (_, some e) => M.pure (.error (.wrap "An error occurred getting result of exec command: %#v" (some e)))
    | (run, none) =>
      if !run.isSuccess then M.pure (.error (.new "Unexpected response when getting exec query result: %#v"))
      else
        match ← consumeAll P close with
        | (_, _, some e) => M.pure (.error (.wrap "An error occurred getting result of exec discard command: %#v" (some e)))
        | (_, .success md, none) =>
          match ← collect n with
          | .error e => M.pure (.error e)
          | .ok mds => M.pure (.ok (md :: mds))
        | (_, _, none) => M.pure (.error (.new "Unexpected response when getting exec query discard result: %#v"))

/-- `boltStmt.ExecPipeline` (stmt.go:122-170) -/
def stmtExecPipeline (s : Nat) (params : List KVs) : M σ (Except GoErr (List KVs)) := do
  match ← guardStmt s with
  | some e => M.pure (.error e)
  | none =>
    let qs ← M.get fun w => (w.stmt s).queries
    if params.length ≠ qs.length then
      M.pure (.error (.new "Must pass same number of params as there are queries"))
    else
      match ← withConn s (sendAll P "Error running exec query:\n\n%s\n\nWith Params:\n%#v" (qs.zip params)) with
      | some e => M.pure (.error e)
      | none => withConn s (collect P close qs.length)

/-- `boltStmt.queryNeo` (stmt.go:187-208); `Query` and `QueryNeo` of the statement. -/
def stmtQueryNeo (s : Nat) (params : KVs) : M σ (Except GoErr Nat) := do
  match ← guardStmt s with
  | some e => M.pure (.error e)
  | none =>
    let q ← M.get fun w => (w.stmt s).query
    match ← withConn s (sendRunConsume P close q params) with
    | (_, some e) => M.pure (.error e)
    | (.success md, none) =>
      let r ← newRowsObj { md := md, stmt := s, closed := false, consumed := false, finished := false, idx := 0, closeStmt := false }
      M.modify fun w => w.setStmt s fun x => { x with rows := some r }
      M.pure (.ok r)
    | (_, none) => M.pure (.error (.new "Unrecognized response type running query: %#v"))

/-- `boltStmt.QueryPipeline` (stmt.go:210-243) -/
def stmtQueryPipeline (s : Nat) (params : List KVs) : M σ (Except GoErr Nat) := do
  match ← guardStmt s with
  | some e => M.pure (.error e)
  | none =>
    let qs ← M.get fun w => (w.stmt s).queries
    if params.length ≠ qs.length then
      M.pure (.error (.new "Must pass same number of params as there are queries"))
    else
      match ← withConn s (sendAll P "Error running query:\n\n%s\n\nWith Params:\n%#v" (qs.zip params)) with
      | some e => M.pure (.error e)
      | none =>
        match ← withConn s (consume P close) with
        | (_, some e) => M.pure (.error (.wrap "An error occurred consuming initial pipeline command" (some e)))
        | (.success md, none) =>
          let r ← newRowsObj { md := md, stmt := s, closed := false, consumed := true, finished := false, idx := 0, closeStmt := false }
          M.modify fun w => w.setStmt s fun x => { x with rows := some r }
          M.pure (.ok r)
        | (_, none) => M.pure (.error (.new "Got unexpected return message when consuming initial pipeline command: %#v"))

/-- `queryNeo` (conn.go:772-796): `Query` and `QueryNeo` of the connection. -/
def queryNeo (query : Str) (params : KVs) : M σ (Except GoErr Nat) := do
  match ← guardConn with
  | some e => M.pure (.error e)
  | none =>
    let s ← newStmt query []
    M.modify fun w => { w with statement := some s }
    match ← sendRunPullAllConsumeRun P close query params with
    | (_, some e) =>
      let _ ← stmtCloseCurrent P close
      M.pure (.error e)
    | (.success md, none) =>
      let r ← newRowsObj { md := md, stmt := s, closed := false, consumed := true, finished := false, idx := 0, closeStmt := true }
      M.modify fun w => w.setStmt s fun x => { x with rows := some r }
      M.pure (.ok r)
    | (_, none) =>
      let _ ← stmtCloseCurrent P close
      M.pure (.error (.new "Unexpected response querying neo from connection: %#v"))
where
  /-- `c.statement.Close()` (conn.go:785, 790): failure handling may have closed the connection and with it
  the statement, in which case `c.statement` is nil; calling `Close` on it dereferences nil. -/
  stmtCloseCurrent {σ : Type} (P : Peer σ) (close : M σ (Option GoErr)) : M σ (Option GoErr) := do
    match ← M.get fun w => w.statement with
    | some s => stmtClose P close s
    | none => M.panic .nilDeref

/-- `NextNeo` (rows.go:201-230): row, metadata, error. A row is never nil: the decoder makes a fresh slice. -/
def nextNeo (r : Nat) : M σ (Option (List Val) × Option KVs × Option GoErr) := do
  let row ← M.get fun w => w.row r
  if row.closed then M.pure (none, none, some (.new "Rows are already closed"))
  else
    let pullErr ← (do
      if !row.consumed then
        M.modify fun w => w.setRow r fun x => { x with consumed := true }
        match ← withConn row.stmt (sendPullAll P) with
        | some e =>
          M.modify fun w => w.setRow r fun x => { x with finished := true }
          M.pure (some e)
        | none => M.pure none
      else M.pure none)
    match pullErr with
    | some e => M.pure (none, none, some e)
    | none =>
      match ← withConn row.stmt (consume P close) with
      | (_, some e) => M.pure (none, none, some e)
      | (.success md, none) =>
        M.modify fun w => w.setRow r fun x => { x with finished := true }
        M.pure (none, some md, some .eof)
      | (.record fs, none) => M.pure (some fs, none, none)
      | (_, none) => M.pure (none, none, some (.new "Unrecognized response type getting next query row: %#v"))

/-- The error is `io.EOF` itself. -/
def GoErr.isEOF : GoErr → Bool
  | .eof => true
  | _ => false

/-- `All` (rows.go:232-244), with a bound on the number of rows; every row read takes one item from the
stream, `rowsAll` gives more than there are (`all_fuel`). -/
def allLoop (r : Nat) : Nat → List (List Val) → M σ (List (List Val) × Option KVs × Option GoErr)
  | 0, _ => fun w => .deep w
  | f + 1, out => do
    match ← nextNeo P close r with
    | (some row, _, none) => allLoop r f (out ++ [row])
    | (_, md, some e) => if e.isEOF then M.pure (out, md, none) else M.pure (out, md, some e)
    | (none, md, none) => M.pure (out, md, none)

/-- `All` (rows.go:232-244). The first `NextNeo` may send PULL_ALL and thereby add items. -/
def rowsAll (r : Nat) : M σ (List (List Val) × Option KVs × Option GoErr) := fun w =>
  let more := (P.react w.srv (((encodeTo w.chunkSize w.sink .pullAll).1.out.drop w.sink.out.length))).2.length
  allLoop P close r (w.inbox.length + more + 2) [] w

/-- `QueryNeoAll` (conn.go:761-770): rows, header metadata, summary metadata, error; the deferred
`rows.Close()` runs last and its error is dropped. -/
def queryNeoAll (query : Str) (params : KVs) : M σ (Except GoErr (List (List Val) × KVs × Option KVs × Option GoErr)) := do
  match ← queryNeo P close query params with
  | .error e => M.pure (.error e)
  | .ok r =>
    let (data, md, err) ← rowsAll P close r
    let hdr ← M.get fun w => (w.row r).md
    let _ ← rowsClose P close r
    M.pure (.ok (data, hdr, md, err))

/-- `QueryPipeline` (conn.go:798-816) -/
def queryPipeline (queries : List Str) (params : List KVs) : M σ (Except GoErr Nat) := do
  match ← guardConn with
  | some e => M.pure (.error e)
  | none =>
    let s ← newStmt [] queries
    M.modify fun w => { w with statement := some s }
    match ← stmtQueryPipeline P close s params with
    | .error e => M.pure (.error e)
    | .ok r =>
      M.modify fun w => w.setRow r fun x => { x with closeStmt := true }
      M.pure (.ok r)

/-- What `NextPipeline` returns besides an error: a row, or the next rows object with its metadata; both
absent (all results nil) at the end of the last query. -/
structure PipeRes where
  row : Option (List Val)
  md : Option KVs
  next : Option Nat
  err : Option GoErr

/-- What `NextPipeline` makes of the header of the next query (rows.go:274-283). -/
def pipeHeader (row : Rows) : Val → M σ PipeRes
  | .success md => do
    let r' ← newRowsObj { md := md, stmt := row.stmt, closed := false, consumed := true, finished := false, idx := row.idx + 1, closeStmt := row.closeStmt }
    M.modify fun w => w.setStmt row.stmt fun x => { x with rows := some r' }
    M.pure ⟨none, some md, some r', none⟩
  | _ => M.pure ⟨none, none, none, some (.new "Unexpected response getting next set of rows from pipeline command: %#v")⟩

/-- `NextPipeline` (rows.go:250-289). An `io.EOF` from reading the header of the next query is passed over
(rows.go:269); what counts then is the value that came with it. -/
def nextPipeline (r : Nat) : M σ PipeRes := do
  let row ← M.get fun w => w.row r
  if row.closed then M.pure ⟨none, none, none, some (.new "Rows are already closed")⟩
  else
    match ← withConn row.stmt (consume P close) with
    | (_, some e) => M.pure ⟨none, none, none, some e⟩
    | (.success _, none) =>
      let n ← M.get fun w => (w.stmt row.stmt).queries.length
      if row.idx + 1 = n then
        M.modify fun w => w.setRow r fun x => { x with finished := true }
        M.pure ⟨none, none, none, none⟩
      else
        match ← withConn row.stmt (consume P close) with
        | (v, some e) =>
          if e.isEOF then pipeHeader row v
          else M.pure ⟨none, none, none, some (.wrap "An error occurred getting next set of rows from pipeline command: %#v" (some e))⟩
        | (v, none) => pipeHeader row v
    | (.record fs, none) => M.pure ⟨some fs, none, none, none⟩
    | (_, none) => M.pure ⟨none, none, none, some (.new "Unrecognized response type getting next pipeline row: %#v")⟩

/-- `ExecNeo` (conn.go:835-847) and `Exec` (conn.go:820-832) after its arguments are converted; the deferred
`stmt.Close()` runs last. -/
def execNeo (query : Str) (params : KVs) : M σ (Except GoErr KVs) := do
  match ← guardConn with
  | some e => M.pure (.error e)
  | none =>
    let s ← newStmt query []
    let res ← stmtExecNeo P close s params
    let _ ← stmtClose P close s
    M.pure res

/-- `ExecPipeline` (conn.go:849-861) -/
def execPipeline (queries : List Str) (params : List KVs) : M σ (Except GoErr (List KVs)) := do
  match ← guardConn with
  | some e => M.pure (.error e)
  | none =>
    let s ← newStmt [] queries
    let res ← stmtExecPipeline P close s params
    let _ ← stmtClose P close s
    M.pure res

/-- `Begin` (conn.go:508-539). The new transaction is not stored in `c.transaction`. -/
def begin_ : M σ (Except GoErr Nat) := do
  if (← M.get fun w => w.transaction).isSome then M.pure (.error (.new "An open transaction already exists"))
  else if (← M.get fun w => w.statement).isSome then
    M.pure (.error (.new "Cannot open a transaction when you already have an open statement"))
  else if ← M.get fun w => w.closed then M.pure (.error (.new "Connection already closed"))
  else
    match ← sendRunPullAllConsumeSingle P close qBegin [] with
    | (_, _, some e) => M.pure (.error (.wrap "An error occurred beginning transaction" (some e)))
    | (run, pull, none) =>
      if !run.isSuccess then M.pure (.error (.new "Unrecognized response type beginning transaction: %#v"))
      else if !pull.isSuccess then M.pure (.error (.new "Unrecognized response type pulling transaction:  %#v"))
      else fun w => .ok (.ok w.txs.length) { w with txs := w.txs ++ [false] }

/-- `Commit` (tx.go:29-61) -/
def commit (t : Nat) : M σ (Option GoErr) := txFinish P close qCommit t
/-- `Rollback` (tx.go:64-96) -/
def rollback (t : Nat) : M σ (Option GoErr) := txFinish P close qRollback t

/-- `SetChunkSize` (conn.go:542-544) -/
def setChunkSize (n : UInt16) : M σ Unit := M.modify fun w => { w with chunkSize := n.toNat }

end

end Bolt
