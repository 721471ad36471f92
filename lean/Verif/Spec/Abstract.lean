import Verif.Spec.Clients

/-!
# The session as its users should see it

An abstract connection over a database: calls run queries one after the other and hand out their answers. No bytes,
no messages, no buffers. `Sess.step` is not defined (`none`) where the driver is known not to behave; each such
place carries the property that records the defect.
-/

namespace Bolt
open PackStream

/-- PackStream parameters. -/
abbrev PSs := List (Str × PS)

/-- Calls on a connection, its current statement, its current rows and its latest transaction. `α` is the type of
parameter maps. -/
inductive Call (α : Type) where
  | exec (q : Str) (p : α)
  | query (q : Str) (p : α)
  | queryAll (q : Str) (p : α)
  | execPipe (l : List (Str × α))
  | queryPipe (l : List (Str × α))
  | prepare (q : Str)
  | preparePipe (qs : List Str)
  | stExec (p : α)
  | stQuery (p : α)
  | stExecPipe (l : List α)
  | stQueryPipe (l : List α)
  | next
  | all
  | nextPipe
  | closeRows
  | closeStmt
  | begin
  | commit
  | rollback
  | close
  | setChunkSize (n : UInt16)

/-- What a call returns. `failure` is the server's failure, `localError` any other error. -/
inductive Res where
  | localError
  | failure (md : KVs)
  | done
  | summary (md : KVs)
  | summaries (mds : List KVs)
  | rows (header : KVs)
  | row (fs : List Val)
  | eof (md : KVs)
  | data (rs : List (List Val)) (header md : KVs)
  | all (rs : List (List Val)) (md : KVs)
  | next (header md : KVs)
  | pipeEnd

/-- A prepared query or pipeline. -/
structure Prep where
  query : Str
  queries : List Str

/-- What is open on the connection. `reading`: header of the current query, its records not yet returned, how it
ends, the answers of the later queries of the pipeline up to the first that fails, and the number of later
queries. `dead`: rows that met a failure. `leaked`: a failed `QueryPipeline`. -/
inductive Open where
  | idle
  | leaked
  | stmt (p : Prep)
  | fresh (p : Prep) (header : KVs) (rs : List (List Val)) (e : Ending)
  | reading (p : Prep) (direct : Bool) (header : KVs) (rs : List (List Val)) (e : Ending) (more : List Outcome) (n : Nat)
  | ended (p : Prep) (direct : Bool)
  | dead (p : Prep) (direct : Bool)
  | closed (dirty : Bool)

/-- An abstract session: database, what is open, whether the latest transaction is open, chunk size. -/
structure Sess (δ : Type) where
  db : δ
  opn : Open
  tx : Bool
  cs : Nat

/-- Error or summary of an executed query. -/
def Outcome.res : Outcome → Res
  | .refused md => .failure md
  | .answer _ _ (.broken md) => .failure md
  | .answer _ _ (.summary md) => .summary md

/-- Summaries, as long as there are. -/
def summariesOf (os : List Outcome) : List KVs :=
  os.filterMap fun o => match o with
    | .answer _ _ (.summary md) => some md
    | _ => none

/-- Error or summaries of an executed pipeline. -/
def pipeRes (os : List Outcome) : Res :=
  match os.findSome? Outcome.failure? with
  | some md => .failure md
  | none => .summaries (summariesOf os)

/-- The failure met when the rest is read. -/
def restFails (e : Ending) (more : List Outcome) : Option KVs :=
  match e with
  | .broken md => some md
  | .summary _ => more.findSome? Outcome.failure?

/-- The command returned no records. -/
def Outcome.isQuiet : Outcome → Bool
  | .refused _ => true
  | .answer _ rs _ => rs.isEmpty

section
variable {δ : Type} (D : DB δ)

/-- What the rest of a pipeline does after a query that ended with `e`. -/
def DB.after (d : δ) (e : Ending) (rest : List (Str × PSs)) : δ × List Outcome :=
  match e with
  | .broken _ => (d, [])
  | .summary _ => D.runAll d rest

/-- Executing a pipeline for its rows. An empty pipeline makes the driver wait for an answer to nothing (C63). -/
def Sess.openPipe (s : Sess δ) (direct : Bool) (failed : Open) (p : Prep) : List (Str × PSs) → Option (Sess δ × Res)
  | [] => none
  | (q, ps) :: rest =>
    match D.exec s.db q ps with
    | (d, .refused md) => some ({ s with db := d, opn := failed }, .failure md)
    | (d, .answer h rs e) =>
      some ({ s with db := (D.after d e rest).1, opn := .reading p direct h rs e (D.after d e rest).2 rest.length }, .rows h)

/-- BEGIN, COMMIT and ROLLBACK; only for databases that answer them without records. -/
def Sess.command (s : Sess δ) (q : Str) (tx : Bool) : Option (Sess δ × Res) :=
  match D.exec s.db q [] with
  | (d, .refused md) => some ({ s with db := d, opn := .idle }, .failure md)
  | (d, .answer _ rs (.broken md)) => if rs.isEmpty then some ({ s with db := d, opn := .idle }, .failure md) else none
  | (d, .answer _ rs (.summary _)) => if rs.isEmpty then some ({ s with db := d, opn := .idle, tx := tx }, .done) else none

/-- Closing what is open, as part of another call: the session with nothing open, or the session and the failure
met. `none`: C36 (rows of a direct query are not drained), C37 (rows that met a failure). -/
def Sess.release (s : Sess δ) : Option (Sess δ × Option KVs) :=
  let free := some ({ s with opn := .idle }, none)
  let settle (p : Prep) : Option KVs → Option (Sess δ × Option KVs)
    | none => free
    | some md => some ({ s with opn := .dead p false }, some md)
  match s.opn with
  | .idle | .leaked | .stmt _ => free
  | .fresh p _ _ e => settle p (restFails e [])
  | .reading p direct _ _ e more _ => if direct then none else settle p (restFails e more)
  | .ended _ direct => if direct then none else free
  | .dead _ _ => none
  | .closed _ => none

/-- The end of a transaction. -/
def Sess.finish (s : Sess δ) (q : Str) : Option (Sess δ × Res) :=
  if s.tx then
    match s.release with
    | none => none
    | some (s', some md) => some (s', .failure md)
    | some (s', none) => s'.command D q false
  else some (s, .localError)

/-- The open rows of a single query as `NextNeo` and `All` meet them: closed, their statement, kind, header,
unread records and ending, or undefined: C38 (reading past the end), C37 (after a failure), rows of a pipeline. -/
inductive Cursor where
  | closed
  | undefined
  | at (p : Prep) (direct : Bool) (header : KVs) (rs : List (List Val)) (e : Ending)

/-- The open rows of a single query. -/
def Open.cursor : Open → Cursor
  | .idle | .leaked | .stmt _ => .closed
  | .fresh p h rs e => if p.queries = [] then .at p false h rs e else .undefined
  | .reading p dr h rs e _ _ => if p.queries = [] then .at p dr h rs e else .undefined
  | .ended _ _ | .dead _ _ => .undefined
  | .closed dirty => if dirty then .undefined else .closed

/-- One call. -/
def Sess.step (s : Sess δ) : Call PSs → Option (Sess δ × Res)
  | .exec q ps =>
    match s.opn with
    | .idle => some ({ s with db := (D.exec s.db q ps).1 }, (D.exec s.db q ps).2.res)
    | _ => some (s, .localError)
  | .query q ps =>
    match s.opn with
    | .idle =>
      match D.exec s.db q ps with
      | (d, .refused md) => some ({ s with db := d }, .failure md)
      | (d, .answer h rs e) => some ({ s with db := d, opn := .reading ⟨q, []⟩ true h rs e [] 0 }, .rows h)
    | _ => some (s, .localError)
  | .queryAll q ps =>
    match s.opn with
    | .idle =>
      match D.exec s.db q ps with
      | (d, .refused md) => some ({ s with db := d }, .failure md)
      | (d, .answer h rs (.summary md)) => some ({ s with db := d }, .data rs h md)
      -- C27, C37
      | (_, .answer _ _ (.broken _)) => none
    | _ => some (s, .localError)
  | .execPipe l =>
    match s.opn with
    | .idle => some ({ s with db := (D.runAll s.db l).1 }, pipeRes (D.runAll s.db l).2)
    | _ => some (s, .localError)
  | .queryPipe l =>
    match s.opn with
    -- C39: the statement of a failed pipeline stays open
    | .idle => s.openPipe D true .leaked ⟨[], l.map Prod.fst⟩ l
    | _ => some (s, .localError)
  | .prepare q =>
    match s.opn with
    | .idle => some ({ s with opn := .stmt ⟨q, []⟩ }, .done)
    | _ => some (s, .localError)
  | .preparePipe qs =>
    match s.opn with
    | .idle => some ({ s with opn := .stmt ⟨[], qs⟩ }, .done)
    | _ => some (s, .localError)
  | .stExec ps =>
    match s.opn with
    | .stmt p => some ({ s with db := (D.exec s.db p.query ps).1 }, (D.exec s.db p.query ps).2.res)
    | _ => some (s, .localError)
  | .stQuery ps =>
    match s.opn with
    | .stmt p =>
      -- a single query on a pipeline statement
      if p.queries ≠ [] then none
      else
        match D.exec s.db p.query ps with
        | (d, .refused md) => some ({ s with db := d }, .failure md)
        | (d, .answer h rs e) => some ({ s with db := d, opn := .fresh p h rs e }, .rows h)
    | _ => some (s, .localError)
  | .stExecPipe l =>
    match s.opn with
    | .stmt p =>
      if l.length ≠ p.queries.length then some (s, .localError)
      else some ({ s with db := (D.runAll s.db (p.queries.zip l)).1 }, pipeRes (D.runAll s.db (p.queries.zip l)).2)
    | _ => some (s, .localError)
  | .stQueryPipe l =>
    match s.opn with
    | .stmt p =>
      if l.length ≠ p.queries.length then some (s, .localError)
      else s.openPipe D false (.stmt p) p (p.queries.zip l)
    | _ => some (s, .localError)
  | .next =>
    match s.opn.cursor with
    | .closed => some (s, .localError)
    | .undefined => none
    | .at p dr h (r :: rs) e => some ({ s with opn := .reading p dr h rs e [] 0 }, .row r)
    | .at p dr _ [] (.summary md) => some ({ s with opn := .ended p dr }, .eof md)
    | .at p dr _ [] (.broken md) => some ({ s with opn := .dead p dr }, .failure md)
  | .all =>
    match s.opn.cursor with
    | .closed => some (s, .localError)
    | .undefined => none
    | .at p dr _ rs (.summary md) => some ({ s with opn := .ended p dr }, .all rs md)
    | .at p dr _ _ (.broken md) => some ({ s with opn := .dead p dr }, .failure md)
  | .nextPipe =>
    match s.opn with
    | .idle | .leaked | .stmt _ => some (s, .localError)
    | .reading p dr h rs e more n =>
      -- NextPipeline on the rows of a single query
      if p.queries = [] then none
      else
        match rs, e, more, n with
        | r :: rs, _, _, _ => some ({ s with opn := .reading p dr h rs e more n }, .row r)
        | [], .broken md, _, _ => some ({ s with opn := .dead p dr }, .failure md)
        | [], .summary _, [], _ => some ({ s with opn := .ended p dr }, .pipeEnd)
        | [], .summary _, .refused md :: _, _ => some ({ s with opn := .dead p dr }, .failure md)
        | [], .summary _, .answer h' rs' e' :: more, n =>
          some ({ s with opn := .reading p dr h' rs' e' more (n - 1) }, .next h' h')
    | .fresh .. | .ended .. | .dead .. => none
    | .closed dirty => if dirty then none else some (s, .localError)
  | .closeRows =>
    match s.opn with
    | .idle | .leaked | .stmt _ => some (s, .done)
    | .fresh p _ _ e =>
      match restFails e [] with
      | none => some ({ s with opn := .stmt p }, .done)
      | some md => some ({ s with opn := .dead p false }, .failure md)
    | .reading p dr _ _ e more _ =>
      match restFails e more with
      | none => some ({ s with opn := if dr then .idle else .stmt p }, .done)
      | some md => some ({ s with opn := .dead p dr }, .failure md)
    | .ended p dr => some ({ s with opn := if dr then .idle else .stmt p }, .done)
    | .dead .. => none
    | .closed dirty => if dirty then none else some (s, .done)
  | .closeStmt =>
    match s.opn with
    | .idle | .leaked | .closed _ | .reading _ true _ _ _ _ _ | .ended _ true | .dead _ true => some (s, .done)
    | _ =>
      match s.release with
      | none => none
      | some (s', none) => some (s', .done)
      | some (s', some md) => some (s', .failure md)
  | .begin =>
    match s.opn with
    | .idle => s.command D [66, 69, 71, 73, 78] true
    | _ => some (s, .localError)
  | .commit => s.finish D [67, 79, 77, 77, 73, 84]
  | .rollback => s.finish D [82, 79, 76, 76, 66, 65, 67, 75]
  | .close =>
    match s.opn with
    | .closed _ => some (s, .done)
    | .reading _ true _ _ _ _ _ | .ended _ true | .dead _ true => some ({ s with opn := .closed true }, .done)
    | _ =>
      match s.release with
      | none => none
      | some (s', none) => some ({ s' with opn := .closed false }, .done)
      | some (s', some md) => some (s', .failure md)
  | .setChunkSize n => if n = 0 then none else some ({ s with cs := n.toNat }, .done)

end

/-! ## Driver calls and what they mean to the database -/

/-- Parameter maps and their meaning, one by one. -/
def MeansParams : List KVs → List PSs → Prop
  | [], l => l = []
  | kvs :: rest, l => ∃ ps rest', MeansKVs kvs ps ∧ MeansParams rest rest' ∧ l = ps :: rest'

/-- The call as the database should understand it. -/
inductive Call.Means : Call KVs → Call PSs → Prop where
  | exec {q kvs ps} : MeansKVs kvs ps → Call.Means (.exec q kvs) (.exec q ps)
  | query {q kvs ps} : MeansKVs kvs ps → Call.Means (.query q kvs) (.query q ps)
  | queryAll {q kvs ps} : MeansKVs kvs ps → Call.Means (.queryAll q kvs) (.queryAll q ps)
  | execPipe {l m} : MeansAll l m → Call.Means (.execPipe l) (.execPipe m)
  | queryPipe {l m} : MeansAll l m → Call.Means (.queryPipe l) (.queryPipe m)
  | prepare {q} : Call.Means (.prepare q) (.prepare q)
  | preparePipe {qs} : Call.Means (.preparePipe qs) (.preparePipe qs)
  | stExec {kvs ps} : MeansKVs kvs ps → Call.Means (.stExec kvs) (.stExec ps)
  | stQuery {kvs ps} : MeansKVs kvs ps → Call.Means (.stQuery kvs) (.stQuery ps)
  | stExecPipe {l m} : MeansParams l m → Call.Means (.stExecPipe l) (.stExecPipe m)
  | stQueryPipe {l m} : MeansParams l m → Call.Means (.stQueryPipe l) (.stQueryPipe m)
  | next : Call.Means .next .next
  | all : Call.Means .all .all
  | nextPipe : Call.Means .nextPipe .nextPipe
  | closeRows : Call.Means .closeRows .closeRows
  | closeStmt : Call.Means .closeStmt .closeStmt
  | begin : Call.Means .begin .begin
  | commit : Call.Means .commit .commit
  | rollback : Call.Means .rollback .rollback
  | close : Call.Means .close .close
  | setChunkSize {n} : Call.Means (.setChunkSize n) (.setChunkSize n)

/-- The messages the call sends in this state are ones the encoder delivers unchanged (see `Sendable`), and its
parameters have a meaning. -/
def Call.Deliverable {δ : Type} (c : Call KVs) (s : Sess δ) : Prop :=
  (∃ m, c.Means m) ∧
  match c, s.opn with
  | .exec q kvs, .idle => Sendable s.cs (.run q kvs)
  | .query q kvs, .idle => Sendable s.cs (.run q kvs)
  | .queryAll q kvs, .idle => Sendable s.cs (.run q kvs)
  | .execPipe l, .idle => ∀ x ∈ l, Sendable s.cs (.run x.1 x.2)
  | .queryPipe l, .idle => ∀ x ∈ l, Sendable s.cs (.run x.1 x.2)
  | .stExec kvs, .stmt p => Sendable s.cs (.run p.query kvs)
  | .stQuery kvs, .stmt p => Sendable s.cs (.run p.query kvs)
  | .stExecPipe l, .stmt p => ∀ x ∈ p.queries.zip l, Sendable s.cs (.run x.1 x.2)
  | .stQueryPipe l, .stmt p => ∀ x ∈ p.queries.zip l, Sendable s.cs (.run x.1 x.2)
  | _, _ => True

/-- The results `rs` are what the abstract session gives for the calls, up to the first call that is not
deliverable or for which the abstract session is not defined. -/
def Follows {δ : Type} (D : DB δ) : Sess δ → List (Call KVs) → List Res → Prop
  | _, [], rs => rs = []
  | s, c :: cs, rs => c.Deliverable s → ∃ m, c.Means m ∧
    match s.step D m with
    | none => True
    | some (s', r) => ∃ rs', rs = r :: rs' ∧ Follows D s' cs rs'

/-! ## A client of the driver making the calls -/

/-- The client's latest statement, rows and transaction. -/
structure Handles where
  s : Option Nat
  r : Option Nat
  t : Option Nat

/-- An error as the client sees it. -/
def GoErr.res (e : GoErr) : Res :=
  match e.innerMost with
  | .failure md => .failure md
  | _ => .localError

/-- An error or a result. -/
def exceptRes {α : Type} (f : α → Res) : Except GoErr α → Res
  | .error e => e.res
  | .ok a => f a

/-- What `QueryNeoAll` returned. -/
def dataRes : List (List Val) × KVs × Option KVs × Option GoErr → Res
  | (_, _, _, some e) => e.res
  | (rs, hdr, some md, none) => .data rs hdr md
  | (_, _, none, none) => .localError

/-- What `NextNeo` returned. -/
def nextRes : Option (List Val) × Option KVs × Option GoErr → Res
  | (some fs, _, none) => .row fs
  | (_, some md, some .eof) => .eof md
  | (_, _, some e) => e.res
  | (none, _, none) => .localError

/-- What `All` returned. -/
def allRes : List (List Val) × Option KVs × Option GoErr → Res
  | (rs, some md, none) => .all rs md
  | (_, _, some e) => e.res
  | (_, none, none) => .localError

/-- A nil error or not. -/
def errRes : Option GoErr → Res
  | none => .done
  | some e => e.res

section
variable {σ : Type} (P : Peer σ) (close : M σ (Option GoErr))

/-- New rows and their `Metadata()`. -/
def gotRows (h : Handles) : Except GoErr Nat → M σ (Res × Handles)
  | .error e => M.pure (e.res, h)
  | .ok r => do
    let md ← M.get fun w => (w.row r).md
    M.pure (.rows md, { h with r := some r })

/-- What `NextPipeline` returned; the `Metadata()` of new rows. -/
def gotPipe (h : Handles) (x : PipeRes) : M σ (Res × Handles) :=
  match x.err, x.row, x.next with
  | some e, _, _ => M.pure (e.res, h)
  | none, some fs, _ => M.pure (.row fs, h)
  | none, none, some r => do
    let md ← M.get fun w => (w.row r).md
    M.pure (.next (x.md.getD []) md, { h with r := some r })
  | none, none, none => M.pure (.pipeEnd, h)

/-- A call on the driver; without the object it is made on, a local error. -/
def Call.run (h : Handles) : Call KVs → M σ (Res × Handles)
  | .exec q kvs => do M.pure (exceptRes .summary (← execNeo P close q kvs), h)
  | .query q kvs => do gotRows h (← queryNeo P close q kvs)
  | .queryAll q kvs => do M.pure (exceptRes dataRes (← queryNeoAll P close q kvs), h)
  | .execPipe l => do M.pure (exceptRes .summaries (← execPipeline P close (l.map Prod.fst) (l.map Prod.snd)), h)
  | .queryPipe l => do gotRows h (← queryPipeline P close (l.map Prod.fst) (l.map Prod.snd))
  | .prepare q => do
    match ← Bolt.prepare q [] with
    | .error e => M.pure (e.res, h)
    | .ok s => M.pure (.done, { h with s := some s })
  | .preparePipe qs => do
    match ← Bolt.prepare [] qs with
    | .error e => M.pure (e.res, h)
    | .ok s => M.pure (.done, { h with s := some s })
  | .stExec kvs =>
    match h.s with
    | none => M.pure (.localError, h)
    | some s => do M.pure (exceptRes .summary (← stmtExecNeo P close s kvs), h)
  | .stQuery kvs =>
    match h.s with
    | none => M.pure (.localError, h)
    | some s => do gotRows h (← stmtQueryNeo P close s kvs)
  | .stExecPipe l =>
    match h.s with
    | none => M.pure (.localError, h)
    | some s => do M.pure (exceptRes .summaries (← stmtExecPipeline P close s l), h)
  | .stQueryPipe l =>
    match h.s with
    | none => M.pure (.localError, h)
    | some s => do gotRows h (← stmtQueryPipeline P close s l)
  | .next =>
    match h.r with
    | none => M.pure (.localError, h)
    | some r => do M.pure (nextRes (← nextNeo P close r), h)
  | .all =>
    match h.r with
    | none => M.pure (.localError, h)
    | some r => do M.pure (allRes (← rowsAll P close r), h)
  | .nextPipe =>
    match h.r with
    | none => M.pure (.localError, h)
    | some r => do gotPipe h (← nextPipeline P close r)
  | .closeRows =>
    match h.r with
    | none => M.pure (.done, h)
    | some r => do M.pure (errRes (← rowsClose P close r), h)
  | .closeStmt =>
    match h.s with
    | none => M.pure (.done, h)
    | some s => do M.pure (errRes (← stmtClose P close s), h)
  | .begin => do
    match ← begin_ P close with
    | .error e => M.pure (e.res, h)
    | .ok t => M.pure (.done, { h with t := some t })
  | .commit =>
    match h.t with
    | none => M.pure (.localError, h)
    | some t => do M.pure (errRes (← Bolt.commit P close t), h)
  | .rollback =>
    match h.t with
    | none => M.pure (.localError, h)
    | some t => do M.pure (errRes (← Bolt.rollback P close t), h)
  | .close => do M.pure (errRes (← connClose P close), h)
  | .setChunkSize n => do
    Bolt.setChunkSize n
    M.pure (.done, h)

/-- Makes the calls one after the other, collecting the results; a panic ends it. -/
def history (h : Handles) : List (Call KVs) → World σ → List Res
  | [], _ => []
  | c :: cs, w =>
    match c.run P close h w with
    | .ok (r, h') w' => r :: history h' cs w'
    | _ => []

end

/-- A freshly opened connection to a server with database state `d`. -/
def freshConn {δ : Type} (d : δ) (cs : Nat) : World (Srv δ) where
  stmts := []
  rows := []
  txs := []
  statement := none
  transaction := none
  closed := false
  connErr := false
  chunkSize := cs
  sockCloseErr := false
  sink := { out := [], budget := none }
  inbox := []
  srv := ⟨d, .ready, []⟩
  log := []

end Bolt
