import Verif.Model.Surface
import Verif.Spec.Programs
import Verif.Spec.Text

/-!
# The example programs

`examples/quick_n_dirty` and `examples/slow_n_clean`, which are also in the README, from the opened connection on. The lines
they print are kept as values, without the formatting of `fmt.Printf`. `none` is a program that panicked.
-/

namespace Bolt.Examples

/-- A line printed by one of the examples. -/
inductive Line where
  | created (n : _root_.Int)
  | columns (fields : List Val)
  | fields (foo : _root_.Int) (bar : UInt64)
  | node (v : Val)
  | path (v : Val)
  | deleted (n : _root_.Int)

/-- What the programs ask (quick_n_dirty.go:16, slow_n_clean.go:21) -/
def qCreate : Str := txt "CREATE (n:NODE {foo: {foo}, bar: {bar}})"
/-- quick_n_dirty.go:21, slow_n_clean.go:41 -/
def qGet : Str := txt "MATCH (n:NODE) RETURN n.foo, n.bar"
/-- quick_n_dirty.go:28-33, slow_n_clean.go:77-82 -/
def qPipe : List Str :=
  [txt "MATCH (n:NODE) CREATE (n)-[:REL]->(f:FOO)", txt "MATCH (n:NODE) CREATE (n)-[:REL]->(b:BAR)",
   txt "MATCH (n:NODE) CREATE (n)-[:REL]->(z:BAZ)", txt "MATCH (n:NODE) CREATE (n)-[:REL]->(f:FOO)",
   txt "MATCH (n:NODE) CREATE (n)-[:REL]->(b:BAR)", txt "MATCH (n:NODE) CREATE (n)-[:REL]->(z:BAZ)"]
/-- quick_n_dirty.go:40 -/
def qNodes : Str := txt "MATCH (n:NODE)-[:REL]->(m) RETURN m"
/-- slow_n_clean.go:103 -/
def qPaths : Str := txt "MATCH path=(n:NODE)-[:REL]->(m) RETURN path"
/-- quick_n_dirty.go:45, slow_n_clean.go:127 -/
def qDelete : Str := txt "MATCH (n) DETACH DELETE n"

/-- `map[string]interface{}{"foo": 1, "bar": 2.2}` (quick_n_dirty.go:16, slow_n_clean.go:27); the encoder iterates over it in either
order. -/
def createArgs (barFirst : Bool) : KVs :=
  if barFirst then [(txt "bar", .float64 0x400199999999999A), (txt "foo", .int .int 1)]
  else [(txt "foo", .int .int 1), (txt "bar", .float64 0x400199999999999A)]

/-- `result.RowsAffected()` with its error dropped (quick_n_dirty.go:17, 36 and 46): a nil result and a failed type assertion
panic. -/
def affected : Option KVs → Option _root_.Int
  | none => none
  | some md =>
    match rowsAffected md with
    | .ok (n, _) => some n
    | .error _ => none

/-- `RowsAffected` with its error checked (slow_n_clean.go:31-34) -/
def affectedChecked : Option KVs → Option _root_.Int
  | none => none
  | some md =>
    match rowsAffected md with
    | .ok (n, none) => some n
    | _ => none

/-- `result, _ := conn.ExecNeo(…)`: nil after an error. -/
def resultOf : Res → Option KVs
  | .summary md => some md
  | _ => none

/-- `md["fields"].([]interface{})` (quick_n_dirty.go:22, slow_n_clean.go:69) -/
def fieldList (md : KVs) : Option (List Val) :=
  match mapGet md kFields with
  | some (.list xs) => some xs
  | _ => none

/-- `row[0].(int64), row[1].(float64)` (quick_n_dirty.go:23, slow_n_clean.go:70) -/
def fooBar : List Val → Option Line
  | .int .int64 n :: .float64 f :: _ => some (.fields n f)
  | _ => none

/-- `row[0].(graph.Node)` (quick_n_dirty.go:42) -/
def nodeOf : List Val → Option Line
  | .node id ls props :: _ => some (.node (.node id ls props))
  | _ => none

/-- `row[0].(graph.Path)` (slow_n_clean.go:121) -/
def pathOf : List Val → Option Line
  | .path ns rs sq :: _ => some (.path (.path ns rs sq))
  | _ => none

/-- Each of them, or none if one panics. -/
def each {α β : Type} (f : α → Option β) : List α → Option (List β)
  | [] => some []
  | x :: xs =>
    match f x, each f xs with
    | some y, some ys => some (y :: ys)
    | _, _ => none

/-- Goes on with the value, or ends with the panic. -/
def need {α β : Type} (x : Option α) (k : α → Prog (Option β)) : Prog (Option β) :=
  match x with
  | some a => k a
  | none => .done none

/-- The summaries of a pipeline; nil after an error, over which the loop does nothing (quick_n_dirty.go:27-38). -/
def summariesIn : Res → List KVs
  | .summaries mds => mds
  | _ => []

/-- `examples/quick_n_dirty/quick_n_dirty.go:10-48` with the deferred `Close`. Errors are dropped. A failure of
`QueryNeoAll` is followed as if it returned no data and nil metadata. -/
def quick (barFirst : Bool) : Prog (Option (List Line)) :=
  .call (.exec qCreate (createArgs barFirst)) fun r1 =>
  need (affected (resultOf r1)) fun n1 =>
  .call (.queryAll qGet []) fun r2 =>
  let (data, md) : List (List Val) × KVs := match r2 with
    | .data rs hd _ => (rs, hd)
    | _ => ([], [])
  need (fieldList md) fun cols =>
  need (data.head?) fun row =>
  need (fooBar row) fun line =>
  .call (.execPipe (qPipe.map fun q => (q, []))) fun r3 =>
  need (each affected ((summariesIn r3).map some)) fun ns =>
  .call (.queryAll qNodes []) fun r4 =>
  let data2 : List (List Val) := match r4 with
    | .data rs _ _ => rs
    | _ => []
  need (each nodeOf data2) fun nodes =>
  .call (.exec qDelete []) fun r5 =>
  need (affected (resultOf r5)) fun n5 =>
  .call .close fun _ =>
  .done (some ([.created n1, .columns cols, line] ++ ns.map .created ++ nodes ++ [.deleted n5]))

/-- `if err != nil { panic(err) }` -/
def check (r : Res) (k : Prog (Option (List Line))) : Prog (Option (List Line)) :=
  match r with
  | .localError | .failure _ => .done none
  | _ => k

/-- `for err == nil { … rows.NextNeo() … }` (slow_n_clean.go:115-123), at most `fuel` times. -/
def readPaths : Nat → List Line → (List Line → Prog (Option (List Line))) → Prog (Option (List Line))
  | 0, _, _ => .done none
  | fuel + 1, acc, k =>
    .call .next fun r =>
    match r with
    | .row fs => need (pathOf fs) fun l => readPaths fuel (acc ++ [l]) k
    | .eof _ => k acc
    | _ => .done none

/-- `examples/slow_n_clean/slow_n_clean.go:11-131` with the deferred `Close`. `fuel` bounds the loop over the paths, which the
program does not. -/
def slow (barFirst : Bool) (fuel : Nat) : Prog (Option (List Line)) :=
  .call (.prepare qCreate) fun r1 => check r1 <|
  .call (.stExec (createArgs barFirst)) fun r2 => check r2 <|
  need (affectedChecked (resultOf r2)) fun n1 =>
  .call .closeStmt fun _ =>
  .call (.prepare qGet) fun r3 => check r3 <|
  .call (.stQuery []) fun r4 => check r4 <|
  .call .next fun r5 => check r5 <|
  need (match r5 with | .row fs => some fs | _ => none) fun data =>
  .call .next fun r6 =>
  need (match r6 with | .eof _ => some () | _ => none) fun _ =>
  need (match r4 with | .rows md => fieldList md | _ => none) fun cols =>
  need (fooBar data) fun line =>
  .call .closeStmt fun _ =>
  .call (.preparePipe qPipe) fun r7 => check r7 <|
  .call (.stExecPipe [[], [], [], [], [], []]) fun r8 => check r8 <|
  need (each affected ((summariesIn r8).map some)) fun ns =>
  .call .closeStmt fun r9 => check r9 <|
  .call (.prepare qPaths) fun r10 => check r10 <|
  .call (.stQuery []) fun r11 => check r11 <|
  readPaths fuel [] fun paths =>
  .call .closeStmt fun _ =>
  .call (.exec qDelete []) fun r12 =>
  need (affected (resultOf r12)) fun n5 =>
  .call .close fun _ =>
  .done (some ([.created n1, .columns cols, line] ++ ns.map .created ++ paths ++ [.deleted n5]))

end Bolt.Examples
