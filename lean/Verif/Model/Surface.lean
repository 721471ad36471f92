import Verif.Model.Session

/-!
# What results and rows show to the caller, and the database/sql argument and row conversions

result.go, rows.go:93-118 and 173-196, util.go:30-52.
-/

namespace Bolt

/-- `m[k]` with its presence (Go language). -/
def mapGet : KVs → Str → Option Val
  | [], _ => none
  | (k', v) :: rest, k => if k' = k then some v else mapGet rest k

/-- `"stats"` (result.go:43) -/
def kStats : Str := [115, 116, 97, 116, 115]
/-- `"nodes-created"` (result.go:53) -/
def kNodesCreated : Str := [110, 111, 100, 101, 115, 45, 99, 114, 101, 97, 116, 101, 100]
/-- `"relationships-created"` (result.go:58) -/
def kRelsCreated : Str :=
  [114, 101, 108, 97, 116, 105, 111, 110, 115, 104, 105, 112, 115, 45, 99, 114, 101, 97, 116, 101, 100]
/-- `"nodes-deleted"` (result.go:63) -/
def kNodesDeleted : Str := [110, 111, 100, 101, 115, 45, 100, 101, 108, 101, 116, 101, 100]
/-- `"relationships-deleted"` (result.go:68) -/
def kRelsDeleted : Str :=
  [114, 101, 108, 97, 116, 105, 111, 110, 115, 104, 105, 112, 115, 45, 100, 101, 108, 101, 116, 101, 100]

/-- `if x, ok := stats[k]; ok { rowsAffected += x.(int64) }` (result.go:53-56 and the three like it); the addition
wraps around, the assertion panics. -/
def addStat (stats : KVs) (k : Str) (acc : Int) : Except Panic Int :=
  match mapGet stats k with
  | none => .ok acc
  | some (.int .int64 n) => .ok (wrapSigned 8 (acc + n))
  | some _ => .error .typeAssert

/-- `RowsAffected` (result.go:41-74). -/
def rowsAffected (md : KVs) : Except Panic (Int × Option GoErr) :=
  match mapGet md kStats with
  | none => .ok (0, none)
  | some (.map stats) => do
    let n ← addStat stats kNodesCreated 0
    let n ← addStat stats kRelsCreated n
    let n ← addStat stats kNodesDeleted n
    let n ← addStat stats kRelsDeleted n
    .ok (n, none)
  | some _ => .ok (-1, some (.new "Unrecognized type for stats metadata: %#v"))

/-- `LastInsertId` (result.go:32-35). -/
def lastInsertId (_md : KVs) : Int × Option GoErr := (-1, none)

/-- `"fields"` (rows.go:94) -/
def kFields : Str := [102, 105, 101, 108, 100, 115]

/-- The loop of `Columns` (rows.go:106-111); `none` is the early `return []string{}`. -/
def columnNames : List Val → Option (List Str)
  | [] => some []
  | .str s :: rest =>
    match columnNames rest with
    | some ss => some (s :: ss)
    | none => none
  | _ :: _ => none

/-- `Columns` (rows.go:93-113) on the metadata of the rows object. -/
def columns (md : KVs) : List Str :=
  match mapGet md kFields with
  | none => []
  | some (.list fields) =>
    match columnNames fields with
    | some ss => ss
    | none => []
  | some _ => []

/-- A `driver.Value` (database/sql/driver): a byte slice or a value of one of the other types. -/
inductive DVal where
  | bytes (b : Bytes)
  | plain (v : Val)

/-- `for k, v := range m { output[k] = v }` (util.go:45-47); the keys of `m` are distinct, so the order of the
iteration does not matter for the entries. -/
def mergeInto : KVs → KVs → KVs
  | out, [] => out
  | out, (k, v) :: rest => mergeInto (mapInsert out k v) rest

/-- The loop of `driverArgsToMap` (util.go:34-49). The type assertion on the decoded value is unchecked. -/
def driverArgsFrom : KVs → List DVal → Except Fault KVs
  | out, [] => .ok out
  | _, .plain _ :: _ => .error (.err (.foreign 1))
  | out, .bytes b :: rest =>
    match unmarshal b with
    | .error f => .error f
    | .ok (.map m) => driverArgsFrom (mergeInto out m) rest
    | .ok _ => .error (.panic .typeAssert)

/-- `driverArgsToMap` (util.go:32-52). -/
def driverArgsToMap (args : List DVal) : Except Fault KVs := driverArgsFrom [] args

/-- `dest[i], err = encoding.Marshal(item)` (rows.go:182-185) -/
def sqlMarshal (v : Val) : Except GoErr DVal :=
  match marshal v with
  | (b, none) => .ok (.bytes b)
  | (_, some e) => .error e

/-- The body of the loop of `Next` (rows.go:180-191): the switch and
`driver.DefaultParameterConverter.ConvertValue` (database/sql/driver/types.go), which keeps nil, booleans, `int64`,
`float64` and strings and rejects every structure. A record that was decoded contains no integer of another type, no
`float32` and no other slice; `ConvertValue` would turn some of those into the types above, here they are rejected. -/
def sqlValue (v : Val) : Except GoErr DVal :=
  match v with
  | .list _ | .map _ | .node .. | .path .. | .rel .. | .unbound .. => sqlMarshal v
  | .nil | .bool _ | .int .int64 _ | .float64 _ | .str _ => .ok (.plain v)
  | _ => .error (.foreign 2)

/-- The loop of `Next` (rows.go:179-192): `dest[i] = …` panics when the row has more values than `dest`. What `dest`
holds after an error is not modelled. -/
def storeRow : Nat → List DVal → List Val → Except Fault (List DVal)
  | _, dest, [] => .ok dest
  | i, dest, v :: rest =>
    match sqlValue v with
    | .error e => if i < dest.length then .error (.err e) else .error (.panic .index)
    | .ok d => if i < dest.length then storeRow (i + 1) (dest.set i d) rest else .error (.panic .index)

/-- `Next` (rows.go:173-196): the filled `dest`, or the error. -/
def sqlNext (P : Peer σ) (close : M σ (Option GoErr)) (r : Nat) (dest : List DVal) :
    M σ (Except GoErr (List DVal)) := do
  match ← nextNeo P close r with
  | (_, _, some e) => M.pure (.error e)
  | (data, _, none) =>
    match storeRow 0 dest (data.getD []) with
    | .ok d => M.pure (.ok d)
    | .error (.err e) => M.pure (.error e)
    | .error (.panic p) => M.panic p
    | .error .fuel => fun w => .deep w

end Bolt
