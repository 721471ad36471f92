import Verif.Model.Encoder

/-!
# encoding/decoder.go and encoding/util.go

`Dec α` is a computation on the message buffer (`*bytes.Buffer`): it returns a value and the remaining
buffer, a Go error, or a panic. Recursion depth is bounded by fuel: `decode f` calls `decode (f-1)`.
`Unmarshal`/`Decode` supply more fuel than bytes; `decode_fuel` (Verif/Proofs/Sane.lean) proves that
this never runs out and that the amount of fuel does not change the result.
-/

namespace Bolt

/-- The runtime panics reachable in the decoder. -/
inductive Panic where
  /-- slice bounds out of range in `bytes.Buffer.Next` with a negative count -/
  | negNext
  /-- `makeslice: len out of range` -/
  | negMake
  /-- failed type assertion without `, ok` -/
  | typeAssert
  /-- nil pointer dereference -/
  | nilDeref
  /-- index out of range -/
  | index
deriving DecidableEq, Repr

/-- How a decoder computation can fail. -/
inductive Fault where
  | err (e : GoErr)
  | panic (p : Panic)
  /-- recursion bound hit; shown unreachable -/
  | fuel

/-- A computation consuming a `*bytes.Buffer`. -/
abbrev Dec (α : Type) := Bytes → Except Fault (α × Bytes)

namespace Dec

/-- `return a, nil` -/
def pure (a : α) : Dec α := fun b => .ok (a, b)

/-- `a, err := x; if err != nil { return err }; f a` -/
def bind (x : Dec α) (f : α → Dec β) : Dec β := fun b =>
  match x b with
  | .ok (a, b') => f a b'
  | .error e => .error e

/-- `return nil, err` -/
def throw (e : GoErr) : Dec α := fun _ => .error (.err e)

/-- `panic` -/
def panic (p : Panic) : Dec α := fun _ => .error (.panic p)

instance : Monad Dec where
  pure := Dec.pure
  bind := Dec.bind

end Dec

/-- `buffer.ReadByte()` with the error wrapped (decoder.go:103-106, 286-289). -/
def readByte (msg : String) : Dec UInt8 := fun b =>
  match b with
  | [] => .error (.err (.wrap msg (some .eof)))
  | x :: b' => .ok (x, b')

/-- `binary.Read(buffer, binary.BigEndian, &out)` for a `w`-byte `out`: `io.ReadFull`. -/
def readRaw (w : Nat) : Dec Bytes := fun b =>
  if b.length ≥ w then .ok (b.take w, b.drop w)
  else if b = [] then .error (.err .eof)
  else .error (.err .unexpectedEOF)

/-- Reading a signed integer value (decoder.go:131-146). -/
def readInt (w : Nat) : Dec Val := do
  let bs ← readRaw w
  Dec.pure (.int .int64 (signedOf w bs))

/-- Reading a size, a signed integer; errors wrapped (decoder.go:162-165 and the like). -/
def readSize (w : Nat) (msg : String) : Dec Int := fun b =>
  match readRaw w b with
  | .ok (bs, b') => .ok (signedOf w bs, b')
  | .error (.err e) => .error (.err (.wrap msg (some e)))
  | .error f => .error f

/-- `string(buffer.Next(n))`: panics for negative `n`, silently returns fewer bytes at the end. -/
def next (n : Int) : Dec Val := fun b =>
  if n < 0 then .error (.panic .negNext)
  else .ok (.str (b.take n.toNat), b.drop n.toNat)

/-- The loop of decodeSlice (decoder.go:251-257). -/
def decodeItems (dec : Dec Val) : Nat → Dec (List Val)
  | 0 => Dec.pure []
  | n + 1 => do
    let x ← dec
    let xs ← decodeItems dec n
    Dec.pure (x :: xs)

/-- decodeSlice (decoder.go:249-260): `make` panics for a negative size. Allocation failure for huge
sizes is not modelled. -/
def decodeSlice (dec : Dec Val) (size : Int) : Dec Val :=
  if size < 0 then Dec.panic .negMake
  else do
    let xs ← decodeItems dec size.toNat
    Dec.pure (.list xs)

/-- `mapp[key] = val`: replaces an existing entry. The position in the list stands for Go's
unspecified iteration order. -/
def mapInsert : KVs → Str → Val → KVs
  | [], k, v => [(k, v)]
  | (k', v') :: rest, k, v => if k' = k then (k, v) :: rest else (k', v') :: mapInsert rest k v

/-- `keyInt.(string)` (decoder.go:274-277) -/
def asKey : Val → Dec Str
  | .str s => Dec.pure s
  | _ => Dec.throw (.new "Unexpected key type: %T with value %+v")

/-- The loop of decodeMap (decoder.go:264-279). -/
def decodeEntries (dec : Dec Val) : Nat → KVs → Dec KVs
  | 0, m => Dec.pure m
  | n + 1, m => do
    let keyInt ← dec
    let val ← dec
    let key ← asKey keyInt
    decodeEntries dec n (mapInsert m key val)

/-- decodeMap (decoder.go:262-282). `make(map, size)` with a negative size makes an empty map in
current Go (the hint is only a hint for a non-constant size; Go before 1.10 panicked), and the loop
then does not run. -/
def decodeMap (dec : Dec Val) (size : Int) : Dec Val := do
  let m ← decodeEntries dec size.toNat []
  Dec.pure (.map m)

/-- `x.(int64)` without `, ok`: decoder.go:328,363,369,375,448. -/
def assertInt64 : Val → Dec Int
  | .int .int64 v => Dec.pure v
  | _ => Dec.panic .typeAssert

/-- `x.([]interface{})` with error. -/
def asList (msg : String) : Val → Dec (List Val)
  | .list xs => Dec.pure xs
  | _ => Dec.throw (.new msg)

/-- `x.(map[string]interface{})` with error. -/
def asMap (msg : String) : Val → Dec KVs
  | .map m => Dec.pure m
  | _ => Dec.throw (.new msg)

/-- `x.(string)` with error. -/
def asStr (msg : String) : Val → Dec Str
  | .str s => Dec.pure s
  | _ => Dec.throw (.new msg)

/-- sliceInterfaceToString (encoding/util.go:8-18) -/
def sliceToString : List Val → Dec (List Str)
  | [] => Dec.pure []
  | .str s :: rest => do
    let ss ← sliceToString rest
    Dec.pure (s :: ss)
  | _ :: _ => Dec.throw (.new "Expected string value. Got %T %+v")

/-- sliceInterfaceToInt (encoding/util.go:20-26): `int(item.(int64))`, panics on another type. -/
def sliceToInt : List Val → Dec (List Int)
  | [] => Dec.pure []
  | .int .int64 v :: rest => do
    let vs ← sliceToInt rest
    Dec.pure (v :: vs)
  | _ :: _ => Dec.panic .typeAssert

/-- sliceInterfaceToNode (encoding/util.go:28-38) -/
def sliceToNode : List Val → Dec (List Val)
  | [] => Dec.pure []
  | .node id ls ps :: rest => do
    let ns ← sliceToNode rest
    Dec.pure (.node id ls ps :: ns)
  | _ :: _ => Dec.throw (.new "Expected Node value. Got %T %+v")

/-- sliceInterfaceToUnboundRelationship (encoding/util.go:52-62) -/
def sliceToUnbound : List Val → Dec (List Val)
  | [] => Dec.pure []
  | .unbound id t ps :: rest => do
    let rs ← sliceToUnbound rest
    Dec.pure (.unbound id t ps :: rs)
  | _ :: _ => Dec.throw (.new "Expected UnboundRelationship value. Got %T %+v")

/-- `"Expected: Properties map[string]interface{}, but got %T %+v"` -/
def propsMsg : String := "Expected: Properties map[string]interface{}, but got %T %+v"
/-- `"Expected: Metadata map[string]interface{}, but got %T %+v"` -/
def mdMsg : String := "Expected: Metadata map[string]interface{}, but got %T %+v"
/-- `"Expected: Type string, but got %T %+v"` -/
def typeMsg : String := "Expected: Type string, but got %T %+v"

/-- decodeNode (decoder.go:321-354) -/
def decodeNode (dec : Dec Val) : Dec Val := do
  let idInt ← dec
  let id ← assertInt64 idInt
  let labelInt ← dec
  let labelSlice ← asList "Expected: Labels []string, but got %T %+v" labelInt
  let labels ← sliceToString labelSlice
  let propsInt ← dec
  let props ← asMap propsMsg propsInt
  Dec.pure (.node id labels props)

/-- decodeRelationship (decoder.go:356-397) -/
def decodeRelationship (dec : Dec Val) : Dec Val := do
  let idInt ← dec
  let id ← assertInt64 idInt
  let sInt ← dec
  let s ← assertInt64 sInt
  let eInt ← dec
  let e ← assertInt64 eInt
  let typeInt ← dec
  let type ← asStr typeMsg typeInt
  let propsInt ← dec
  let props ← asMap propsMsg propsInt
  Dec.pure (.rel id s e type props)

/-- decodePath (decoder.go:399-439) -/
def decodePath (dec : Dec Val) : Dec Val := do
  let nodesInt ← dec
  let nodesSlice ← asList "Expected: Nodes []Node, but got %T %+v" nodesInt
  let nodes ← sliceToNode nodesSlice
  let relsInt ← dec
  let relsSlice ← asList "Expected: Relationships []Relationship, but got %T %+v" relsInt
  let rels ← sliceToUnbound relsSlice
  let seqInt ← dec
  let seqSlice ← asList "Expected: Sequence []int, but got %T %+v" seqInt
  let seq ← sliceToInt seqSlice
  Dec.pure (.path nodes rels seq)

/-- decodeUnboundRelationship (decoder.go:441-470) -/
def decodeUnbound (dec : Dec Val) : Dec Val := do
  let idInt ← dec
  let id ← assertInt64 idInt
  let typeInt ← dec
  let type ← asStr typeMsg typeInt
  let propsInt ← dec
  let props ← asMap propsMsg propsInt
  Dec.pure (.unbound id type props)

/-- decodeRecordMessage (decoder.go:472-483) -/
def decodeRecord (dec : Dec Val) : Dec Val := do
  let fieldsInt ← dec
  let fields ← asList "Expected: Fields []interface{}, but got %T %+v" fieldsInt
  Dec.pure (.record fields)

/-- decodeFailureMessage (decoder.go:485-496) -/
def decodeFailure (dec : Dec Val) : Dec Val := do
  let mdInt ← dec
  let md ← asMap mdMsg mdInt
  Dec.pure (.failure md)

/-- decodeSuccessMessage (decoder.go:502-513) -/
def decodeSuccess (dec : Dec Val) : Dec Val := do
  let mdInt ← dec
  let md ← asMap mdMsg mdInt
  Dec.pure (.success md)

/-- The switch on the signature byte (decoder.go:291-318). -/
def decodeSig (dec : Dec Val) (sig : UInt8) : Dec Val :=
  if sig = NodeSignature then decodeNode dec
  else if sig = RelationshipSignature then decodeRelationship dec
  else if sig = PathSignature then decodePath dec
  else if sig = UnboundRelationshipSignature then decodeUnbound dec
  else if sig = RecordMessageSignature then decodeRecord dec
  else if sig = FailureMessageSignature then decodeFailure dec
  else if sig = IgnoredMessageSignature then Dec.pure .ignored
  else if sig = SuccessMessageSignature then decodeSuccess dec
  else if sig = AckFailureMessageSignature then Dec.pure .ackFailure
  else if sig = DiscardAllMessageSignature then Dec.pure .discardAll
  else if sig = PullAllMessageSignature then Dec.pure .pullAll
  else if sig = ResetMessageSignature then Dec.pure .reset
  else Dec.throw (.new "Unrecognized type decoding struct with signature %x")

/-- decodeStruct (decoder.go:284-319). The declared size is not used. -/
def decodeStruct (dec : Dec Val) (_size : Int) : Dec Val := do
  let sig ← readByte "An error occurred reading struct signature byte"
  decodeSig dec sig

/-- The switch of `decode` on the marker (decoder.go:116-245). -/
def decodeMarker (dec : Dec Val) (marker : UInt8) : Dec Val :=
  if marker = NilMarker then Dec.pure .nil
  else if marker = TrueMarker then Dec.pure (.bool true)
  else if marker = FalseMarker then Dec.pure (.bool false)
  else if wrapSigned 1 marker.toNat ≥ -16 ∧ wrapSigned 1 marker.toNat ≤ 127 then
    Dec.pure (.int .int64 (wrapSigned 1 marker.toNat))
  else if marker = Int8Marker then readInt 1
  else if marker = Int16Marker then readInt 2
  else if marker = Int32Marker then readInt 4
  else if marker = Int64Marker then readInt 8
  else if marker = FloatMarker then do
    let bs ← readRaw 8
    Dec.pure (.float64 (UInt64.ofNat (beNat bs)))
  else if marker ≥ TinyStringMarker ∧ marker ≤ TinyStringMarker + 0x0F then
    let size := marker.toNat - TinyStringMarker.toNat
    if size = 0 then Dec.pure (.str [])
    else next size
  else if marker = String8Marker then do
    let size ← readSize 1 "An error occurred reading string size"
    next size
  else if marker = String16Marker then do
    let size ← readSize 2 "An error occurred reading string size"
    next size
  else if marker = String32Marker then do
    let size ← readSize 4 "An error occurred reading string size"
    next size
  else if marker ≥ TinySliceMarker ∧ marker ≤ TinySliceMarker + 0x0F then
    decodeSlice dec (marker.toNat - TinySliceMarker.toNat : Nat)
  else if marker = Slice8Marker then do
    let size ← readSize 1 "An error occurred reading slice size"
    decodeSlice dec size
  else if marker = Slice16Marker then do
    let size ← readSize 2 "An error occurred reading slice size"
    decodeSlice dec size
  else if marker = Slice32Marker then do
    let size ← readSize 4 "An error occurred reading slice size"
    decodeSlice dec size
  else if marker ≥ TinyMapMarker ∧ marker ≤ TinyMapMarker + 0x0F then
    decodeMap dec (marker.toNat - TinyMapMarker.toNat : Nat)
  else if marker = Map8Marker then do
    let size ← readSize 1 "An error occurred reading map size"
    decodeMap dec size
  else if marker = Map16Marker then do
    let size ← readSize 2 "An error occurred reading map size"
    decodeMap dec size
  else if marker = Map32Marker then do
    let size ← readSize 4 "An error occurred reading map size"
    decodeMap dec size
  else if marker ≥ TinyStructMarker ∧ marker ≤ TinyStructMarker + 0x0F then
    decodeStruct dec (marker.toNat - TinyStructMarker.toNat : Nat)
  else if marker = Struct8Marker then do
    let size ← readSize 1 "An error occurred reading struct size"
    decodeStruct dec size
  else if marker = Struct16Marker then do
    let size ← readSize 2 "An error occurred reading struct size"
    decodeStruct dec size
  else Dec.throw (.new "Unrecognized marker byte!: %x")

/-- `decode` (decoder.go:101-247) with fuel. -/
def decode : Nat → Dec Val
  | 0 => fun _ => .error .fuel
  | f + 1 => do
    let marker ← readByte "Error reading marker"
    decodeMarker (decode f) marker

/-- `d.decode(data)` with enough fuel for the buffer. -/
def decodePayload : Dec Val := fun b => decode (b.length + 1) b

/-! ## Reading the stream -/

/-- An `io.Reader`: each `Read` returns (a prefix of) the next segment, an empty segment being a read of
zero bytes without error; after the last segment every `Read` returns `err`. Readers that return data
and an error from the same call are not modelled (`net.Conn` and `bytes.Buffer` do not). -/
structure Source where
  segs : List Bytes
  err : GoErr

/-- `r.Read(make([]byte, n))` for `n > 0`. -/
def Source.read (r : Source) (n : Nat) : Source × Bytes × Option GoErr :=
  match r.segs with
  | [] => (r, [], some r.err)
  | s :: rest =>
    if s.length ≤ n then ({ r with segs := rest }, s, none)
    else ({ r with segs := s.drop n :: rest }, s.take n, none)

/-- Result of reading from the stream. -/
inductive ReadRes (α : Type) where
  | ok (a : α) (r : Source)
  | err (e : GoErr) (r : Source)

/-- The error of `io.ReadFull` (io.ReadAtLeast) after reading `acc`: `io.EOF` when nothing was read,
`io.ErrUnexpectedEOF` when `io.EOF` arrives early, other errors as they are. -/
def readFullErr (err : GoErr) (acc : Bytes) : GoErr :=
  match err with
  | .eof => if acc = [] then .eof else .unexpectedEOF
  | e => e

/-- `io.ReadFull(d.r, buf)` for `len(buf) = n` (decoder.go:44), by recursion on the segments; empty
reads are retried. -/
def readFull (err : GoErr) : List Bytes → Nat → Bytes → ReadRes Bytes
  | segs, 0, acc => .ok acc { segs := segs, err := err }
  | [], _ + 1, acc =>
    .err (readFullErr err acc) { segs := [], err := err }
  | s :: rest, n + 1, acc =>
    if s.length ≤ n + 1 then readFull err rest (n + 1 - s.length) (acc ++ s)
    else .ok (acc ++ s.take (n + 1)) { segs := s.drop (n + 1) :: rest, err := err }

/-- `readData` (decoder.go:69-89), by recursion on the segments: a read of zero bytes is an error. -/
def readData (err : GoErr) : List Bytes → Nat → Bytes → ReadRes Bytes
  | segs, 0, acc => .ok acc { segs := segs, err := err }
  | [], _ + 1, _ =>
    .err (.wrap "An error occurred reading from stream" (some err)) { segs := [], err := err }
  | s :: rest, n + 1, acc =>
    if s = [] then
      .err (.wrap "Couldn't read expected bytes for message. Read: %d Expected: %d." none)
        { segs := rest, err := err }
    else if s.length ≤ n + 1 then readData err rest (n + 1 - s.length) (acc ++ s)
    else .ok (acc ++ s.take (n + 1)) { segs := s.drop (n + 1) :: rest, err := err }

/-- Bytes left in the stream: the measure that bounds the loop of `read`. -/
def Source.size (r : Source) : Nat := r.segs.flatten.length

/-- `Decoder.read` (decoder.go:40-67), with fuel for the `for` loop; every iteration that continues
consumes at least three bytes, `readMsg_fuel` (Verif/Proofs/Stream.lean) proves the bound suffices. -/
def readMsgLoop : Nat → Source → Bytes → ReadRes Bytes
  | 0, r, _ => .err (.new "unreachable") r
  | f + 1, r, out =>
    match readFull r.err r.segs 2 [] with
    | .err e r =>
      .err (.wrap "Couldn't read expected bytes for message length. Read: %d Expected: 2." (some e)) r
    | .ok lengthBytes r =>
      let messageLen := beNat lengthBytes
      if messageLen = 0 then .ok out r
      else
        match readData r.err r.segs messageLen [] with
        | .err e r => .err (.wrap "An error occurred reading message data" (some e)) r
        | .ok data r => readMsgLoop f r (out ++ data)

/-- `d.read()` -/
def readMsg (r : Source) : ReadRes Bytes := readMsgLoop (r.size + 1) r []

/-- `NewDecoder(r).Decode()` (decoder.go:92-99): result and the reader afterwards. Bytes of the message
after the first value are ignored (decoder.go:98). -/
def decodeFrom (r : Source) : Except Fault Val × Source :=
  match readMsg r with
  | .err e r => (.error (.err e), r)
  | .ok data r =>
    match decodePayload data with
    | .ok (v, _) => (.ok v, r)
    | .error f => (.error f, r)

/-- `Unmarshal` (decoder.go:35-37): a `bytes.Buffer` returns everything it holds, then `io.EOF`; an
empty one returns `io.EOF` at once. -/
def unmarshal (b : Bytes) : Except Fault Val :=
  (decodeFrom { segs := if b = [] then [] else [b], err := .eof }).1

end Bolt
