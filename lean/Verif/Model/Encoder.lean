import Verif.Model.Value

/-!
# encoding/encoder.go

`encOps v` is the list of `Encoder.Write` calls that `Encoder.encode(v)` makes, in order, together with
the error it stops with. The calls do not depend on the writer: every call site aborts as soon as a
`Write` fails, so running the list until the first failure is the behaviour of the Go code.
`Encoder.Write`, `flush` and `Encode` follow as functions on (buffer, stream).

Simplification: when the stream fails, the Go code adds wrapping layers to the error on its way up; the
model returns the error of the failing call.
-/

namespace Bolt

/-! ## Markers (encoding/encoder.go:15-69) -/

/-- encoder.go:17 -/
def NilMarker : UInt8 := 0xC0
/-- encoder.go:20 -/
def TrueMarker : UInt8 := 0xC3
/-- encoder.go:22 -/
def FalseMarker : UInt8 := 0xC2
/-- encoder.go:25 -/
def Int8Marker : UInt8 := 0xC8
/-- encoder.go:27 -/
def Int16Marker : UInt8 := 0xC9
/-- encoder.go:29 -/
def Int32Marker : UInt8 := 0xCA
/-- encoder.go:31 -/
def Int64Marker : UInt8 := 0xCB
/-- encoder.go:34 -/
def FloatMarker : UInt8 := 0xC1
/-- encoder.go:37 -/
def TinyStringMarker : UInt8 := 0x80
/-- encoder.go:39 -/
def String8Marker : UInt8 := 0xD0
/-- encoder.go:41 -/
def String16Marker : UInt8 := 0xD1
/-- encoder.go:43 -/
def String32Marker : UInt8 := 0xD2
/-- encoder.go:46 -/
def TinySliceMarker : UInt8 := 0x90
/-- encoder.go:48 -/
def Slice8Marker : UInt8 := 0xD4
/-- encoder.go:50 -/
def Slice16Marker : UInt8 := 0xD5
/-- encoder.go:52 -/
def Slice32Marker : UInt8 := 0xD6
/-- encoder.go:55 -/
def TinyMapMarker : UInt8 := 0xA0
/-- encoder.go:57 -/
def Map8Marker : UInt8 := 0xD8
/-- encoder.go:59 -/
def Map16Marker : UInt8 := 0xD9
/-- encoder.go:61 -/
def Map32Marker : UInt8 := 0xDA
/-- encoder.go:64 -/
def TinyStructMarker : UInt8 := 0xB0
/-- encoder.go:66 -/
def Struct8Marker : UInt8 := 0xDC
/-- encoder.go:68 -/
def Struct16Marker : UInt8 := 0xDD

/-- `EndMessage` (encoder.go:73) -/
def EndMessage : Bytes := [0x00, 0x00]

/-! ## Signatures (structures/graph/*.go:5, structures/messages/*.go:5) -/

/-- structures/graph/node.go:5 -/
def NodeSignature : UInt8 := 0x4E
/-- structures/graph/relationship.go:5 -/
def RelationshipSignature : UInt8 := 0x52
/-- structures/graph/path.go:5 -/
def PathSignature : UInt8 := 0x50
/-- structures/graph/unbound_relationship.go:5 -/
def UnboundRelationshipSignature : UInt8 := 0x72
/-- structures/messages/record.go:5 -/
def RecordMessageSignature : UInt8 := 0x71
/-- structures/messages/failure.go:7 -/
def FailureMessageSignature : UInt8 := 0x7F
/-- structures/messages/ignored.go:5 -/
def IgnoredMessageSignature : UInt8 := 0x7E
/-- structures/messages/success.go:5 -/
def SuccessMessageSignature : UInt8 := 0x70
/-- structures/messages/ack_failure.go:5 -/
def AckFailureMessageSignature : UInt8 := 0x0E
/-- structures/messages/discard_all.go:5 -/
def DiscardAllMessageSignature : UInt8 := 0x2F
/-- structures/messages/pull_all.go:5 -/
def PullAllMessageSignature : UInt8 := 0x3F
/-- structures/messages/reset.go:5 -/
def ResetMessageSignature : UInt8 := 0x0F
/-- structures/messages/init.go:5 -/
def InitMessageSignature : UInt8 := 0x01
/-- structures/messages/run.go:5 -/
def RunMessageSignature : UInt8 := 0x10

/-! ## Structures -/

/-- `Signature()` and `AllFields()` of the structures package
(structures/graph/node.go:16-27, relationship.go:18-25, unbound_relationship.go:16-23, path.go:16-35,
structures/messages/*.go). `none`: not a `Structure`. `Node.Labels` and `Path.Sequence` are copied
element by element into `[]interface{}`; `Path.Sequence` has element type `int`. -/
def allFields : Val → Option (Int × List Val)
  | .node id labels props =>
    some (NodeSignature.toNat, [.int .int64 id, .list (labels.map .str), .map props])
  | .rel id s e type props =>
    some (RelationshipSignature.toNat,
      [.int .int64 id, .int .int64 s, .int .int64 e, .str type, .map props])
  | .unbound id type props =>
    some (UnboundRelationshipSignature.toNat, [.int .int64 id, .str type, .map props])
  | .path nodes rels seq =>
    some (PathSignature.toNat, [.list nodes, .list rels, .list (seq.map (.int .int))])
  | .record fields => some (RecordMessageSignature.toNat, [.list fields])
  | .success md => some (SuccessMessageSignature.toNat, [.map md])
  | .failure md => some (FailureMessageSignature.toNat, [.map md])
  | .ignored => some (IgnoredMessageSignature.toNat, [])
  | .ackFailure => some (AckFailureMessageSignature.toNat, [])
  | .discardAll => some (DiscardAllMessageSignature.toNat, [])
  | .pullAll => some (PullAllMessageSignature.toNat, [])
  | .reset => some (ResetMessageSignature.toNat, [])
  | .init client auth => some (InitMessageSignature.toNat, [.str client, .map auth])
  | .run stmt params => some (RunMessageSignature.toNat, [.str stmt, .map params])
  | .userStruct sig fields => some (sig, fields)
  | _ => none

/-! ## Write lists -/

/-- The `Encoder.Write` calls of a piece of `encode`, and the error it returns. -/
structure Ops where
  writes : List Bytes
  err : Option GoErr

/-- One `e.Write(p)` (or `binary.Write(e, ...)`, which calls `e.Write` once). -/
def Ops.write (p : Bytes) : Ops := ⟨[p], none⟩

/-- `return errors.New(msg)` -/
def Ops.fail (e : GoErr) : Ops := ⟨[], some e⟩

/-- `return nil` -/
def Ops.done : Ops := ⟨[], none⟩

/-- `if err := a; err != nil { return err }; b` -/
def Ops.seq (a b : Ops) : Ops :=
  match a.err with
  | some e => ⟨a.writes, some e⟩
  | none => ⟨a.writes ++ b.writes, b.err⟩

/-- `if err := a; err != nil { return errors.Wrap(err, msg) }` (encoder.go:473-475) -/
def Ops.wrapErr (a : Ops) (msg : String) : Ops :=
  ⟨a.writes, a.err.map fun e => .wrap msg (some e)⟩

/-- encoder.go:227-230 -/
def encodeNil : Ops := .write [NilMarker]

/-- encoder.go:232-240 -/
def encodeBool (b : Bool) : Ops := if b then .write [TrueMarker] else .write [FalseMarker]

/-- encoder.go:242-297. The argument is an `int64`, so the ranges cover it and the `default` branch
(line 290) needs a value outside int64. -/
def encodeInt (v : Int) : Ops :=
  if -9223372036854775808 ≤ v ∧ v < -2147483648 then (Ops.write [Int64Marker]).seq (.write (beSigned 8 v))
  else if -2147483648 ≤ v ∧ v < -32768 then (Ops.write [Int32Marker]).seq (.write (beSigned 4 v))
  else if -32768 ≤ v ∧ v < -128 then (Ops.write [Int16Marker]).seq (.write (beSigned 2 v))
  else if -128 ≤ v ∧ v < -16 then (Ops.write [Int8Marker]).seq (.write (beSigned 1 v))
  else if -16 ≤ v ∧ v ≤ 127 then .write (beSigned 1 v)
  else if v > 127 ∧ v ≤ 32767 then (Ops.write [Int16Marker]).seq (.write (beSigned 2 v))
  else if v > 32767 ∧ v ≤ 2147483647 then (Ops.write [Int32Marker]).seq (.write (beSigned 4 v))
  else if v > 2147483647 ∧ v ≤ 9223372036854775807 then (Ops.write [Int64Marker]).seq (.write (beSigned 8 v))
  else .fail (.new "Int too long to write: %d")

/-- The integer cases of the type switch (encoder.go:175-197): convert to `int64`; only `uint64` is
range-checked. -/
def encodeIntKind (k : IntKind) (v : Int) : Ops :=
  match k with
  | .uint64 =>
    if v > 9223372036854775807 then .fail (.new "Integer too big: %d. Max integer supported: %d")
    else encodeInt (wrapSigned 8 v)
  | _ => encodeInt (wrapSigned 8 v)

/-- encoder.go:299-310 -/
def encodeFloat (bits : UInt64) : Ops := (Ops.write [FloatMarker]).seq (.write (be 8 bits.toNat))

/-- `float64(val)` for a `float32` (encoder.go:199), on bit patterns: IEEE 754 binary32 to binary64.
Exact for every number; a NaN stays a NaN with its payload shifted and the quiet bit set. `s`, `e`, `m`
are sign, exponent and mantissa fields. -/
def widenFields (s e m : Nat) : Nat :=
  if e = 255 then
    (if m = 0 then s * 2^63 + (2047 * 2^52 + 0) else s * 2^63 + (2047 * 2^52 + (m * 2^29 ||| 2^51)))
  else if e = 0 then
    (if m = 0 then s * 2^63 + (0 * 2^52 + 0)
     else -- subnormal: m * 2^-149 = (m * 2^(52-log2 m)) * 2^(log2 m - 52 - 149)
      s * 2^63 + ((Nat.log2 m + 1023 - 149) * 2^52 + (m * 2^(52 - Nat.log2 m) - 2^52)))
  else s * 2^63 + ((e + 896) * 2^52 + m * 2^29)

/-- See `widenFields`. -/
def widenBits (b : UInt32) : UInt64 :=
  UInt64.ofNat (widenFields (b.toNat / 2^31) (b.toNat / 2^23 % 2^8) (b.toNat % 2^23))

/-- encoder.go:312-351: the header is a marker write, and above 15 bytes a size write; then the
content, always as one write. `int8(length)` etc. are bit patterns. -/
def encodeString (s : Str) : Ops :=
  let n := s.length
  if n ≤ 15 then (Ops.write [UInt8.ofNat (TinyStringMarker.toNat + n)]).seq (.write s)
  else if n > 15 ∧ n ≤ 255 then
    ((Ops.write [String8Marker]).seq (.write (be 1 n))).seq (.write s)
  else if n > 255 ∧ n ≤ 65535 then
    ((Ops.write [String16Marker]).seq (.write (be 2 n))).seq (.write s)
  else if n > 65535 ∧ n ≤ 4294967295 then
    ((Ops.write [String32Marker]).seq (.write (be 4 n))).seq (.write s)
  else .fail (.new "String too long to write: %s")

/-- encoder.go:354-383: the header of a slice. -/
def sliceHeader (n : Nat) : Ops :=
  if n ≤ 15 then .write [UInt8.ofNat (TinySliceMarker.toNat + n)]
  else if n > 15 ∧ n ≤ 255 then (Ops.write [Slice8Marker]).seq (.write (be 1 n))
  else if n > 255 ∧ n ≤ 65535 then (Ops.write [Slice16Marker]).seq (.write (be 2 n))
  else if n ≥ 65535 ∧ n ≤ 4294967295 then (Ops.write [Slice32Marker]).seq (.write (be 4 n))
  else .fail (.new "Slice too long to write: %+v")

/-- encoder.go:396-425: the header of a map. -/
def mapHeader (n : Nat) : Ops :=
  if n ≤ 15 then .write [UInt8.ofNat (TinyMapMarker.toNat + n)]
  else if n > 15 ∧ n ≤ 255 then (Ops.write [Map8Marker]).seq (.write (be 1 n))
  else if n > 255 ∧ n ≤ 65535 then (Ops.write [Map16Marker]).seq (.write (be 2 n))
  else if n ≥ 65535 ∧ n ≤ 4294967295 then (Ops.write [Map32Marker]).seq (.write (be 4 n))
  else .fail (.new "Map too long to write: %+v")

/-- encoder.go:442-470: the header of a structure and its signature byte `byte(val.Signature())`. -/
def structHeader (n : Nat) (sig : Int) : Ops :=
  (if n ≤ 15 then Ops.write [UInt8.ofNat (TinyStructMarker.toNat + n)]
   else if n > 15 ∧ n ≤ 255 then (Ops.write [Struct8Marker]).seq (.write (be 1 n))
   else if n > 255 ∧ n ≤ 65535 then (Ops.write [Struct16Marker]).seq (.write (be 2 n))
   else .fail (.new "Structure too long to write: %+v")).seq
  (.write (beSigned 1 sig))

/-- The message with which encodeStructure wraps a field's error (encoder.go:474). -/
def fieldErr : String := "An error occurred encoding a struct field"

/-- `for _, label := range labels { e.encode(label) }`: the elements of a list of strings or of
integers (`AllFields` of Node and Path), encoder.go:386-390. -/
def encodeEach (f : α → Ops) : List α → Ops
  | [] => .done
  | x :: xs => (f x).seq (encodeEach f xs)

mutual
/-- `Encoder.encode` (encoder.go:167-225) with `encodeSlice` (353-393), `encodeMap` (395-438) and
`encodeStructure` (440-479) inlined for the recursion checker. For structures the fields are those of
`allFields`, written out; `encOps_structure` (Verif/Proofs/Encode.lean) proves this is
`encodeStructure` applied to `allFields`. -/
def encOps : Val → Ops
  | .nil => encodeNil
  | .bool b => encodeBool b
  | .int k v => encodeIntKind k v
  | .float32 b => encodeFloat (widenBits b)
  | .float64 b => encodeFloat b
  | .str s => encodeString s
  | .list xs => (sliceHeader xs.length).seq (encList xs)
  | .map kvs => (mapHeader kvs.length).seq (encKVs kvs)
  | .typedSlice xs => (sliceHeader xs.length).seq (encList xs)
  | .other _ => .fail (.new "Unrecognized type when encoding data for Bolt transport: %T %+v")
  | .node id labels props =>
    (structHeader 3 NodeSignature.toNat).seq
    (((encodeIntKind .int64 id).wrapErr fieldErr).seq
    ((((sliceHeader labels.length).seq (encodeEach encodeString labels)).wrapErr fieldErr).seq
    (((mapHeader props.length).seq (encKVs props)).wrapErr fieldErr)))
  | .rel id s e type props =>
    (structHeader 5 RelationshipSignature.toNat).seq
    (((encodeIntKind .int64 id).wrapErr fieldErr).seq
    (((encodeIntKind .int64 s).wrapErr fieldErr).seq
    (((encodeIntKind .int64 e).wrapErr fieldErr).seq
    (((encodeString type).wrapErr fieldErr).seq
    (((mapHeader props.length).seq (encKVs props)).wrapErr fieldErr)))))
  | .unbound id type props =>
    (structHeader 3 UnboundRelationshipSignature.toNat).seq
    (((encodeIntKind .int64 id).wrapErr fieldErr).seq
    (((encodeString type).wrapErr fieldErr).seq
    (((mapHeader props.length).seq (encKVs props)).wrapErr fieldErr)))
  | .path nodes rels seq =>
    (structHeader 3 PathSignature.toNat).seq
    ((((sliceHeader nodes.length).seq (encList nodes)).wrapErr fieldErr).seq
    ((((sliceHeader rels.length).seq (encList rels)).wrapErr fieldErr).seq
    (((sliceHeader seq.length).seq (encodeEach (encodeIntKind .int) seq)).wrapErr fieldErr)))
  | .record fields =>
    (structHeader 1 RecordMessageSignature.toNat).seq
    (((sliceHeader fields.length).seq (encList fields)).wrapErr fieldErr)
  | .success md =>
    (structHeader 1 SuccessMessageSignature.toNat).seq
    (((mapHeader md.length).seq (encKVs md)).wrapErr fieldErr)
  | .failure md =>
    (structHeader 1 FailureMessageSignature.toNat).seq
    (((mapHeader md.length).seq (encKVs md)).wrapErr fieldErr)
  | .ignored => structHeader 0 IgnoredMessageSignature.toNat
  | .ackFailure => structHeader 0 AckFailureMessageSignature.toNat
  | .discardAll => structHeader 0 DiscardAllMessageSignature.toNat
  | .pullAll => structHeader 0 PullAllMessageSignature.toNat
  | .reset => structHeader 0 ResetMessageSignature.toNat
  | .init client auth =>
    (structHeader 2 InitMessageSignature.toNat).seq
    (((encodeString client).wrapErr fieldErr).seq
    (((mapHeader auth.length).seq (encKVs auth)).wrapErr fieldErr))
  | .run stmt params =>
    (structHeader 2 RunMessageSignature.toNat).seq
    (((encodeString stmt).wrapErr fieldErr).seq
    (((mapHeader params.length).seq (encKVs params)).wrapErr fieldErr))
  | .userStruct sig fields => (structHeader fields.length sig).seq (encFields fields)

/-- The element loop of encodeSlice (encoder.go:386-390). -/
def encList : List Val → Ops
  | [] => .done
  | x :: xs => (encOps x).seq (encList xs)

/-- The entry loop of encodeMap (encoder.go:428-435). -/
def encKVs : List (Str × Val) → Ops
  | [] => .done
  | (k, v) :: rest => (encodeString k).seq ((encOps v).seq (encKVs rest))

/-- The field loop of encodeStructure (encoder.go:472-476). -/
def encFields : List Val → Ops
  | [] => .done
  | x :: xs => ((encOps x).wrapErr fieldErr).seq (encFields xs)
end

/-! ## The chunking writer -/

/-- The stream under the encoder (`e.w`): what it has accepted, and after how many more bytes it fails
(`none`: never). A failing write accepts the bytes up to that point and returns an error, and so does
every later non-empty write. -/
structure Sink where
  out : Bytes
  budget : Option Nat

/-- `e.w.Write(p)`; `false` = returned an error. -/
def Sink.write (w : Sink) (p : Bytes) : Sink × Bool :=
  match w.budget with
  | none => ({ w with out := w.out ++ p }, true)
  | some k =>
    if p.length ≤ k then ({ out := w.out ++ p, budget := some (k - p.length) }, true)
    else ({ out := w.out ++ p.take k, budget := some 0 }, false)

/-- Encoder state: the temporary buffer `e.buf` and the stream `e.w` (encoder.go:84-88). -/
structure Enc where
  buf : Bytes
  w : Sink

/-- `Encoder.Write` (encoder.go:107-130) with chunk size `cs`. The `for` loop returns in its first
iteration, so at most one chunk is written per call. `false` = returned an error. -/
def Enc.write (cs : Nat) (e : Enc) (p : Bytes) : Enc × Bool :=
  let buf := e.buf ++ p
  if buf.length ≥ cs then
    match e.w.write (be 2 cs) with
    | (w, false) => ({ buf := buf, w := w }, false)
    | (w, true) =>
      match w.write (buf.take cs) with
      | (w, ok) => ({ buf := buf.drop cs, w := w }, ok)
  else ({ e with buf := buf }, true)

/-- Runs the `Write` calls of `encode` until one fails. -/
def Enc.run (cs : Nat) : Enc → List Bytes → Enc × Bool
  | e, [] => (e, true)
  | e, p :: ps =>
    match e.write cs p with
    | (e, true) => e.run cs ps
    | (e, false) => (e, false)

/-- `flush` (encoder.go:133-152): `uint16(length)` wraps. -/
def Enc.flush (e : Enc) : Enc × Bool :=
  let body : Sink × Bool :=
    if e.buf.length > 0 then
      match e.w.write (be 2 e.buf.length) with
      | (w, false) => (w, false)
      | (w, true) => w.write e.buf
    else (e.w, true)
  match body with
  | (w, false) => ({ e with w := w }, false)
  | (w, true) =>
    match w.write EndMessage with
    | (w, true) => ({ buf := [], w := w }, true)
    | (w, false) => ({ e with w := w }, false)

/-- The error returned when the stream fails (wrapping layers not reproduced). -/
def streamErr : GoErr := .wrap "stream" (some .badConn)

/-- `NewEncoder(w, cs).Encode(v)` (encoder.go:91-97, 155-164). -/
def encodeTo (cs : Nat) (w : Sink) (v : Val) : Sink × Option GoErr :=
  let ops := encOps v
  match ({ buf := [], w := w } : Enc).run cs ops.writes with
  | (e, false) => (e.w, some streamErr)
  | (e, true) =>
    match ops.err with
    | some err => (e.w, some err)
    | none =>
      match e.flush with
      | (e, true) => (e.w, none)
      | (e, false) => (e.w, some streamErr)

/-- `Marshal` (encoder.go:100-104): a `bytes.Buffer` never fails; chunk size `math.MaxUint16`. -/
def marshal (v : Val) : Bytes × Option GoErr :=
  let r := encodeTo 65535 { out := [], budget := none } v
  (r.1.out, r.2)

/-- The message payload: the concatenation of all writes of `encode`. Not a Go function; used to state
properties. -/
def payload (v : Val) : Bytes := (encOps v).writes.flatten

end Bolt
