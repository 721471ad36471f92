import Verif.Model.Decoder

/-!
# Memory allocated by the decoder

The decoder of `Verif/Model/Decoder.lean` once more, function by function, counting the elements of every slice and map it
makes: `make([]interface{}, size)` (encoding/decoder.go:250), `make(map[string]interface{}, size)` (decoder.go:263) and the
slices made by encoding/util.go. An element is 16 bytes (interface) or 24 to 32 bytes (map entry); the memory is
allocated and cleared when `make` is called, before anything is read. Not counted are strings, which are copies of bytes
received, and structures of fixed size. That there is not enough memory for a slice, which ends the process, is not a
result here: the count says how much is asked for. `c84_same` (Verif/Props/Memory.lean) shows that the results are
those of the other model.
-/

namespace Bolt

/-- A computation on the message buffer that counts the elements it allocates. -/
abbrev Mem (α : Type) := Bytes → Nat × Except Fault (α × Bytes)

namespace Mem

/-- `return a, nil` -/
def pure (a : α) : Mem α := fun b => (0, .ok (a, b))

/-- `a, err := x; if err != nil { return err }; f a` -/
def bind (x : Mem α) (f : α → Mem β) : Mem β := fun b =>
  match (x b).2 with
  | .ok (a, b') => ((x b).1 + (f a b').1, (f a b').2)
  | .error e => ((x b).1, .error e)

/-- A computation that allocates nothing. -/
def lift (x : Dec α) : Mem α := fun b => (0, x b)

/-- `make` for `n` elements. -/
def alloc (n : Nat) : Mem Unit := fun b => (n, .ok ((), b))

instance : Monad Mem where
  pure := Mem.pure
  bind := Mem.bind

end Mem

/-- The loop of decodeSlice (decoder.go:251-257). -/
def itemsM (dec : Mem Val) : Nat → Mem (List Val)
  | 0 => Mem.pure []
  | n + 1 => do
    let x ← dec
    let xs ← itemsM dec n
    Mem.pure (x :: xs)

/-- decodeSlice (decoder.go:249-260): `make([]interface{}, size)` comes first. -/
def sliceM (dec : Mem Val) (size : Int) : Mem Val :=
  if size < 0 then Mem.lift (Dec.panic .negMake)
  else do
    Mem.alloc size.toNat
    let xs ← itemsM dec size.toNat
    Mem.pure (.list xs)

/-- The loop of decodeMap (decoder.go:264-279). -/
def entriesM (dec : Mem Val) : Nat → KVs → Mem KVs
  | 0, m => Mem.pure m
  | n + 1, m => do
    let keyInt ← dec
    let val ← dec
    let key ← Mem.lift (asKey keyInt)
    entriesM dec n (mapInsert m key val)

/-- decodeMap (decoder.go:262-282): `make(map[string]interface{}, size)` comes first and makes room for `size` entries. -/
def mapM (dec : Mem Val) (size : Int) : Mem Val := do
  Mem.alloc size.toNat
  let m ← entriesM dec size.toNat []
  Mem.pure (.map m)

/-- decodeNode (decoder.go:321-354); sliceInterfaceToString makes a slice (util.go:9). -/
def nodeM (dec : Mem Val) : Mem Val := do
  let idInt ← dec
  let id ← Mem.lift (assertInt64 idInt)
  let labelInt ← dec
  let labelSlice ← Mem.lift (asList "Expected: Labels []string, but got %T %+v" labelInt)
  Mem.alloc labelSlice.length
  let labels ← Mem.lift (sliceToString labelSlice)
  let propsInt ← dec
  let props ← Mem.lift (asMap propsMsg propsInt)
  Mem.pure (.node id labels props)

/-- decodeRelationship (decoder.go:356-397) -/
def relationshipM (dec : Mem Val) : Mem Val := do
  let idInt ← dec
  let id ← Mem.lift (assertInt64 idInt)
  let sInt ← dec
  let s ← Mem.lift (assertInt64 sInt)
  let eInt ← dec
  let e ← Mem.lift (assertInt64 eInt)
  let typeInt ← dec
  let type ← Mem.lift (asStr typeMsg typeInt)
  let propsInt ← dec
  let props ← Mem.lift (asMap propsMsg propsInt)
  Mem.pure (.rel id s e type props)

/-- decodePath (decoder.go:399-439); the three conversions make a slice each (util.go:21, 29, 53). -/
def pathM (dec : Mem Val) : Mem Val := do
  let nodesInt ← dec
  let nodesSlice ← Mem.lift (asList "Expected: Nodes []Node, but got %T %+v" nodesInt)
  Mem.alloc nodesSlice.length
  let nodes ← Mem.lift (sliceToNode nodesSlice)
  let relsInt ← dec
  let relsSlice ← Mem.lift (asList "Expected: Relationships []Relationship, but got %T %+v" relsInt)
  Mem.alloc relsSlice.length
  let rels ← Mem.lift (sliceToUnbound relsSlice)
  let seqInt ← dec
  let seqSlice ← Mem.lift (asList "Expected: Sequence []int, but got %T %+v" seqInt)
  Mem.alloc seqSlice.length
  let seq ← Mem.lift (sliceToInt seqSlice)
  Mem.pure (.path nodes rels seq)

/-- decodeUnboundRelationship (decoder.go:441-470) -/
def unboundM (dec : Mem Val) : Mem Val := do
  let idInt ← dec
  let id ← Mem.lift (assertInt64 idInt)
  let typeInt ← dec
  let type ← Mem.lift (asStr typeMsg typeInt)
  let propsInt ← dec
  let props ← Mem.lift (asMap propsMsg propsInt)
  Mem.pure (.unbound id type props)

/-- decodeRecordMessage (decoder.go:472-483) -/
def recordM (dec : Mem Val) : Mem Val := do
  let fieldsInt ← dec
  let fields ← Mem.lift (asList "Expected: Fields []interface{}, but got %T %+v" fieldsInt)
  Mem.pure (.record fields)

/-- decodeFailureMessage (decoder.go:485-496) -/
def failureM (dec : Mem Val) : Mem Val := do
  let mdInt ← dec
  let md ← Mem.lift (asMap mdMsg mdInt)
  Mem.pure (.failure md)

/-- decodeSuccessMessage (decoder.go:502-513) -/
def successM (dec : Mem Val) : Mem Val := do
  let mdInt ← dec
  let md ← Mem.lift (asMap mdMsg mdInt)
  Mem.pure (.success md)

/-- The switch on the signature byte (decoder.go:291-318); the cases without fields are those of the other model. -/
def sigM (dec : Mem Val) (sig : UInt8) : Mem Val :=
  if sig = NodeSignature then nodeM dec
  else if sig = RelationshipSignature then relationshipM dec
  else if sig = PathSignature then pathM dec
  else if sig = UnboundRelationshipSignature then unboundM dec
  else if sig = RecordMessageSignature then recordM dec
  else if sig = FailureMessageSignature then failureM dec
  else if sig = IgnoredMessageSignature then Mem.pure .ignored
  else if sig = SuccessMessageSignature then successM dec
  else if sig = AckFailureMessageSignature then Mem.pure .ackFailure
  else if sig = DiscardAllMessageSignature then Mem.pure .discardAll
  else if sig = PullAllMessageSignature then Mem.pure .pullAll
  else if sig = ResetMessageSignature then Mem.pure .reset
  else Mem.lift (Dec.throw (.new "Unrecognized type decoding struct with signature %x"))

/-- decodeStruct (decoder.go:284-319) -/
def structM (dec : Mem Val) (_size : Int) : Mem Val := do
  let sig ← Mem.lift (readByte "An error occurred reading struct signature byte")
  sigM dec sig

/-- The switch of `decode` on the marker (decoder.go:116-245). -/
def markerM (dec : Mem Val) (marker : UInt8) : Mem Val :=
  if marker = NilMarker then Mem.pure .nil
  else if marker = TrueMarker then Mem.pure (.bool true)
  else if marker = FalseMarker then Mem.pure (.bool false)
  else if wrapSigned 1 marker.toNat ≥ -16 ∧ wrapSigned 1 marker.toNat ≤ 127 then
    Mem.pure (.int .int64 (wrapSigned 1 marker.toNat))
  else if marker = Int8Marker then Mem.lift (readInt 1)
  else if marker = Int16Marker then Mem.lift (readInt 2)
  else if marker = Int32Marker then Mem.lift (readInt 4)
  else if marker = Int64Marker then Mem.lift (readInt 8)
  else if marker = FloatMarker then do
    let bs ← Mem.lift (readRaw 8)
    Mem.pure (.float64 (UInt64.ofNat (beNat bs)))
  else if marker ≥ TinyStringMarker ∧ marker ≤ TinyStringMarker + 0x0F then
    if marker.toNat - TinyStringMarker.toNat = 0 then Mem.pure (.str [])
    else Mem.lift (next (marker.toNat - TinyStringMarker.toNat : Nat))
  else if marker = String8Marker then do
    let size ← Mem.lift (readSize 1 "An error occurred reading string size")
    Mem.lift (next size)
  else if marker = String16Marker then do
    let size ← Mem.lift (readSize 2 "An error occurred reading string size")
    Mem.lift (next size)
  else if marker = String32Marker then do
    let size ← Mem.lift (readSize 4 "An error occurred reading string size")
    Mem.lift (next size)
  else if marker ≥ TinySliceMarker ∧ marker ≤ TinySliceMarker + 0x0F then
    sliceM dec (marker.toNat - TinySliceMarker.toNat : Nat)
  else if marker = Slice8Marker then do
    let size ← Mem.lift (readSize 1 "An error occurred reading slice size")
    sliceM dec size
  else if marker = Slice16Marker then do
    let size ← Mem.lift (readSize 2 "An error occurred reading slice size")
    sliceM dec size
  else if marker = Slice32Marker then do
    let size ← Mem.lift (readSize 4 "An error occurred reading slice size")
    sliceM dec size
  else if marker ≥ TinyMapMarker ∧ marker ≤ TinyMapMarker + 0x0F then
    mapM dec (marker.toNat - TinyMapMarker.toNat : Nat)
  else if marker = Map8Marker then do
    let size ← Mem.lift (readSize 1 "An error occurred reading map size")
    mapM dec size
  else if marker = Map16Marker then do
    let size ← Mem.lift (readSize 2 "An error occurred reading map size")
    mapM dec size
  else if marker = Map32Marker then do
    let size ← Mem.lift (readSize 4 "An error occurred reading map size")
    mapM dec size
  else if marker ≥ TinyStructMarker ∧ marker ≤ TinyStructMarker + 0x0F then
    structM dec (marker.toNat - TinyStructMarker.toNat : Nat)
  else if marker = Struct8Marker then do
    let size ← Mem.lift (readSize 1 "An error occurred reading struct size")
    structM dec size
  else if marker = Struct16Marker then do
    let size ← Mem.lift (readSize 2 "An error occurred reading struct size")
    structM dec size
  else Mem.lift (Dec.throw (.new "Unrecognized marker byte!: %x"))

/-- `decode` (decoder.go:101-247) with fuel. -/
def decodeM : Nat → Mem Val
  | 0 => fun _ => (0, .error .fuel)
  | f + 1 => do
    let marker ← Mem.lift (readByte "Error reading marker")
    markerM (decodeM f) marker

/-- The elements allocated by `d.decode(data)`. -/
def allocated (b : Bytes) : Nat := (decodeM (b.length + 1) b).1

end Bolt
