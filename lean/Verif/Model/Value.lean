import Verif.Model.Basic

/-!
# Go values the driver encodes and decodes

`Val` distinguishes exactly the dynamic types that the type switches in `encoding/encoder.go:170-222`,
`encoding/decoder.go:291-318` and the callers distinguish.

Simplifications:
* `int`, `uint` are 64 bits wide (64-bit platforms).
* a Go map is the list of its entries in the order the `range` loop visits them (encoder.go:428); Go
  leaves this order unspecified, so theorems quantify over every list with distinct keys.
* a nil map/slice behaves like an empty one in every modelled function and is not distinguished.
* `path` keeps its nodes and relationships as `Val`s; `Val.Typed` says they have the Go element types.
-/

namespace Bolt

/-- The ten Go integer types of the type switch in encoding/encoder.go:175-197. -/
inductive IntKind
  | int | int8 | int16 | int32 | int64 | uint | uint8 | uint16 | uint32 | uint64
deriving DecidableEq, Repr

/-- Values of an integer type (Go language specification, "Numeric types"; `int`/`uint` 64-bit). -/
def IntKind.InRange : IntKind → Int → Prop
  | .int, v | .int64, v => -2^63 ≤ v ∧ v < 2^63
  | .int8, v => -2^7 ≤ v ∧ v < 2^7
  | .int16, v => -2^15 ≤ v ∧ v < 2^15
  | .int32, v => -2^31 ≤ v ∧ v < 2^31
  | .uint, v | .uint64, v => 0 ≤ v ∧ v < 2^64
  | .uint8, v => 0 ≤ v ∧ v < 2^8
  | .uint16, v => 0 ≤ v ∧ v < 2^16
  | .uint32, v => 0 ≤ v ∧ v < 2^32

/-- A Go `interface{}` value as seen by the encoder and decoder. -/
inductive Val where
  /-- `nil` -/
  | nil
  | bool (b : Bool)
  /-- an integer of one of the ten integer types -/
  | int (k : IntKind) (v : Int)
  /-- a `float32`, as its IEEE 754 bit pattern -/
  | float32 (bits : UInt32)
  /-- a `float64`, as its IEEE 754 bit pattern -/
  | float64 (bits : UInt64)
  | str (s : Str)
  /-- `[]interface{}` -/
  | list (xs : List Val)
  /-- `map[string]interface{}`, entries in iteration order -/
  | map (kvs : List (Str × Val))
  /-- `graph.Node` (structures/graph/node.go:9-13) -/
  | node (id : Int) (labels : List Str) (props : List (Str × Val))
  /-- `graph.Relationship` (structures/graph/relationship.go:9-15) -/
  | rel (id startId endId : Int) (type : Str) (props : List (Str × Val))
  /-- `graph.UnboundRelationship` (structures/graph/unbound_relationship.go:9-13) -/
  | unbound (id : Int) (type : Str) (props : List (Str × Val))
  /-- `graph.Path` (structures/graph/path.go:9-13) -/
  | path (nodes : List Val) (rels : List Val) (seq : List Int)
  /-- `messages.RecordMessage` (structures/messages/record.go:9-11) -/
  | record (fields : List Val)
  /-- `messages.SuccessMessage` (structures/messages/success.go:9-11) -/
  | success (md : List (Str × Val))
  /-- `messages.FailureMessage` (structures/messages/failure.go:11-13) -/
  | failure (md : List (Str × Val))
  /-- `messages.IgnoredMessage` (structures/messages/ignored.go:9) -/
  | ignored
  /-- `messages.AckFailureMessage` (structures/messages/ack_failure.go:9) -/
  | ackFailure
  /-- `messages.DiscardAllMessage` (structures/messages/discard_all.go:9) -/
  | discardAll
  /-- `messages.PullAllMessage` (structures/messages/pull_all.go:9) -/
  | pullAll
  /-- `messages.ResetMessage` (structures/messages/reset.go:9) -/
  | reset
  /-- `messages.InitMessage` (structures/messages/init.go:9-12) -/
  | init (clientName : Str) (authToken : List (Str × Val))
  /-- `messages.RunMessage` (structures/messages/run.go:9-12) -/
  | run (statement : Str) (parameters : List (Str × Val))
  /-- any other implementation of `structures.Structure` (structures/structures.go:4-7), given by the
  values its two methods return -/
  | userStruct (sig : Int) (fields : List Val)
  /-- a slice of any other element type, e.g. `[]string`, `[]int`, `[]byte`, by its elements
  (`reflect.Value.Index(i).Interface()`, encoding/encoder.go:212-218) -/
  | typedSlice (xs : List Val)
  /-- a value of any other type: the encoder rejects it (encoding/encoder.go:221) -/
  | other (tag : Nat)

/-- A parameter or metadata map. -/
abbrev KVs := List (Str × Val)

/-- Go errors as the driver builds them. Messages are the format strings without their arguments;
stack traces are not modelled. -/
inductive GoErr where
  /-- `errors.New(msg)` (errors/errors.go:18-24) -/
  | new (msg : String)
  /-- `errors.Wrap(err, msg)` (errors/errors.go:27-40); `none` is a nil `err` -/
  | wrap (msg : String) (inner : Option GoErr)
  /-- `io.EOF` -/
  | eof
  /-- `io.ErrUnexpectedEOF` -/
  | unexpectedEOF
  /-- `driver.ErrBadConn` -/
  | badConn
  /-- any other foreign error (network, timeout, ...) -/
  | foreign (tag : Nat)
  /-- a `messages.FailureMessage` used as an error (structures/messages/failure.go:34-36) -/
  | failure (md : KVs)

end Bolt
