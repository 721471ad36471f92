import Verif.Model.Encoder
import Verif.Model.Decoder

/-!
# Encoders and Decoders used for more than one message

The driver makes a new Encoder and a new Decoder for every message. Both types are exported, and nothing in their
documentation says that they can be used only once.
-/

namespace Bolt

/-- `e.Encode(v)` (encoding/encoder.go:155-164) on an Encoder that may have been used before. `Encoder.buf` is a pointer,
so the buffer outlives the call; only `flush` empties it (encoder.go:149). -/
def Enc.encode (cs : Nat) (e : Enc) (v : Val) : Enc × Option GoErr :=
  let ops := encOps v
  match e.run cs ops.writes with
  | (e, false) => (e, some streamErr)
  | (e, true) =>
    match ops.err with
    | some err => (e, some err)
    | none =>
      match e.flush with
      | (e, true) => (e, none)
      | (e, false) => (e, some streamErr)

/-- Successive calls of `e.Encode` and what they return. -/
def Enc.encodeAll (cs : Nat) (e : Enc) : List Val → Enc × List (Option GoErr)
  | [] => (e, [])
  | v :: vs =>
    match e.encode cs v with
    | (e, r) => ((e.encodeAll cs vs).1, r :: (e.encodeAll cs vs).2)

/-- `n` successive calls of `d.Decode` (encoding/decoder.go:92-99) and what they return. The Decoder has no state but
its reader (decoder.go:23-25). -/
def decodeAll : Nat → Source → List (Except Fault Val) × Source
  | 0, r => ([], r)
  | n + 1, r => ((decodeFrom r).1 :: (decodeAll n (decodeFrom r).2).1, (decodeAll n (decodeFrom r).2).2)

end Bolt
