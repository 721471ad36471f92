import Verif.Model.Encoder

/-!
# What the repository's tests of the encoder expect

`encoding/encoder_test.go` gives, for every Go value of some types, the bytes `Encode` should produce, and
compares them with what it does produce on values drawn at random (`testing/quick`). The functions below
are the expectations of the tests, transcribed; they do not refer to the functions of the encoder.
`be` and `beSigned` are `binary.Write(…, binary.BigEndian, …)` of an unsigned and of a signed integer, as in
`Verif/Model/Basic.lean`.
-/

namespace Bolt.EncoderTest

/-- `int64(val)` of a value of any Go integer type, the conversion in the tests (encoder_test.go:166-417). -/
def int64 (v : Int) : Int := if v < 2^63 then v else v - 2^64

/-- `expectedBuf.Read(expected)` with a slice of `maxBufSize = math.MaxUint16` bytes
(encoder_test.go:16, 74-76). -/
def read (b : Bytes) : Bytes := b.take 65535

/-- encoder_test.go:41-48 -/
def nil : Bytes := read (be 2 1 ++ [0xC0] ++ [0, 0])

/-- encoder_test.go:56-77 -/
def bool (val : Bool) : Bytes := read (be 2 1 ++ [if val then 0xC3 else 0xC2] ++ [0, 0])

/-- `generateIntExpectedBuf` (encoder_test.go:102-146); `none` is the error of its default case. -/
def int (val : Int) : Option Bytes :=
  if -2^63 ≤ val ∧ val < -2^31 then some (read (be 2 9 ++ [0xCB] ++ beSigned 8 val ++ [0, 0]))
  else if -2^31 ≤ val ∧ val < -2^15 then some (read (be 2 5 ++ [0xCA] ++ beSigned 4 val ++ [0, 0]))
  else if -2^15 ≤ val ∧ val < -2^7 then some (read (be 2 3 ++ [0xC9] ++ beSigned 2 val ++ [0, 0]))
  else if -2^7 ≤ val ∧ val < -16 then some (read (be 2 2 ++ [0xC8] ++ beSigned 1 val ++ [0, 0]))
  else if -16 ≤ val ∧ val ≤ 2^7 - 1 then some (read (be 2 1 ++ beSigned 1 val ++ [0, 0]))
  else if 2^7 - 1 < val ∧ val ≤ 2^15 - 1 then some (read (be 2 3 ++ [0xC9] ++ beSigned 2 val ++ [0, 0]))
  else if 2^15 - 1 < val ∧ val ≤ 2^31 - 1 then some (read (be 2 5 ++ [0xCA] ++ beSigned 4 val ++ [0, 0]))
  else if 2^31 - 1 < val ∧ val ≤ 2^63 - 1 then some (read (be 2 9 ++ [0xCB] ++ beSigned 8 val ++ [0, 0]))
  else none

/-- encoder_test.go:420-432, 457-469; the argument is the bit pattern of `float64(val)`. -/
def float (bits : UInt64) : Bytes := read (be 2 9 ++ [0xC1] ++ be 8 bits.toNat ++ [0, 0])

/-- The switch that fills `expectedBuf` for a string (encoder_test.go:499-521, 646-668); empty for the fatal
default. -/
def strBuf (val : Str) : Bytes :=
  if val.length ≤ 15 then [UInt8.ofNat (0x80 + val.length)] ++ val
  else if val.length ≤ 255 then [0xD0] ++ be 1 val.length ++ val
  else if val.length ≤ 65535 then [0xD1] ++ be 2 val.length ++ val
  else if val.length ≤ 4294967295 then [0xD2] ++ be 4 val.length ++ val
  else []

/-- The switch on the length of a slice (encoder_test.go:560-576, 627-643). -/
def sliceBuf (n : Nat) : Bytes :=
  if n ≤ 15 then [UInt8.ofNat (0x90 + n)]
  else if n ≤ 255 then [0xD4] ++ be 1 n
  else if n ≤ 65535 then [0xD5] ++ be 2 n
  else if n ≤ 4294967295 then [0xD6] ++ be 4 n
  else []

/-- `uint16(expectedBuf.Len())`, `expectedBuf`, `EndMessage`, read (encoder_test.go:523-529, 590-596,
671-677). `be 2` keeps the low sixteen bits, as `uint16` does. -/
def message (buf : Bytes) : Bytes := read (be 2 buf.length ++ buf ++ [0, 0])

/-- `TestEncodeString` (encoder_test.go:494-530). -/
def str (val : Str) : Bytes := message (strBuf val)

/-- `TestEncodeInterfaceSlice` (encoder_test.go:556-597), which is about `[]bool`. -/
def bools (val : List Bool) : Bytes :=
  message (sliceBuf val.length ++ val.map fun b => if b then 0xC3 else 0xC2)

/-- `TestEncodeStringSlice` (encoder_test.go:623-678). -/
def strs (val : List Str) : Bytes := message (sliceBuf val.length ++ val.flatMap strBuf)

/-- `result` of the tests: a new encoder with chunks of `math.MaxUint16` on an empty `bytes.Buffer`, one
`Encode`, and one `Read` of the buffer (encoder_test.go:20-23, 79-94, 148-164); `none` when `Encode`
fails. -/
def result (v : Val) : Option Bytes :=
  match encodeTo 65535 ⟨[], none⟩ v with
  | (w, none) => some (read w.out)
  | (_, some _) => none

end Bolt.EncoderTest
