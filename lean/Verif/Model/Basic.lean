/-!
# Bytes, Go integer conversions, Go errors

Core-only helpers the model is written with.
-/

namespace Bolt

/-- A Go `[]byte`. -/
abbrev Bytes := List UInt8

/-- A Go `string`: an arbitrary byte sequence (Go strings need not be UTF-8). -/
abbrev Str := Bytes

/-- `w` bytes, big-endian, of `n` modulo `256^w`: what `binary.Write(_, binary.BigEndian, x)`
emits for a `w`-byte integer whose bit pattern is `n` (encoding/encoder.go:117,136,250-289,327-460). -/
def be : Nat → Nat → Bytes
  | 0, _ => []
  | w + 1, n => UInt8.ofNat (n / 256 ^ w) :: be w n

/-- Big-endian value of a byte string: `binary.BigEndian.Uint16` (encoding/decoder.go:49) and the
unsigned reading of a `binary.Read` target. -/
def beNat (bs : Bytes) : Nat := bs.foldl (fun a b => a * 256 + b.toNat) 0

/-- Go conversion `intN(x)` to a signed type of `w` bytes: wrap-around two's complement. -/
def wrapSigned (w : Nat) (v : Int) : Int :=
  let m := v % (256 ^ w : Nat)
  if m < (256 ^ w / 2 : Nat) then m else m - (256 ^ w : Nat)

/-- `binary.Write(_, binary.BigEndian, intN(v))` for a `w`-byte signed type: the two's complement
bit pattern of `v`, big-endian. -/
def beSigned (w : Nat) (v : Int) : Bytes := be w (v % (256 ^ w : Nat)).toNat

/-- `binary.Read(_, binary.BigEndian, &x)` for a `w`-byte signed `x`: two's complement reading. -/
def signedOf (w : Nat) (bs : Bytes) : Int := wrapSigned w (beNat bs)

end Bolt
