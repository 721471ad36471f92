/-!
# PackStream v1 and Bolt chunking, as a specification

Written from the PackStream/Bolt v1 documentation (marker table of
http://alpha.neohq.net/docs/server-manual/bolt-serialization.html, the document named in
encoding/encoder.go:78). Shares nothing with the model: marker bytes are literals, integers are related
to bytes by their positional value.
-/

namespace PackStream

/-- PackStream values. -/
inductive PS where
  | null
  | bool (b : Bool)
  | int (v : Int)
  | float (bits : UInt64)
  | str (s : List UInt8)
  | list (xs : List PS)
  | map (kvs : List (List UInt8 × PS))
  | struct (sig : UInt8) (fields : List PS)

/-- Positional (big-endian) value of a byte string. -/
def ofBytes : List UInt8 → Nat
  | [] => 0
  | b :: bs => b.toNat * 256 ^ bs.length + ofBytes bs

/-- `bs` is the `w`-byte big-endian unsigned representation of `n`. -/
def Unsigned (w n : Nat) (bs : List UInt8) : Prop := bs.length = w ∧ ofBytes bs = n

/-- `bs` is the `w`-byte big-endian two's complement representation of `v`. -/
def Signed (w : Nat) (v : Int) (bs : List UInt8) : Prop :=
  bs.length = w ∧ -(256 ^ w : Nat) ≤ 2 * v ∧ 2 * v < (256 ^ w : Nat) ∧
    (ofBytes bs : Int) = if v < 0 then v + (256 ^ w : Nat) else v

/-- Sized kinds. -/
inductive Kind | str | list | map | struct

/-- Marker of the form without a size field; the size is its low nibble. -/
def Kind.tiny : Kind → Nat
  | .str => 0x80 | .list => 0x90 | .map => 0xA0 | .struct => 0xB0

/-- Marker of the form with a `w`-byte size field. -/
def Kind.marker : Kind → Nat → Option UInt8
  | .str, 1 => some 0xD0 | .str, 2 => some 0xD1 | .str, 4 => some 0xD2
  | .list, 1 => some 0xD4 | .list, 2 => some 0xD5 | .list, 4 => some 0xD6
  | .map, 1 => some 0xD8 | .map, 2 => some 0xD9 | .map, 4 => some 0xDA
  | .struct, 1 => some 0xDC | .struct, 2 => some 0xDD
  | _, _ => none

/-- `h` is a header announcing size `n`. `lim w` bounds the sizes that may use a `w`-byte size field;
PackStream itself has `lim = fullRange`. A size field need not be the shortest one. -/
def Hdr (lim : Nat → Nat) (k : Kind) (n : Nat) (h : List UInt8) : Prop :=
  (n < 16 ∧ h = [UInt8.ofNat (k.tiny + n)]) ∨
  (∃ w m bs, k.marker w = some m ∧ Unsigned w n bs ∧ n < lim w ∧ h = m :: bs)

/-- Size fields are unsigned. -/
def fullRange (w : Nat) : Nat := 256 ^ w

/-- Size fields whose top bit is clear. -/
def halfRange (w : Nat) : Nat := 256 ^ w / 2

mutual
/-- `bs` is an encoding of the value: every form PackStream allows, shortest or not. -/
def Packs (lim : Nat → Nat) : PS → List UInt8 → Prop
  | .null, bs => bs = [0xC0]
  | .bool b, bs => bs = [if b then 0xC3 else 0xC2]
  | .int v, bs =>
    (-16 ≤ v ∧ v < 128 ∧ Signed 1 v bs) ∨
    (∃ r, bs = 0xC8 :: r ∧ Signed 1 v r) ∨
    (∃ r, bs = 0xC9 :: r ∧ Signed 2 v r) ∨
    (∃ r, bs = 0xCA :: r ∧ Signed 4 v r) ∨
    (∃ r, bs = 0xCB :: r ∧ Signed 8 v r)
  | .float f, bs => ∃ r, bs = 0xC1 :: r ∧ Unsigned 8 f.toNat r
  | .str s, bs => ∃ h, Hdr lim .str s.length h ∧ bs = h ++ s
  | .list xs, bs => ∃ h body, Hdr lim .list xs.length h ∧ PacksList lim xs body ∧ bs = h ++ body
  | .map kvs, bs => ∃ h body, Hdr lim .map kvs.length h ∧ PacksKVs lim kvs body ∧ bs = h ++ body
  | .struct sig fs, bs =>
    ∃ h body, Hdr lim .struct fs.length h ∧ PacksList lim fs body ∧ bs = h ++ sig :: body

/-- Concatenated encodings of a list of values. -/
def PacksList (lim : Nat → Nat) : List PS → List UInt8 → Prop
  | [], bs => bs = []
  | x :: xs, bs => ∃ a b, Packs lim x a ∧ PacksList lim xs b ∧ bs = a ++ b

/-- Concatenated encodings of key/value pairs; keys are strings. -/
def PacksKVs (lim : Nat → Nat) : List (List UInt8 × PS) → List UInt8 → Prop
  | [], bs => bs = []
  | (k, v) :: rest, bs =>
    ∃ h a b, Hdr lim .str k.length h ∧ Packs lim v a ∧ PacksKVs lim rest b ∧ bs = h ++ k ++ a ++ b
end

/-- `wire` is a chunked message with payload `p`: non-empty chunks of at most 65535 bytes, each preceded
by its length, then the end marker 00 00. -/
inductive Framed : List UInt8 → List UInt8 → Prop
  | done : Framed [] [0x00, 0x00]
  | chunk {c hdr p wire : List UInt8} : c ≠ [] → Unsigned 2 c.length hdr → Framed p wire →
      Framed (c ++ p) (hdr ++ c ++ wire)

/-- As `Framed`, and every chunk has at most `n` bytes. -/
inductive FramedBy (n : Nat) : List UInt8 → List UInt8 → Prop
  | done : FramedBy n [] [0x00, 0x00]
  | chunk {c hdr p wire : List UInt8} : c ≠ [] → c.length ≤ n → Unsigned 2 c.length hdr →
      FramedBy n p wire → FramedBy n (c ++ p) (hdr ++ c ++ wire)

end PackStream
