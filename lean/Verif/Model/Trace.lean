import Verif.Model.Basic

/-!
# The trace log of the bytes exchanged: util.go:11-28, conn.go:328-330, 348-350
-/

namespace Bolt.Logging

/-- Text without special characters. -/
def txt (s : String) : Str := s.toList.map fun c => UInt8.ofNat c.toNat

/-- `%d` of a number that is not negative. -/
def decimal (n : Nat) : Str := (Nat.toDigits 10 n).map fun c => UInt8.ofNat c.toNat

/-- A hexadecimal digit, as `%x` prints it. -/
def hexDigit (n : Nat) : UInt8 := UInt8.ofNat (if n < 10 then 48 + n else 87 + n)

/-- `fmt.Sprintf("%x", b)` (util.go:16) of one byte: no leading zero. -/
def hexByte (b : UInt8) : Str :=
  if b.toNat < 16 then [hexDigit b.toNat] else [hexDigit (b.toNat / 16), hexDigit (b.toNat % 16)]

/-- What follows byte number `i` (util.go:17-23). -/
def hexSep (i : Nat) : Str :=
  if (i + 1) % 16 = 0 then [10, 10, 9] else if (i + 1) % 4 = 0 then [32, 32] else [32]

/-- The loop (util.go:15-24), from byte number `i` on. -/
def hexLoop : Nat → Bytes → Str
  | _, [] => []
  | i, b :: r => hexByte b ++ hexSep i ++ hexLoop (i + 1) r

/-- `sprintByteHex` (util.go:13-28) -/
def sprintByteHex (b : Bytes) : Str := [9] ++ hexLoop 0 b ++ [10]

/-- The trace log of `Read` (conn.go:328-330), which got `n` bytes into the buffer `b`. -/
def readLine (n : Nat) (b : Bytes) : Str :=
  txt "Read " ++ decimal n ++ txt " bytes from stream:\n\n" ++ sprintByteHex b ++ [10]

/-- The trace log of `Write` (conn.go:348-350), which wrote `n` bytes of `b`. -/
def writeLine (b : Bytes) (n : Nat) : Str :=
  txt "Wrote " ++ decimal b.length ++ txt " of " ++ decimal n ++ txt " bytes to stream:\n\n" ++ sprintByteHex (b.take n) ++ [10]

end Bolt.Logging
