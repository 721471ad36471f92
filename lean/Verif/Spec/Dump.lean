import Verif.Model.Basic

/-! # Reading a dump: hexadecimal numbers between white space -/

namespace Bolt.Dump

/-- Space, tab, new line. -/
def blank (c : UInt8) : Bool := c = 32 || c = 9 || c = 10

/-- The words of a text; `cur` is the word begun. -/
def wordsFrom (cur : Str) : Str → List Str
  | [] => if cur = [] then [] else [cur]
  | c :: r => if blank c then (if cur = [] then wordsFrom [] r else cur :: wordsFrom [] r) else wordsFrom (cur ++ [c]) r

/-- The words of a text. -/
def words (s : Str) : List Str := wordsFrom [] s

/-- The value of a hexadecimal digit. -/
def digit (c : UInt8) : Nat := if c < 58 then c.toNat - 48 else c.toNat - 87

/-- A hexadecimal number. -/
def value (s : Str) : Nat := s.foldl (fun n c => 16 * n + digit c) 0

/-- The bytes that a dump shows. -/
def bytes (s : Str) : Bytes := (words s).map fun x => UInt8.ofNat (value x)

end Bolt.Dump
