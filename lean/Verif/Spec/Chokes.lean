import Verif.Spec.Lenient
import Verif.Spec.Meaning

/-! # The payloads that cannot be decoded safely

Written with the grammar of Spec/Lenient and the meaning of structures only. -/

namespace Bolt
open PackStream

/-- What a field of a structure has to be. -/
inductive Field
  | int | str | list | map | strs | nodes | unbounds | ints

/-- The fields of the structures a client can receive, by signature. -/
def structFields (sig : UInt8) : List Field :=
  if sig = 0x4E then [.int, .strs, .map]
  else if sig = 0x52 then [.int, .int, .int, .str, .map]
  else if sig = 0x72 then [.int, .str, .map]
  else if sig = 0x50 then [.nodes, .unbounds, .ints]
  else if sig = 0x71 then [.list]
  else if sig = 0x70 then [.map]
  else if sig = 0x7F then [.map]
  else []

/-- The value is one for such a field. -/
def Field.fits : Field → Val → Prop
  | .int, v => ∃ n, v = .int .int64 n
  | .str, v => ∃ s, v = .str s
  | .list, v => ∃ xs, v = .list xs
  | .map, v => ∃ m, v = .map m
  | .strs, v => ∃ xs ss, v = .list xs ∧ allStr xs = some ss
  | .nodes, v => ∃ xs, v = .list xs ∧ allNode xs = true
  | .unbounds, v => ∃ xs, v = .list xs ∧ allUnbound xs = true
  | .ints, v => ∃ xs is, v = .list xs ∧ allInt xs = some is

/-- The value is not, and this goes unchecked: a number that is none, and a list of numbers with something else in it. -/
def Field.unchecked : Field → Val → Prop
  | .int, v => ¬ ∃ n, v = .int .int64 n
  | .ints, v => ∃ xs, v = .list xs ∧ allInt xs = none
  | _, _ => False

/-- Values for the first fields. -/
def Fit : List Field → List Val → Prop
  | _, [] => True
  | [], _ :: _ => False
  | f :: fs, x :: xs => f.fits x ∧ Fit fs xs

/-- The payload, read from its beginning, comes to a place that makes the decoder panic. -/
inductive Chokes : List UInt8 → Prop
  /-- A string or list whose size field has its top bit set. -/
  | size {k : Kind} {w n : Nat} {m : UInt8} {bs : List UInt8} (r : List UInt8) :
      k = .str ∨ k = .list → k.marker w = some m → Unsigned w n bs → halfRange w ≤ n → Chokes (m :: bs ++ r)
  /-- An element of a list, after elements that can be read. -/
  | item {n : Nat} {h b c : List UInt8} {ps : List PS} {xs : List Val} :
      Hdr halfRange .list n h → ReadsList ps b c → ofPSList ps = some xs → ps.length < n → Chokes c → Chokes (h ++ b)
  /-- A key of a map, after entries that can be read. -/
  | key {n : Nat} {h b c : List UInt8} {kvs : List (List UInt8 × PS)} {xs : List (Str × Val)} :
      Hdr halfRange .map n h → ReadsKVs kvs b c → ofPSKVs kvs = some xs → kvs.length < n → Chokes c → Chokes (h ++ b)
  /-- A value of a map, after entries and a key, of whatever type, that can be read. -/
  | value {n : Nat} {h b c d : List UInt8} {kvs : List (List UInt8 × PS)} {xs : List (Str × Val)} {k : PS} {x : Val} :
      Hdr halfRange .map n h → ReadsKVs kvs b c → ofPSKVs kvs = some xs → kvs.length < n → Reads k c d → ofPS k = some x → Chokes d →
      Chokes (h ++ b)
  /-- A field of a structure, after fields that can be read and are what the signature demands. -/
  | field {n : Nat} {h b c : List UInt8} {sig : UInt8} {ps : List PS} {xs : List Val} :
      Hdr fullRange .struct n h → ReadsList ps b c → ofPSList ps = some xs → Fit (structFields sig) xs → xs.length < (structFields sig).length →
      Chokes c → Chokes (h ++ sig :: b)
  /-- A field of a structure that is not what the signature demands, and is not checked. -/
  | wrong {n : Nat} {h b c : List UInt8} {sig : UInt8} {ps : List PS} {xs : List Val} {x : Val} {f : Field} :
      Hdr fullRange .struct n h → ReadsList ps b c → ofPSList ps = some (xs ++ [x]) → Fit (structFields sig) xs →
      (structFields sig)[xs.length]? = some f → f.unchecked x → Chokes (h ++ sig :: b)

end Bolt
