import Verif.Spec.Meaning

/-!
# Conditions under which the driver's encoding properties hold

Named separately so that the property statements show exactly what is assumed.
-/

namespace Bolt
open PackStream

/-- The one class of well-typed values the encoder gets wrong without saying so: a Go `uint` above the
largest `int64`, and a user-defined structure whose signature is not a byte. -/
def Val.CleanHere : Val → Prop
  | .int .uint v => v < 2^63
  | .userStruct sig _ => 0 ≤ sig ∧ sig < 256
  | _ => True

/-- No such value anywhere inside. -/
def Val.Clean : Val → Prop := Val.All Val.CleanHere

/-- Lengths of the keys. -/
def keySizes (kvs : List (Str × α)) : List Nat := kvs.map fun kv => kv.1.length

/-- The sizes that are written in size fields for the top level of a value: lengths of strings, lists,
maps, keys, labels. -/
def Val.sizes : Val → List Nat
  | .str s => [s.length]
  | .list xs | .typedSlice xs | .record xs => [xs.length]
  | .map kvs | .success kvs | .failure kvs => kvs.length :: keySizes kvs
  | .node _ ls ps => ls.length :: ps.length :: ls.map List.length ++ keySizes ps
  | .rel _ _ _ t ps => t.length :: ps.length :: keySizes ps
  | .unbound _ t ps => t.length :: ps.length :: keySizes ps
  | .path ns rs sq => [ns.length, rs.length, sq.length]
  | .init s kvs | .run s kvs => s.length :: kvs.length :: keySizes kvs
  | .userStruct _ fs => [fs.length]
  | _ => []

/-- The shortest size field for `n` respects `lim`. -/
def SizeOK (lim : Nat → Nat) (n : Nat) : Prop :=
  (16 ≤ n → n < 2^8 → n < lim 1) ∧ (2^8 ≤ n → n < 2^16 → n < lim 2) ∧ (2^16 ≤ n → n < 2^32 → n < lim 4)

/-- Every size at the top level respects `lim`. -/
def Val.SizesHere (lim : Nat → Nat) (v : Val) : Prop := ∀ n ∈ v.sizes, SizeOK lim n

/-- Every size anywhere inside respects `lim`. -/
def Val.Sizes (lim : Nat → Nat) : Val → Prop := Val.All (Val.SizesHere lim)

/-- No size between 128 and 255, between 32768 and 65535, or above 2^31-1 anywhere inside: the sizes
whose shortest size field has its top bit clear. -/
def Val.SmallSizes : Val → Prop := Val.Sizes halfRange

end Bolt
