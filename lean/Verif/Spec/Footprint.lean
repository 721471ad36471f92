import Verif.Spec.Meaning

/-!
# Sizes of values

Measures used in the conditions of the framing properties: the strings a value contains, and an upper
bound for the size of its encoding that can be computed without encoding it.
-/

namespace Bolt

/-- The keys. -/
def keysOf (kvs : List (Str × α)) : List Str := kvs.map Prod.fst

/-- The strings at the top level of a value: text, keys, labels, types. -/
def Val.ownStrings : Val → List Str
  | .str s => [s]
  | .map kvs | .success kvs | .failure kvs => keysOf kvs
  | .node _ ls ps => ls ++ keysOf ps
  | .rel _ _ _ t ps => t :: keysOf ps
  | .unbound _ t ps => t :: keysOf ps
  | .init s kvs | .run s kvs => s :: keysOf kvs
  | _ => []

/-- Every string anywhere inside the value has at most `n` bytes. -/
def Val.StringsLe (n : Nat) : Val → Prop := Val.All fun v => ∀ s ∈ v.ownStrings, s.length ≤ n

mutual
/-- Upper bound for the number of bytes of a value's encoding: 9 for a number, 5 for a size header, 6 for
a structure header. -/
def Val.footprint : Val → Nat
  | .str s => 5 + s.length
  | .list xs | .typedSlice xs => 5 + Val.footList xs
  | .map kvs => 5 + Val.footKVs kvs
  | .node _ ls ps => 25 + (ls.map fun l => 5 + l.length).sum + Val.footKVs ps
  | .rel _ _ _ t ps => 43 + t.length + Val.footKVs ps
  | .unbound _ t ps => 25 + t.length + Val.footKVs ps
  | .path ns rs sq => 21 + Val.footList ns + Val.footList rs + 9 * sq.length
  | .record fs => 11 + Val.footList fs
  | .success md | .failure md => 11 + Val.footKVs md
  | .init s kvs | .run s kvs => 16 + s.length + Val.footKVs kvs
  | .userStruct _ fs => 6 + Val.footList fs
  | _ => 9

/-- Sum over a list. -/
def Val.footList : List Val → Nat
  | [] => 0
  | x :: xs => Val.footprint x + Val.footList xs

/-- Sum over entries. -/
def Val.footKVs : List (Str × Val) → Nat
  | [] => 0
  | (k, v) :: rest => 5 + k.length + Val.footprint v + Val.footKVs rest
end

end Bolt
