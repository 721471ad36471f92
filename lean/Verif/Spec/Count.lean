import Verif.Model.Value

/-! Number of PackStream values in a Go value: itself, elements, keys, fields, at every depth. -/

namespace Bolt

mutual
/-- The value itself and everything inside it. -/
def Val.values : Val → Nat
  | .list xs => 1 + Val.valuesList xs
  | .typedSlice xs => 1 + Val.valuesList xs
  | .map kvs => 1 + Val.valuesKVs kvs
  | .node _ ls ps => 4 + ls.length + Val.valuesKVs ps
  | .rel _ _ _ _ ps => 6 + Val.valuesKVs ps
  | .unbound _ _ ps => 4 + Val.valuesKVs ps
  | .path ns rs sq => 4 + Val.valuesList ns + Val.valuesList rs + sq.length
  | .record fs => 2 + Val.valuesList fs
  | .success md => 2 + Val.valuesKVs md
  | .failure md => 2 + Val.valuesKVs md
  | .init _ a => 3 + Val.valuesKVs a
  | .run _ a => 3 + Val.valuesKVs a
  | .userStruct _ fs => 1 + Val.valuesList fs
  | _ => 1

/-- Sum over the elements. -/
def Val.valuesList : List Val → Nat
  | [] => 0
  | x :: xs => Val.values x + Val.valuesList xs

/-- Sum over the entries; each key counts as one. -/
def Val.valuesKVs : List (Str × Val) → Nat
  | [] => 0
  | (_, v) :: rest => 1 + Val.values v + Val.valuesKVs rest
end

mutual
/-- Nesting depth. -/
def Val.depth : Val → Nat
  | .list xs => 1 + Val.depthList xs
  | .typedSlice xs => 1 + Val.depthList xs
  | .map kvs => 1 + Val.depthKVs kvs
  | .node _ _ ps => 2 + Val.depthKVs ps
  | .rel _ _ _ _ ps => 2 + Val.depthKVs ps
  | .unbound _ _ ps => 2 + Val.depthKVs ps
  | .path ns rs _ => 2 + max (Val.depthList ns) (Val.depthList rs)
  | .record fs => 2 + Val.depthList fs
  | .success md => 2 + Val.depthKVs md
  | .failure md => 2 + Val.depthKVs md
  | .init _ a => 2 + Val.depthKVs a
  | .run _ a => 2 + Val.depthKVs a
  | .userStruct _ fs => 1 + Val.depthList fs
  | _ => 1

/-- Maximum over the elements. -/
def Val.depthList : List Val → Nat
  | [] => 0
  | x :: xs => max (Val.depth x) (Val.depthList xs)

/-- Maximum over the entries. -/
def Val.depthKVs : List (Str × Val) → Nat
  | [] => 0
  | (_, v) :: rest => max (Val.depth v) (Val.depthKVs rest)
end

end Bolt
