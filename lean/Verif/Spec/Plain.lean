import Verif.Spec.PackStream

/-! PackStream values whose maps have no repeated key: those that stand for a Go or a Neo4j value. -/

namespace PackStream

mutual
/-- No map inside has the same key twice. -/
def PS.Distinct : PS → Prop
  | .list xs => PS.DistinctList xs
  | .map kvs => (kvs.map Prod.fst).Nodup ∧ PS.DistinctKVs kvs
  | .struct _ fs => PS.DistinctList fs
  | _ => True

/-- In every element. -/
def PS.DistinctList : List PS → Prop
  | [] => True
  | x :: xs => x.Distinct ∧ PS.DistinctList xs

/-- In every value. -/
def PS.DistinctKVs : List (List UInt8 × PS) → Prop
  | [] => True
  | (_, x) :: xs => x.Distinct ∧ PS.DistinctKVs xs
end

end PackStream
