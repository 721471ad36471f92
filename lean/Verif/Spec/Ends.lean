import Verif.Spec.PackStream

/-! Values whose encoding ends with the content bytes of a string. -/

namespace PackStream

mutual
/-- The last bytes of an encoding of the value are the content of a non-empty string. -/
def PS.endsInString : PS → Bool
  | .str s => !s.isEmpty
  | .list xs => PS.endsList xs
  | .map kvs => PS.endsKVs kvs
  | .struct _ fs => PS.endsList fs
  | _ => false

/-- Of the last element. -/
def PS.endsList : List PS → Bool
  | [] => false
  | x :: xs => if xs.isEmpty then PS.endsInString x else PS.endsList xs

/-- Of the value of the last entry. -/
def PS.endsKVs : List (List UInt8 × PS) → Bool
  | [] => false
  | (_, x) :: xs => if xs.isEmpty then PS.endsInString x else PS.endsKVs xs
end

end PackStream
