import Verif.Spec.Meaning

/-! What should come back when a value is sent and read again. -/

namespace Bolt

/-- Message and structure types a client sends but never receives. -/
def Val.DecodableHere : Val → Prop
  | .init .. | .run .. | .userStruct .. | .other _ => False
  | _ => True

/-- No such value anywhere inside. -/
def Val.Decodable : Val → Prop := Val.All Val.DecodableHere

mutual
/-- `w` is `v` with every integer as `int64`, every `float32` as the `float64` of the same value and
every slice as `[]interface{}`; nothing else changes. -/
def Returns : Val → Val → Prop
  | .int _ n, w => w = .int .int64 n
  | .float32 f, w => ∃ d, Widens f d ∧ w = .float64 d
  | .list xs, w => ∃ ys, ReturnsList xs ys ∧ w = .list ys
  | .typedSlice xs, w => ∃ ys, ReturnsList xs ys ∧ w = .list ys
  | .map kvs, w => ∃ ws, ReturnsKVs kvs ws ∧ w = .map ws
  | .node id ls ps, w => ∃ qs, ReturnsKVs ps qs ∧ w = .node id ls qs
  | .rel id s e t ps, w => ∃ qs, ReturnsKVs ps qs ∧ w = .rel id s e t qs
  | .unbound id t ps, w => ∃ qs, ReturnsKVs ps qs ∧ w = .unbound id t qs
  | .path ns rs sq, w => ∃ ns' rs', ReturnsList ns ns' ∧ ReturnsList rs rs' ∧ w = .path ns' rs' sq
  | .record fs, w => ∃ gs, ReturnsList fs gs ∧ w = .record gs
  | .success md, w => ∃ md', ReturnsKVs md md' ∧ w = .success md'
  | .failure md, w => ∃ md', ReturnsKVs md md' ∧ w = .failure md'
  | .nil, w => w = .nil
  | .bool b, w => w = .bool b
  | .float64 d, w => w = .float64 d
  | .str s, w => w = .str s
  | .ignored, w => w = .ignored
  | .ackFailure, w => w = .ackFailure
  | .discardAll, w => w = .discardAll
  | .pullAll, w => w = .pullAll
  | .reset, w => w = .reset
  | _, _ => False

/-- Element by element. -/
def ReturnsList : List Val → List Val → Prop
  | [], ys => ys = []
  | x :: xs, ys => ∃ y zs, Returns x y ∧ ReturnsList xs zs ∧ ys = y :: zs

/-- Entry by entry, same keys. -/
def ReturnsKVs : List (Str × Val) → List (Str × Val) → Prop
  | [], ys => ys = []
  | (k, v) :: rest, ys => ∃ w zs, Returns v w ∧ ReturnsKVs rest zs ∧ ys = (k, w) :: zs
end

end Bolt
