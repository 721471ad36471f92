import Verif.Spec.Limits
import Verif.Spec.Normal

/-! What a value decoded from the network can look like, in Go terms. -/

namespace Bolt

/-- A decoded value, at its top level: integers are `int64`, floats `float64`, slices `[]interface{}`; no structure
that only clients send; every size is below 2^31. -/
def Val.ReceivedHere (v : Val) : Prop :=
  (match v with
    | .int k n => k = .int64 ∧ IsInt64 n
    | .float32 _ | .typedSlice _ | .init .. | .run .. | .userStruct .. | .other _ => False
    | v => v.TypedHere) ∧ ∀ n ∈ v.sizes, n < 2^31

/-- Such a value at every depth. -/
def Val.Received : Val → Prop := Val.All Val.ReceivedHere

/-- nil, a boolean, an integer, a float or a string. -/
def IsScalar : Val → Prop
  | .nil | .bool _ | .int _ _ | .float32 _ | .float64 _ | .str _ => True
  | _ => False

/-- A list, a map or one of the four graph structures. -/
def IsContainer : Val → Prop
  | .list _ | .map _ | .node .. | .path .. | .rel .. | .unbound .. => True
  | _ => False

end Bolt
