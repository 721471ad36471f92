import Verif.Spec.Limits

/-! Which values the encoder accepts. -/

namespace Bolt

/-- What PackStream and the driver's documentation allow at the top level of a value: a known type, no
`uint64` above the largest `int64`, strings and collections of fewer than 2^32 and structures of fewer
than 2^16 parts. -/
def Val.SupportedHere : Val → Prop
  | .other _ => False
  | .int .uint64 n => n < 2^63
  | .userStruct _ fs => fs.length < 2^16
  | v => ∀ n ∈ v.sizes, n < 2^32

/-- Supported at every depth. -/
def Val.Supported : Val → Prop := Val.All Val.SupportedHere

end Bolt
