import Verif.Spec.Limits

/-!
# What the driver sends instead

A Go `uint` above the largest `int64` is sent as that number less 2^64, the signature of a user-defined
structure as its remainder modulo 256 (encoding/encoder.go:186, 467: the conversions `int64(val)` and
`byte(val.Signature())`). `v.wrapped` is `v` with these replacements made at every depth; nothing else changes.
-/

namespace Bolt

mutual
def Val.wrapped : Val → Val
  | .int .uint n => if n < 2^63 then .int .uint n else .int .int64 (n - 2^64)
  | .list xs => .list (Val.wrappedList xs)
  | .map kvs => .map (Val.wrappedKVs kvs)
  | .node id ls ps => .node id ls (Val.wrappedKVs ps)
  | .rel id s e t ps => .rel id s e t (Val.wrappedKVs ps)
  | .unbound id t ps => .unbound id t (Val.wrappedKVs ps)
  | .path ns rs sq => .path (Val.wrappedList ns) (Val.wrappedList rs) sq
  | .record fs => .record (Val.wrappedList fs)
  | .success md => .success (Val.wrappedKVs md)
  | .failure md => .failure (Val.wrappedKVs md)
  | .init c a => .init c (Val.wrappedKVs a)
  | .run s ps => .run s (Val.wrappedKVs ps)
  | .userStruct sig fs => .userStruct (sig % 256) (Val.wrappedList fs)
  | .typedSlice xs => .typedSlice (Val.wrappedList xs)
  | v => v

/-- Each element. -/
def Val.wrappedList : List Val → List Val
  | [] => []
  | x :: xs => x.wrapped :: Val.wrappedList xs

/-- Each entry's value. -/
def Val.wrappedKVs : List (Str × Val) → List (Str × Val)
  | [] => []
  | (k, v) :: rest => (k, v.wrapped) :: Val.wrappedKVs rest
end

end Bolt
