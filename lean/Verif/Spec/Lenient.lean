import Verif.Spec.PackStream

/-!
# PackStream as the driver reads it

`Packs` with three relaxations, each visible in one clause below: a string at the very end of the payload may be shorter
than announced; the announced number of fields of a structure is not looked at; a map whose size field has its top bit set
is empty. Size fields of strings and lists with the top bit set are not accepted. `Reads p b r`: `b` begins with such an
encoding of `p`, and `r` is the rest.
-/

namespace PackStream

mutual
def Reads : PS → List UInt8 → List UInt8 → Prop
  | .null, b, r => ∃ a, Packs fullRange .null a ∧ b = a ++ r
  | .bool x, b, r => ∃ a, Packs fullRange (.bool x) a ∧ b = a ++ r
  | .int v, b, r => ∃ a, Packs fullRange (.int v) a ∧ b = a ++ r
  | .float f, b, r => ∃ a, Packs fullRange (.float f) a ∧ b = a ++ r
  | .str s, b, r => ∃ n h, Hdr halfRange .str n h ∧ b = h ++ s ++ r ∧ (s.length = n ∨ s.length < n ∧ r = [])
  | .list xs, b, r => ∃ h c, Hdr halfRange .list xs.length h ∧ b = h ++ c ∧ ReadsList xs c r
  | .map kvs, b, r =>
    (∃ h c, Hdr halfRange .map kvs.length h ∧ b = h ++ c ∧ ReadsKVs kvs c r) ∨
    (kvs = [] ∧ ∃ w n m bs, Kind.map.marker w = some m ∧ Unsigned w n bs ∧ halfRange w ≤ n ∧ b = m :: bs ++ r)
  | .struct sig fs, b, r => ∃ n h c, Hdr fullRange .struct n h ∧ b = h ++ sig :: c ∧ ReadsList fs c r

/-- One value after the other. -/
def ReadsList : List PS → List UInt8 → List UInt8 → Prop
  | [], b, r => b = r
  | x :: xs, b, r => ∃ c, Reads x b c ∧ ReadsList xs c r

/-- One key and value after the other; a key is read as a string is. -/
def ReadsKVs : List (List UInt8 × PS) → List UInt8 → List UInt8 → Prop
  | [], b, r => b = r
  | (k, v) :: rest, b, r => ∃ c d, Reads (.str k) b c ∧ Reads v c d ∧ ReadsKVs rest d r
end

end PackStream
