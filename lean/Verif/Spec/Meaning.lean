import Verif.Model.Value
import Verif.Spec.PackStream

/-!
# What a Go value means in PackStream, and back

`Means` says which PackStream value a Go value stands for; `ofPS` says which Go value a PackStream value
received from the server should be delivered as. Both are specifications: they do not mention bytes,
markers or any function of the encoder or decoder.
-/

namespace Bolt
open PackStream

/-! ## Predicates over all components of a value -/

mutual
/-- `P` holds for `v` and for every value inside it. -/
def Val.All (P : Val → Prop) : Val → Prop
  | .list xs => P (.list xs) ∧ Val.AllList P xs
  | .map kvs => P (.map kvs) ∧ Val.AllKVs P kvs
  | .node id ls ps => P (.node id ls ps) ∧ Val.AllKVs P ps
  | .rel id s e t ps => P (.rel id s e t ps) ∧ Val.AllKVs P ps
  | .unbound id t ps => P (.unbound id t ps) ∧ Val.AllKVs P ps
  | .path ns rs sq => P (.path ns rs sq) ∧ Val.AllList P ns ∧ Val.AllList P rs
  | .record fs => P (.record fs) ∧ Val.AllList P fs
  | .success md => P (.success md) ∧ Val.AllKVs P md
  | .failure md => P (.failure md) ∧ Val.AllKVs P md
  | .init c a => P (.init c a) ∧ Val.AllKVs P a
  | .run s ps => P (.run s ps) ∧ Val.AllKVs P ps
  | .userStruct sig fs => P (.userStruct sig fs) ∧ Val.AllList P fs
  | .typedSlice xs => P (.typedSlice xs) ∧ Val.AllList P xs
  | v => P v

/-- `Val.All` for each element. -/
def Val.AllList (P : Val → Prop) : List Val → Prop
  | [] => True
  | x :: xs => Val.All P x ∧ Val.AllList P xs

/-- `Val.All` for each entry's value. -/
def Val.AllKVs (P : Val → Prop) : List (Str × Val) → Prop
  | [] => True
  | (_, v) :: rest => Val.All P v ∧ Val.AllKVs P rest
end

/-- A Go `int64`. -/
def IsInt64 (v : Int) : Prop := -2^63 ≤ v ∧ v < 2^63

/-- A list of entries a Go map can have: distinct keys. -/
def DistinctKeys (kvs : KVs) : Prop := (kvs.map Prod.fst).Nodup

/-- The value is a `graph.Node`. -/
def IsNode : Val → Prop
  | .node .. => True
  | _ => False

/-- The value is a `graph.UnboundRelationship`. -/
def IsUnbound : Val → Prop
  | .unbound .. => True
  | _ => False

/-- What the Go type system guarantees about a value, at its top level. -/
def Val.TypedHere : Val → Prop
  | .int k v => k.InRange v
  | .map kvs => DistinctKeys kvs
  | .node id _ ps => IsInt64 id ∧ DistinctKeys ps
  | .rel id s e _ ps => IsInt64 id ∧ IsInt64 s ∧ IsInt64 e ∧ DistinctKeys ps
  | .unbound id _ ps => IsInt64 id ∧ DistinctKeys ps
  | .path ns rs sq =>
    (∀ n ∈ ns, IsNode n) ∧ (∀ r ∈ rs, IsUnbound r) ∧ (∀ i ∈ sq, IsInt64 i)
  | .success md | .failure md => DistinctKeys md
  | .init _ a => DistinctKeys a
  | .run _ ps => DistinctKeys ps
  | _ => True

/-- A value that can exist in a Go program. -/
def Val.Typed : Val → Prop := Val.All Val.TypedHere

/-! ## Floats -/

/-- The real number of a finite IEEE 754 bit pattern with `eb` exponent and `mb` mantissa bits, as
(sign, significand, power of two); `none` for infinities and NaNs. -/
def floatParts (eb mb : Nat) (n : Nat) : Option (Bool × Nat × Int) :=
  let s := n / 2 ^ (eb + mb) % 2 = 1
  let e := n / 2 ^ mb % 2 ^ eb
  let m := n % 2 ^ mb
  let bias : Int := 2 ^ (eb - 1) - 1
  if e = 2 ^ eb - 1 then none
  else if e = 0 then some (s, m, 1 - bias - mb)
  else some (s, m + 2 ^ mb, e - bias - mb)

/-- Same sign and same magnitude `m₁·2^e₁ = m₂·2^e₂`. -/
def SameReal : Bool × Nat × Int → Bool × Nat × Int → Prop
  | (s₁, m₁, e₁), (s₂, m₂, e₂) =>
    s₁ = s₂ ∧ m₁ * 2 ^ (e₁ - min e₁ e₂).toNat = m₂ * 2 ^ (e₂ - min e₁ e₂).toNat

/-- The float64 bit pattern `d` has the same value as the float32 bit pattern `f`: same number, same
infinity, or both NaN with the same sign. -/
def WidensNat (f d : Nat) : Prop :=
  match floatParts 8 23 f, floatParts 11 52 d with
  | some a, some b => SameReal a b
  | none, none => f / 2^31 = d / 2^63 ∧ (f % 2^23 = 0 ↔ d % 2^52 = 0)
  | _, _ => False

/-- `d` is the `float64` with the same value as the `float32` `f`. -/
def Widens (f : UInt32) (d : UInt64) : Prop := WidensNat f.toNat d.toNat

/-! ## Go value to PackStream value -/

mutual
/-- `v` stands for the PackStream value `p`. Slices are lists, maps are maps (in the order the entries
are visited), integers are their mathematical value, graph entities and messages are structures with
the signatures and fields of the Bolt documentation; a value of an unsupported type stands for nothing. -/
def Means : Val → PS → Prop
  | .nil, p => p = .null
  | .bool b, p => p = .bool b
  | .int _ v, p => p = .int v
  | .float32 f, p => ∃ d, Widens f d ∧ p = .float d
  | .float64 d, p => p = .float d
  | .str s, p => p = .str s
  | .list xs, p => ∃ ps, MeansList xs ps ∧ p = .list ps
  | .typedSlice xs, p => ∃ ps, MeansList xs ps ∧ p = .list ps
  | .map kvs, p => ∃ ps, MeansKVs kvs ps ∧ p = .map ps
  | .node id ls props, p =>
    ∃ ps, MeansKVs props ps ∧ p = .struct 0x4E [.int id, .list (ls.map .str), .map ps]
  | .rel id s e t props, p =>
    ∃ ps, MeansKVs props ps ∧ p = .struct 0x52 [.int id, .int s, .int e, .str t, .map ps]
  | .unbound id t props, p =>
    ∃ ps, MeansKVs props ps ∧ p = .struct 0x72 [.int id, .str t, .map ps]
  | .path ns rs sq, p =>
    ∃ nps rps, MeansList ns nps ∧ MeansList rs rps ∧
      p = .struct 0x50 [.list nps, .list rps, .list (sq.map .int)]
  | .record fs, p => ∃ ps, MeansList fs ps ∧ p = .struct 0x71 [.list ps]
  | .success md, p => ∃ ps, MeansKVs md ps ∧ p = .struct 0x70 [.map ps]
  | .failure md, p => ∃ ps, MeansKVs md ps ∧ p = .struct 0x7F [.map ps]
  | .ignored, p => p = .struct 0x7E []
  | .ackFailure, p => p = .struct 0x0E []
  | .discardAll, p => p = .struct 0x2F []
  | .pullAll, p => p = .struct 0x3F []
  | .reset, p => p = .struct 0x0F []
  | .init c a, p => ∃ ps, MeansKVs a ps ∧ p = .struct 0x01 [.str c, .map ps]
  | .run s a, p => ∃ ps, MeansKVs a ps ∧ p = .struct 0x10 [.str s, .map ps]
  | .userStruct sig fs, p =>
    ∃ ps b, MeansList fs ps ∧ (UInt8.toNat b : Int) = sig ∧ p = .struct b ps
  | .other _, _ => False

/-- Element by element. -/
def MeansList : List Val → List PS → Prop
  | [], ps => ps = []
  | x :: xs, ps => ∃ q qs, Means x q ∧ MeansList xs qs ∧ ps = q :: qs

/-- Entry by entry, same keys. -/
def MeansKVs : List (Str × Val) → List (List UInt8 × PS) → Prop
  | [], ps => ps = []
  | (k, v) :: rest, ps => ∃ q qs, Means v q ∧ MeansKVs rest qs ∧ ps = (k, q) :: qs
end

/-! ## PackStream value to Go value -/

/-- Lookup in a list of entries: what `m[key]` returns for a Go map. -/
def get? (kvs : List (Str × α)) (k : Str) : Option α :=
  match kvs with
  | [] => none
  | (k', v) :: rest => if k' = k then some v else get? rest k

/-- Value of the last entry with the given key. -/
def getLast? (kvs : List (Str × α)) (k : Str) : Option α :=
  match kvs with
  | [] => none
  | (k', v) :: rest =>
    match getLast? rest k with
    | some w => some w
    | none => if k' = k then some v else none

/-- The keys, each once, in order of first appearance. -/
def firstKeys : List (Str × α) → List Str
  | [] => []
  | (k, _) :: rest => k :: (firstKeys rest).filter (fun k' => decide (k' ≠ k))

/-- The Go map that holds the last value given for each key. -/
def lastWins (kvs : List (Str × α)) : List (Str × α) :=
  (firstKeys kvs).filterMap fun k => (getLast? kvs k).map fun v => (k, v)

/-- All elements are strings. -/
def allStr : List Val → Option (List Str)
  | [] => some []
  | .str s :: rest => (allStr rest).map (s :: ·)
  | _ => none

/-- All elements are integers. -/
def allInt : List Val → Option (List Int)
  | [] => some []
  | .int .int64 v :: rest => (allInt rest).map (v :: ·)
  | _ => none

/-- All elements are nodes. -/
def allNode : List Val → Bool
  | [] => true
  | .node .. :: rest => allNode rest
  | _ => false

/-- All elements are unbound relationships. -/
def allUnbound : List Val → Bool
  | [] => true
  | .unbound .. :: rest => allUnbound rest
  | _ => false

/-- The Go value for a structure with the given signature and fields; `none` when the signature is not
one a client can receive, or the fields are not those of the signature. -/
def structOf (sig : UInt8) (xs : List Val) : Option Val :=
  if sig = 0x4E then
    match xs with
    | [.int .int64 id, .list ls, .map m] => (allStr ls).map (.node id · m)
    | _ => none
  else if sig = 0x52 then
    match xs with
    | [.int .int64 id, .int .int64 s, .int .int64 e, .str t, .map m] => some (.rel id s e t m)
    | _ => none
  else if sig = 0x72 then
    match xs with
    | [.int .int64 id, .str t, .map m] => some (.unbound id t m)
    | _ => none
  else if sig = 0x50 then
    match xs with
    | [.list ns, .list rs, .list sq] =>
      if allNode ns ∧ allUnbound rs then (allInt sq).map (.path ns rs ·) else none
    | _ => none
  else if sig = 0x71 then
    match xs with
    | [.list fs] => some (.record fs)
    | _ => none
  else if sig = 0x70 then
    match xs with
    | [.map m] => some (.success m)
    | _ => none
  else if sig = 0x7F then
    match xs with
    | [.map m] => some (.failure m)
    | _ => none
  else if xs.isEmpty then
    if sig = 0x7E then some .ignored
    else if sig = 0x0E then some .ackFailure
    else if sig = 0x2F then some .discardAll
    else if sig = 0x3F then some .pullAll
    else if sig = 0x0F then some .reset
    else none
  else none

mutual
/-- How a PackStream value is to be delivered to Go code: integers as `int64`, floats as `float64`,
lists as `[]interface{}`, maps as `map[string]interface{}` holding the last value of a repeated key,
structures by signature. -/
def ofPS : PS → Option Val
  | .null => some .nil
  | .bool b => some (.bool b)
  | .int n => some (.int .int64 n)
  | .float d => some (.float64 d)
  | .str s => some (.str s)
  | .list ps => (ofPSList ps).map .list
  | .map ps => (ofPSKVs ps).map fun kvs => .map (lastWins kvs)
  | .struct sig fs => (ofPSList fs).bind (structOf sig)

/-- Element by element. -/
def ofPSList : List PS → Option (List Val)
  | [] => some []
  | p :: ps => (ofPS p).bind fun v => (ofPSList ps).map (v :: ·)

/-- Entry by entry, same keys. -/
def ofPSKVs : List (List UInt8 × PS) → Option (List (Str × Val))
  | [] => some []
  | (k, p) :: rest => (ofPS p).bind fun v => (ofPSKVs rest).map ((k, v) :: ·)
end

end Bolt
