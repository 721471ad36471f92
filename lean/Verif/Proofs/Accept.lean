import Verif.Proofs.Encode
import Verif.Spec.Supported

/-! Which values the encoder accepts. -/

namespace Bolt
open PackStream

theorem slice_err (n : Nat) : (sliceHeader n).err = none ↔ n < 2^32 := by
  unfold sliceHeader
  have e : (2:Nat)^32 = 4294967296 := by decide
  rw [e]
  repeat' split
  all_goals simp
  all_goals omega

theorem map_err (n : Nat) : (mapHeader n).err = none ↔ n < 2^32 := by
  unfold mapHeader
  have e : (2:Nat)^32 = 4294967296 := by decide
  rw [e]
  repeat' split
  all_goals simp
  all_goals omega

theorem struct_err (n : Nat) (s : Int) : (structHeader n s).err = none ↔ n < 2^16 := by
  unfold structHeader
  have e : (2:Nat)^16 = 65536 := by decide
  rw [e]
  repeat' split
  all_goals simp
  all_goals omega

theorem str_err (s : Str) : (encodeString s).err = none ↔ s.length < 2^32 := by
  unfold encodeString
  have e : (2:Nat)^32 = 4294967296 := by decide
  rw [e]
  dsimp only
  repeat' split
  all_goals simp
  all_goals omega

theorem encodeInt_err {v : Int} (h : IsInt64 v) : (encodeInt v).err = none :=
  (encodeInt_packs (lim := fullRange) h).1

theorem wrap8 (v : Int) : IsInt64 (wrapSigned 8 v) := by
  unfold wrapSigned IsInt64
  have h1 := Int.emod_nonneg v (b := ((256 ^ 8 : Nat) : Int)) (by decide)
  have h2 := Int.emod_lt_of_pos v (b := ((256 ^ 8 : Nat) : Int)) (by decide)
  generalize v % ((256 ^ 8 : Nat) : Int) = m at *
  have e1 : ((256 ^ 8 : Nat) : Int) = 18446744073709551616 := by decide
  have e2 : ((256 ^ 8 / 2 : Nat) : Int) = 9223372036854775808 := by decide
  have e3 : (2 : Int) ^ 63 = 9223372036854775808 := by decide
  simp only [e1, e2, e3] at *
  split <;> omega

theorem intKind_err (k : IntKind) (v : Int) : (encodeIntKind k v).err = none ↔ Val.SupportedHere (.int k v) := by
  have h := encodeInt_err (wrap8 v)
  have e : (2:Int)^63 = 9223372036854775808 := by decide
  unfold encodeIntKind
  cases k <;> simp only [Val.SupportedHere, Val.sizes, h, List.not_mem_nil, false_implies, implies_true]
  rw [e]
  split
  · simp; omega
  · simp [h]; omega

theorem each_err {α : Type} {f : α → Ops} {l : List α} : (encodeEach f l).err = none ↔ ∀ x ∈ l, (f x).err = none := by
  induction l with
  | nil => simp [encodeEach]
  | cons x l ih => simp [encodeEach, ih]

theorem labels_err (ls : List Str) : (encodeEach encodeString ls).err = none ↔ ∀ n ∈ ls.map List.length, n < 2^32 := by
  rw [each_err]; simp [str_err]

theorem seq_err (ls : List Int) : (encodeEach (encodeIntKind .int) ls).err = none := by
  rw [each_err]; intro x _; rw [intKind_err]; simp [Val.SupportedHere, Val.sizes]

theorem int64_err (v : Int) : (encodeIntKind .int64 v).err = none := by
  rw [intKind_err]; simp [Val.SupportedHere, Val.sizes]

mutual
theorem acc : (v : Val) → ((encOps v).err = none ↔ Val.All Val.SupportedHere v)
  | .nil => by simp [encOps, encodeNil, Val.All, Val.SupportedHere, Val.sizes]
  | .bool b => by cases b <;> simp [encOps, encodeBool, Val.All, Val.SupportedHere, Val.sizes]
  | .int k v => by simp only [encOps, Val.All]; exact intKind_err k v
  | .float32 _ => by simp [encOps, encodeFloat, Val.All, Val.SupportedHere, Val.sizes]
  | .float64 _ => by simp [encOps, encodeFloat, Val.All, Val.SupportedHere, Val.sizes]
  | .str s => by simp only [encOps, Val.All, Val.SupportedHere, Val.sizes, str_err]; simp
  | .list xs => by
    have := accList xs
    simp only [encOps, Val.All, Val.SupportedHere, Val.sizes, err_seq, slice_err, this]; simp
  | .typedSlice xs => by
    have := accList xs
    simp only [encOps, Val.All, Val.SupportedHere, Val.sizes, err_seq, slice_err, this]; simp
  | .map kvs => by
    have := accKVs kvs
    simp only [encOps, Val.All, Val.SupportedHere, Val.sizes, err_seq, map_err, this]
    simp [and_assoc]
  | .node id ls ps => by
    have := accKVs ps
    simp only [encOps, Val.All, Val.SupportedHere, Val.sizes, err_seq, err_wrapErr, struct_err, slice_err, map_err,
      labels_err, int64_err, this, List.forall_mem_cons, List.forall_mem_append]
    simp
    constructor
    · intro h; simp_all
    · intro h; simp_all
  | .rel _ _ _ t ps => by
    have := accKVs ps
    simp only [encOps, Val.All, Val.SupportedHere, Val.sizes, err_seq, err_wrapErr, struct_err, slice_err, map_err,
      str_err, int64_err, this, List.forall_mem_cons, List.forall_mem_append]
    simp [and_assoc]
  | .unbound _ t ps => by
    have := accKVs ps
    simp only [encOps, Val.All, Val.SupportedHere, Val.sizes, err_seq, err_wrapErr, struct_err, slice_err, map_err,
      str_err, int64_err, this, List.forall_mem_cons, List.forall_mem_append]
    simp [and_assoc]
  | .path ns rs sq => by
    have h1 := accList ns
    have h2 := accList rs
    simp only [encOps, Val.All, Val.SupportedHere, Val.sizes, err_seq, err_wrapErr, struct_err, slice_err,
      seq_err, h1, h2, List.forall_mem_cons]
    simp
    constructor
    · rintro ⟨⟨h1, h2⟩, ⟨h3, h4⟩, h5⟩; exact ⟨⟨h1, h3, h5⟩, h2, h4⟩
    · rintro ⟨⟨h1, h3, h5⟩, h2, h4⟩; exact ⟨⟨h1, h2⟩, ⟨h3, h4⟩, h5⟩
  | .record xs => by
    have := accList xs
    simp only [encOps, Val.All, Val.SupportedHere, Val.sizes, err_seq, err_wrapErr, struct_err, slice_err, this]; simp
  | .success kvs => by
    have := accKVs kvs
    simp only [encOps, Val.All, Val.SupportedHere, Val.sizes, err_seq, err_wrapErr, struct_err, map_err, this]
    simp [and_assoc]
  | .failure kvs => by
    have := accKVs kvs
    simp only [encOps, Val.All, Val.SupportedHere, Val.sizes, err_seq, err_wrapErr, struct_err, map_err, this]
    simp [and_assoc]
  | .ignored => by simp [encOps, struct_err, Val.All, Val.SupportedHere, Val.sizes]
  | .ackFailure => by simp [encOps, struct_err, Val.All, Val.SupportedHere, Val.sizes]
  | .discardAll => by simp [encOps, struct_err, Val.All, Val.SupportedHere, Val.sizes]
  | .pullAll => by simp [encOps, struct_err, Val.All, Val.SupportedHere, Val.sizes]
  | .reset => by simp [encOps, struct_err, Val.All, Val.SupportedHere, Val.sizes]
  | .init s kvs => by
    have := accKVs kvs
    simp only [encOps, Val.All, Val.SupportedHere, Val.sizes, err_seq, err_wrapErr, struct_err, map_err, str_err, this]
    simp [and_assoc]
  | .run s kvs => by
    have := accKVs kvs
    simp only [encOps, Val.All, Val.SupportedHere, Val.sizes, err_seq, err_wrapErr, struct_err, map_err, str_err, this]
    simp [and_assoc]
  | .userStruct sig fs => by
    have := accFields fs
    simp only [encOps, Val.All, Val.SupportedHere, err_seq, struct_err, this]
  | .other _ => by simp [encOps, Val.All, Val.SupportedHere]

theorem accList : (xs : List Val) → ((encList xs).err = none ↔ Val.AllList Val.SupportedHere xs)
  | [] => by simp [encList, Val.AllList]
  | x :: xs => by simp [encList, Val.AllList, acc x, accList xs]

theorem accFields : (xs : List Val) → ((encFields xs).err = none ↔ Val.AllList Val.SupportedHere xs)
  | [] => by simp [encFields, Val.AllList]
  | x :: xs => by simp [encFields, Val.AllList, acc x, accFields xs]

theorem accKVs : (xs : List (Str × Val)) →
    ((encKVs xs).err = none ↔ (∀ n ∈ keySizes xs, n < 2^32) ∧ Val.AllKVs Val.SupportedHere xs)
  | [] => by simp [encKVs, Val.AllKVs, keySizes]
  | (k, x) :: xs => by
    simp only [encKVs, Val.AllKVs, err_seq, acc x, accKVs xs, str_err, keySizes, List.map_cons, List.forall_mem_cons]
    constructor
    · rintro ⟨h1, h2, h3, h4⟩; exact ⟨⟨h1, h3⟩, h2, h4⟩
    · rintro ⟨⟨h1, h3⟩, h2, h4⟩; exact ⟨h1, h2, h3, h4⟩
end

end Bolt
