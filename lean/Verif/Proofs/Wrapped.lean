import Verif.Spec.Wrapped
import Verif.Proofs.EncodeMin
import Verif.Proofs.EncodeMain

/-! # A value and what is sent instead of it (auxiliary lemmas for C01, C02, C05) -/

namespace Bolt
open PackStream

theorem wrappedList_eq (xs : List Val) : Val.wrappedList xs = xs.map Val.wrapped := by
  induction xs with
  | nil => rfl
  | cons x xs ih => simp only [Val.wrappedList, List.map_cons, ih]

theorem wrappedKVs_eq (xs : KVs) : Val.wrappedKVs xs = xs.map fun x => (x.1, x.2.wrapped) := by
  induction xs with
  | nil => rfl
  | cons x xs ih => obtain ⟨k, v⟩ := x; simp only [Val.wrappedKVs, List.map_cons, ih]

theorem wrappedList_length (xs : List Val) : (Val.wrappedList xs).length = xs.length := by rw [wrappedList_eq, List.length_map]
theorem wrappedKVs_length (xs : KVs) : (Val.wrappedKVs xs).length = xs.length := by rw [wrappedKVs_eq, List.length_map]
theorem wrappedKVs_keys (xs : KVs) : (Val.wrappedKVs xs).map Prod.fst = xs.map Prod.fst := by
  rw [wrappedKVs_eq, List.map_map]; rfl

theorem structHeader_mod (n : Nat) (sig : _root_.Int) : structHeader n (sig % 256) = structHeader n sig := by
  unfold structHeader beSigned
  have : sig % 256 % ((256 ^ 1 : Nat) : _root_.Int) = sig % ((256 ^ 1 : Nat) : _root_.Int) := by
    simp only [Nat.pow_one]; omega
  rw [this]

mutual
/-- Both have the same encoding, to the error. -/
theorem enc_wrapped : (v : Val) → encOps v.wrapped = encOps v
  | .int .uint n => by
    simp only [Val.wrapped]
    split
    · rfl
    · have : wrapSigned 8 (n - 2^64) = wrapSigned 8 n := by unfold wrapSigned; simp only; omega
      simp only [encOps, encodeIntKind, this]
  | .int .int _ | .int .int8 _ | .int .int16 _ | .int .int32 _ | .int .int64 _
  | .int .uint8 _ | .int .uint16 _ | .int .uint32 _ | .int .uint64 _ => rfl
  | .list xs => by simp only [Val.wrapped, encOps, wrappedList_length, encList_wrapped xs]
  | .typedSlice xs => by simp only [Val.wrapped, encOps, wrappedList_length, encList_wrapped xs]
  | .record xs => by simp only [Val.wrapped, encOps, wrappedList_length, encList_wrapped xs]
  | .userStruct sig xs => by
    simp only [Val.wrapped, encOps, wrappedList_length, encFields_wrapped xs, structHeader_mod]
  | .path ns rs sq => by
    simp only [Val.wrapped, encOps, wrappedList_length, encList_wrapped ns, encList_wrapped rs]
  | .map kvs => by simp only [Val.wrapped, encOps, wrappedKVs_length, encKVs_wrapped kvs]
  | .node _ _ kvs => by simp only [Val.wrapped, encOps, wrappedKVs_length, encKVs_wrapped kvs]
  | .rel _ _ _ _ kvs => by simp only [Val.wrapped, encOps, wrappedKVs_length, encKVs_wrapped kvs]
  | .unbound _ _ kvs => by simp only [Val.wrapped, encOps, wrappedKVs_length, encKVs_wrapped kvs]
  | .success kvs => by simp only [Val.wrapped, encOps, wrappedKVs_length, encKVs_wrapped kvs]
  | .failure kvs => by simp only [Val.wrapped, encOps, wrappedKVs_length, encKVs_wrapped kvs]
  | .init _ kvs => by simp only [Val.wrapped, encOps, wrappedKVs_length, encKVs_wrapped kvs]
  | .run _ kvs => by simp only [Val.wrapped, encOps, wrappedKVs_length, encKVs_wrapped kvs]
  | .nil | .bool _ | .float32 _ | .float64 _ | .str _ | .ignored | .ackFailure | .discardAll | .pullAll
  | .reset | .other _ => rfl

theorem encList_wrapped : (xs : List Val) → encList (Val.wrappedList xs) = encList xs
  | [] => rfl
  | x :: xs => by simp only [Val.wrappedList, encList, enc_wrapped x, encList_wrapped xs]

theorem encFields_wrapped : (xs : List Val) → encFields (Val.wrappedList xs) = encFields xs
  | [] => rfl
  | x :: xs => by simp only [Val.wrappedList, encFields, enc_wrapped x, encFields_wrapped xs]

theorem encKVs_wrapped : (xs : List (Str × Val)) → encKVs (Val.wrappedKVs xs) = encKVs xs
  | [] => rfl
  | (k, x) :: xs => by simp only [Val.wrappedKVs, encKVs, enc_wrapped x, encKVs_wrapped xs]
end

/-- Typed and clean, at one level. -/
def Sent (v : Val) : Prop := v.TypedHere ∧ v.CleanHere

theorem isNode_wrapped {ns : List Val} (h : ∀ n ∈ ns, IsNode n) : ∀ n ∈ Val.wrappedList ns, IsNode n := by
  rw [wrappedList_eq]
  intro n hn
  obtain ⟨m, hm, rfl⟩ := List.mem_map.mp hn
  have := h m hm
  cases m <;> simp only [IsNode] at this
  simp [Val.wrapped, IsNode]

theorem isUnbound_wrapped {ns : List Val} (h : ∀ n ∈ ns, IsUnbound n) : ∀ n ∈ Val.wrappedList ns, IsUnbound n := by
  rw [wrappedList_eq]
  intro n hn
  obtain ⟨m, hm, rfl⟩ := List.mem_map.mp hn
  have := h m hm
  cases m <;> simp only [IsUnbound] at this
  simp [Val.wrapped, IsUnbound]

theorem distinct_wrapped {kvs : KVs} (h : DistinctKeys kvs) : DistinctKeys (Val.wrappedKVs kvs) := by
  unfold DistinctKeys at *; rw [wrappedKVs_keys]; exact h

mutual
theorem wrapped_sent : (v : Val) → v.Typed → Val.All Sent v.wrapped
  | .int k n, h => by
    simp only [Val.Typed, Val.All, Val.TypedHere] at h
    cases k
    case uint =>
      simp only [Val.wrapped]
      simp only [IntKind.InRange] at h
      split
      · simp only [Val.All, Sent, Val.TypedHere, Val.CleanHere, IntKind.InRange]; omega
      · simp only [Val.All, Sent, Val.TypedHere, Val.CleanHere, IntKind.InRange, and_true]; omega
    all_goals simpa only [Val.wrapped, Val.All, Sent, Val.TypedHere, Val.CleanHere, and_true] using h
  | .list xs, h => by
    simp only [Val.Typed, Val.All] at h
    simp only [Val.wrapped, Val.All]; exact ⟨⟨trivial, trivial⟩, wrappedList_sent xs h.2⟩
  | .typedSlice xs, h => by
    simp only [Val.Typed, Val.All] at h
    simp only [Val.wrapped, Val.All]; exact ⟨⟨trivial, trivial⟩, wrappedList_sent xs h.2⟩
  | .record xs, h => by
    simp only [Val.Typed, Val.All] at h
    simp only [Val.wrapped, Val.All]; exact ⟨⟨trivial, trivial⟩, wrappedList_sent xs h.2⟩
  | .userStruct sig xs, h => by
    simp only [Val.Typed, Val.All] at h
    simp only [Val.wrapped, Val.All]
    exact ⟨⟨trivial, by simp only [Val.CleanHere]; omega⟩, wrappedList_sent xs h.2⟩
  | .path ns rs sq, h => by
    simp only [Val.Typed, Val.All, Val.TypedHere] at h
    simp only [Val.wrapped, Val.All]
    exact ⟨⟨⟨isNode_wrapped h.1.1, isUnbound_wrapped h.1.2.1, h.1.2.2⟩, trivial⟩, wrappedList_sent ns h.2.1,
      wrappedList_sent rs h.2.2⟩
  | .map kvs, h => by
    simp only [Val.Typed, Val.All, Val.TypedHere] at h
    simp only [Val.wrapped, Val.All]; exact ⟨⟨distinct_wrapped h.1, trivial⟩, wrappedKVs_sent kvs h.2⟩
  | .node _ _ kvs, h => by
    simp only [Val.Typed, Val.All, Val.TypedHere] at h
    simp only [Val.wrapped, Val.All]; exact ⟨⟨⟨h.1.1, distinct_wrapped h.1.2⟩, trivial⟩, wrappedKVs_sent kvs h.2⟩
  | .rel _ _ _ _ kvs, h => by
    simp only [Val.Typed, Val.All, Val.TypedHere] at h
    simp only [Val.wrapped, Val.All]
    exact ⟨⟨⟨h.1.1, h.1.2.1, h.1.2.2.1, distinct_wrapped h.1.2.2.2⟩, trivial⟩, wrappedKVs_sent kvs h.2⟩
  | .unbound _ _ kvs, h => by
    simp only [Val.Typed, Val.All, Val.TypedHere] at h
    simp only [Val.wrapped, Val.All]; exact ⟨⟨⟨h.1.1, distinct_wrapped h.1.2⟩, trivial⟩, wrappedKVs_sent kvs h.2⟩
  | .success kvs, h => by
    simp only [Val.Typed, Val.All, Val.TypedHere] at h
    simp only [Val.wrapped, Val.All]; exact ⟨⟨distinct_wrapped h.1, trivial⟩, wrappedKVs_sent kvs h.2⟩
  | .failure kvs, h => by
    simp only [Val.Typed, Val.All, Val.TypedHere] at h
    simp only [Val.wrapped, Val.All]; exact ⟨⟨distinct_wrapped h.1, trivial⟩, wrappedKVs_sent kvs h.2⟩
  | .init _ kvs, h => by
    simp only [Val.Typed, Val.All, Val.TypedHere] at h
    simp only [Val.wrapped, Val.All]; exact ⟨⟨distinct_wrapped h.1, trivial⟩, wrappedKVs_sent kvs h.2⟩
  | .run _ kvs, h => by
    simp only [Val.Typed, Val.All, Val.TypedHere] at h
    simp only [Val.wrapped, Val.All]; exact ⟨⟨distinct_wrapped h.1, trivial⟩, wrappedKVs_sent kvs h.2⟩
  | .nil, _ | .bool _, _ | .float32 _, _ | .float64 _, _ | .str _, _ | .ignored, _ | .ackFailure, _
  | .discardAll, _ | .pullAll, _ | .reset, _ | .other _, _ => ⟨trivial, trivial⟩

theorem wrappedList_sent : (xs : List Val) → Val.AllList Val.TypedHere xs → Val.AllList Sent (Val.wrappedList xs)
  | [], _ => trivial
  | x :: xs, h => by
    simp only [Val.AllList] at h
    simp only [Val.wrappedList, Val.AllList]
    exact ⟨wrapped_sent x h.1, wrappedList_sent xs h.2⟩

theorem wrappedKVs_sent : (xs : List (Str × Val)) → Val.AllKVs Val.TypedHere xs → Val.AllKVs Sent (Val.wrappedKVs xs)
  | [], _ => trivial
  | (_, x) :: xs, h => by
    simp only [Val.AllKVs] at h
    simp only [Val.wrappedKVs, Val.AllKVs]
    exact ⟨wrapped_sent x h.1, wrappedKVs_sent xs h.2⟩
end

mutual
/-- Nothing is replaced if and only if the value is clean. -/
theorem wrapped_eq_iff : (v : Val) → (v.wrapped = v ↔ v.Clean)
  | .int k n => by
    cases k
    case uint =>
      simp only [Val.wrapped, Val.Clean, Val.All, Val.CleanHere]
      split
      · simpa using by assumption
      · simp; omega
    all_goals simp [Val.wrapped, Val.Clean, Val.All, Val.CleanHere]
  | .list xs => by
    simp only [Val.wrapped, Val.Clean, Val.All, Val.CleanHere, Val.list.injEq, true_and]; exact wrappedList_eq_iff xs
  | .typedSlice xs => by
    simp only [Val.wrapped, Val.Clean, Val.All, Val.CleanHere, Val.typedSlice.injEq, true_and]; exact wrappedList_eq_iff xs
  | .record xs => by
    simp only [Val.wrapped, Val.Clean, Val.All, Val.CleanHere, Val.record.injEq, true_and]; exact wrappedList_eq_iff xs
  | .userStruct sig xs => by
    simp only [Val.wrapped, Val.Clean, Val.All, Val.CleanHere, Val.userStruct.injEq]
    rw [wrappedList_eq_iff xs]
    exact and_congr (by omega) Iff.rfl
  | .path ns rs sq => by
    simp only [Val.wrapped, Val.Clean, Val.All, Val.CleanHere, Val.path.injEq, true_and, and_true]
    rw [wrappedList_eq_iff ns, wrappedList_eq_iff rs]
  | .map kvs => by
    simp only [Val.wrapped, Val.Clean, Val.All, Val.CleanHere, Val.map.injEq, true_and]; exact wrappedKVs_eq_iff kvs
  | .node _ _ kvs => by
    simp only [Val.wrapped, Val.Clean, Val.All, Val.CleanHere, Val.node.injEq, true_and]; exact wrappedKVs_eq_iff kvs
  | .rel _ _ _ _ kvs => by
    simp only [Val.wrapped, Val.Clean, Val.All, Val.CleanHere, Val.rel.injEq, true_and]; exact wrappedKVs_eq_iff kvs
  | .unbound _ _ kvs => by
    simp only [Val.wrapped, Val.Clean, Val.All, Val.CleanHere, Val.unbound.injEq, true_and]; exact wrappedKVs_eq_iff kvs
  | .success kvs => by
    simp only [Val.wrapped, Val.Clean, Val.All, Val.CleanHere, Val.success.injEq, true_and]; exact wrappedKVs_eq_iff kvs
  | .failure kvs => by
    simp only [Val.wrapped, Val.Clean, Val.All, Val.CleanHere, Val.failure.injEq, true_and]; exact wrappedKVs_eq_iff kvs
  | .init _ kvs => by
    simp only [Val.wrapped, Val.Clean, Val.All, Val.CleanHere, Val.init.injEq, true_and]; exact wrappedKVs_eq_iff kvs
  | .run _ kvs => by
    simp only [Val.wrapped, Val.Clean, Val.All, Val.CleanHere, Val.run.injEq, true_and]; exact wrappedKVs_eq_iff kvs
  | .nil | .bool _ | .float32 _ | .float64 _ | .str _ | .ignored | .ackFailure
  | .discardAll | .pullAll | .reset | .other _ => ⟨fun _ => trivial, fun _ => rfl⟩

theorem wrappedList_eq_iff : (xs : List Val) → (Val.wrappedList xs = xs ↔ Val.AllList Val.CleanHere xs)
  | [] => ⟨fun _ => trivial, fun _ => rfl⟩
  | x :: xs => by
    simp only [Val.wrappedList, Val.AllList, List.cons.injEq]
    rw [wrapped_eq_iff x, wrappedList_eq_iff xs]; rfl

theorem wrappedKVs_eq_iff : (xs : List (Str × Val)) → (Val.wrappedKVs xs = xs ↔ Val.AllKVs Val.CleanHere xs)
  | [] => ⟨fun _ => trivial, fun _ => rfl⟩
  | (_, x) :: xs => by
    simp only [Val.wrappedKVs, Val.AllKVs, List.cons.injEq, Prod.mk.injEq, true_and]
    rw [wrapped_eq_iff x, wrappedKVs_eq_iff xs]; rfl
end

/-! ## What has an encoding is clean -/

theorem int64_of_packs {lim : Nat → Nat} {v : _root_.Int} {bs : Bytes} (h : Packs lim (.int v) bs) : IsInt64 v := by
  simp only [Packs, Signed] at h
  unfold IsInt64
  rcases h with ⟨_, _, _, _⟩ | ⟨_, _, _, _⟩ | ⟨_, _, _, _⟩ | ⟨_, _, _, _⟩ | ⟨_, _, _, _⟩ <;> omega

theorem packs_list_body {lim : Nat → Nat} {ps : List PS} {bs : Bytes} (h : Packs lim (.list ps) bs) : ∃ b, PacksList lim ps b := by
  simp only [Packs] at h; obtain ⟨_, b, _, h, _⟩ := h; exact ⟨b, h⟩

theorem packs_map_body {lim : Nat → Nat} {ps : List (Bytes × PS)} {bs : Bytes} (h : Packs lim (.map ps) bs) : ∃ b, PacksKVs lim ps b := by
  simp only [Packs] at h; obtain ⟨_, b, _, h, _⟩ := h; exact ⟨b, h⟩

theorem packs_struct_field {lim : Nat → Nat} {sig : UInt8} {ps : List PS} {bs : Bytes} (h : Packs lim (.struct sig ps) bs)
    {p : PS} (hp : p ∈ ps) : ∃ b, Packs lim p b := by
  simp only [Packs] at h
  obtain ⟨_, b, hh, h, e⟩ := h
  clear e hh
  induction ps generalizing b with
  | nil => cases hp
  | cons q qs ih =>
    simp only [PacksList] at h
    obtain ⟨x, y, h1, h2, _⟩ := h
    rcases List.mem_cons.mp hp with rfl | hp
    · exact ⟨x, h1⟩
    · exact ih hp y h2

theorem packs_field_map {lim : Nat → Nat} {sig : UInt8} {ps : List PS} {bs : Bytes} (h : Packs lim (.struct sig ps) bs)
    {m : List (Bytes × PS)} (hp : .map m ∈ ps) : ∃ b, PacksKVs lim m b := by
  obtain ⟨b, h⟩ := packs_struct_field h hp; exact packs_map_body h

theorem packs_field_list {lim : Nat → Nat} {sig : UInt8} {ps : List PS} {bs : Bytes} (h : Packs lim (.struct sig ps) bs)
    {m : List PS} (hp : .list m ∈ ps) : ∃ b, PacksList lim m b := by
  obtain ⟨b, h⟩ := packs_struct_field h hp; exact packs_list_body h

mutual
theorem clean_of_packs {lim : Nat → Nat} : (v : Val) → (p : PS) → (bs : Bytes) → Means v p → Packs lim p bs → v.Clean
  | .int k n, p, bs, hm, hp => by
    simp only [Means] at hm; subst hm
    have := int64_of_packs hp
    unfold IsInt64 at this
    cases k <;> simp only [Val.Clean, Val.All, Val.CleanHere]
    exact this.2
  | .list xs, p, bs, hm, hp => by
    simp only [Means] at hm; obtain ⟨ps, hm, rfl⟩ := hm
    obtain ⟨b, hp⟩ := packs_list_body hp
    exact ⟨trivial, cleanList_of_packs xs ps b hm hp⟩
  | .typedSlice xs, p, bs, hm, hp => by
    simp only [Means] at hm; obtain ⟨ps, hm, rfl⟩ := hm
    obtain ⟨b, hp⟩ := packs_list_body hp
    exact ⟨trivial, cleanList_of_packs xs ps b hm hp⟩
  | .record xs, p, bs, hm, hp => by
    simp only [Means] at hm; obtain ⟨ps, hm, rfl⟩ := hm
    obtain ⟨b, hp⟩ := packs_field_list hp (m := ps) (by simp)
    exact ⟨trivial, cleanList_of_packs xs ps b hm hp⟩
  | .userStruct sig xs, p, bs, hm, hp => by
    simp only [Means] at hm; obtain ⟨ps, c, hm, hs, rfl⟩ := hm
    simp only [Packs] at hp; obtain ⟨_, b, _, hp, _⟩ := hp
    refine ⟨?_, cleanList_of_packs xs ps b hm hp⟩
    simp only [Val.CleanHere]
    have := c.toNat_lt
    omega
  | .path ns rs sq, p, bs, hm, hp => by
    simp only [Means] at hm; obtain ⟨ps, qs, hm, hm', rfl⟩ := hm
    obtain ⟨b, h1⟩ := packs_field_list hp (m := ps) (by simp)
    obtain ⟨c, h2⟩ := packs_field_list hp (m := qs) (by simp)
    exact ⟨trivial, cleanList_of_packs ns ps b hm h1, cleanList_of_packs rs qs c hm' h2⟩
  | .map kvs, p, bs, hm, hp => by
    simp only [Means] at hm; obtain ⟨ps, hm, rfl⟩ := hm
    obtain ⟨b, hp⟩ := packs_map_body hp
    exact ⟨trivial, cleanKVs_of_packs kvs ps b hm hp⟩
  | .node _ _ kvs, p, bs, hm, hp => by
    simp only [Means] at hm; obtain ⟨ps, hm, rfl⟩ := hm
    obtain ⟨b, hp⟩ := packs_field_map hp (m := ps) (by simp)
    exact ⟨trivial, cleanKVs_of_packs kvs ps b hm hp⟩
  | .rel _ _ _ _ kvs, p, bs, hm, hp => by
    simp only [Means] at hm; obtain ⟨ps, hm, rfl⟩ := hm
    obtain ⟨b, hp⟩ := packs_field_map hp (m := ps) (by simp)
    exact ⟨trivial, cleanKVs_of_packs kvs ps b hm hp⟩
  | .unbound _ _ kvs, p, bs, hm, hp => by
    simp only [Means] at hm; obtain ⟨ps, hm, rfl⟩ := hm
    obtain ⟨b, hp⟩ := packs_field_map hp (m := ps) (by simp)
    exact ⟨trivial, cleanKVs_of_packs kvs ps b hm hp⟩
  | .success kvs, p, bs, hm, hp => by
    simp only [Means] at hm; obtain ⟨ps, hm, rfl⟩ := hm
    obtain ⟨b, hp⟩ := packs_field_map hp (m := ps) (by simp)
    exact ⟨trivial, cleanKVs_of_packs kvs ps b hm hp⟩
  | .failure kvs, p, bs, hm, hp => by
    simp only [Means] at hm; obtain ⟨ps, hm, rfl⟩ := hm
    obtain ⟨b, hp⟩ := packs_field_map hp (m := ps) (by simp)
    exact ⟨trivial, cleanKVs_of_packs kvs ps b hm hp⟩
  | .init _ kvs, p, bs, hm, hp => by
    simp only [Means] at hm; obtain ⟨ps, hm, rfl⟩ := hm
    obtain ⟨b, hp⟩ := packs_field_map hp (m := ps) (by simp)
    exact ⟨trivial, cleanKVs_of_packs kvs ps b hm hp⟩
  | .run _ kvs, p, bs, hm, hp => by
    simp only [Means] at hm; obtain ⟨ps, hm, rfl⟩ := hm
    obtain ⟨b, hp⟩ := packs_field_map hp (m := ps) (by simp)
    exact ⟨trivial, cleanKVs_of_packs kvs ps b hm hp⟩
  | .nil, _, _, _, _ | .bool _, _, _, _, _ | .float32 _, _, _, _, _ | .float64 _, _, _, _, _ | .str _, _, _, _, _
  | .ignored, _, _, _, _ | .ackFailure, _, _, _, _ | .discardAll, _, _, _, _ | .pullAll, _, _, _, _
  | .reset, _, _, _, _ | .other _, _, _, _, _ => trivial

theorem cleanList_of_packs {lim : Nat → Nat} : (xs : List Val) → (ps : List PS) → (bs : Bytes) → MeansList xs ps →
    PacksList lim ps bs → Val.AllList Val.CleanHere xs
  | [], _, _, _, _ => trivial
  | x :: xs, ps, bs, hm, hp => by
    simp only [MeansList] at hm; obtain ⟨q, qs, h1, h2, rfl⟩ := hm
    simp only [PacksList] at hp; obtain ⟨a, b, h3, h4, _⟩ := hp
    exact ⟨clean_of_packs x q a h1 h3, cleanList_of_packs xs qs b h2 h4⟩

theorem cleanKVs_of_packs {lim : Nat → Nat} : (xs : List (Str × Val)) → (ps : List (Bytes × PS)) → (bs : Bytes) →
    MeansKVs xs ps → PacksKVs lim ps bs → Val.AllKVs Val.CleanHere xs
  | [], _, _, _, _ => trivial
  | (_, x) :: xs, ps, bs, hm, hp => by
    simp only [MeansKVs] at hm; obtain ⟨q, qs, h1, h2, rfl⟩ := hm
    simp only [PacksKVs] at hp; obtain ⟨_, a, b, _, h3, h4, _⟩ := hp
    exact ⟨clean_of_packs x q a h1 h3, cleanKVs_of_packs xs qs b h2 h4⟩
end

end Bolt
