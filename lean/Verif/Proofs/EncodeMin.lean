import Verif.Proofs.Encode

/-! Whatever has a PackStream encoding is accepted by the encoder, and no encoding is shorter. -/

namespace Bolt
open PackStream

theorem marker_width {k : Kind} {w : Nat} {m : UInt8} (h : k.marker w = some m) :
    w = 1 ∨ w = 2 ∨ (w = 4 ∧ k ≠ .struct) := by
  unfold Kind.marker at h
  split at h <;> simp_all

theorem hdr_cases {lim : Nat → Nat} {k : Kind} {n : Nat} {h : Bytes} (hh : Hdr lim k n h) :
    (n < 16 ∧ h.length = 1) ∨ (n < 256 ∧ h.length = 2) ∨ (n < 65536 ∧ h.length = 3) ∨
    (n < 4294967296 ∧ h.length = 5 ∧ k ≠ .struct) := by
  rcases hh with ⟨h1, rfl⟩ | ⟨w, m, bs, h1, ⟨h2, h3⟩, _, rfl⟩
  · exact .inl ⟨h1, rfl⟩
  · have hlt := ofBytes_lt bs
    rw [h3, h2] at hlt
    rcases marker_width h1 with rfl | rfl | ⟨rfl, hk⟩ <;> simp only [List.length_cons, h2]
    · exact .inr (.inl ⟨hlt, trivial⟩)
    · exact .inr (.inr (.inl ⟨hlt, trivial⟩))
    · exact .inr (.inr (.inr ⟨hlt, trivial, hk⟩))

theorem sliceHeader_min {lim : Nat → Nat} {n : Nat} {h : Bytes} (hh : Hdr lim .list n h) :
    (sliceHeader n).err = none ∧ (sliceHeader n).bytes.length ≤ h.length := by
  have := hdr_cases hh
  unfold sliceHeader
  repeat' split
  all_goals first | omega | (refine ⟨by simp, ?_⟩; simp; omega)

theorem mapHeader_min {lim : Nat → Nat} {n : Nat} {h : Bytes} (hh : Hdr lim .map n h) :
    (mapHeader n).err = none ∧ (mapHeader n).bytes.length ≤ h.length := by
  have := hdr_cases hh
  unfold mapHeader
  repeat' split
  all_goals first | omega | (refine ⟨by simp, ?_⟩; simp; omega)

theorem structHeader_min {lim : Nat → Nat} {n : Nat} {h : Bytes} (sig : Int) (hh : Hdr lim .struct n h) :
    (structHeader n sig).err = none ∧ (structHeader n sig).bytes.length ≤ h.length + 1 := by
  have := hdr_cases hh
  simp only [ne_eq, not_true_eq_false, and_false, or_false] at this
  unfold structHeader
  repeat' split
  all_goals first | omega | (refine ⟨by simp, ?_⟩; simp [beSigned]; omega)

theorem encodeString_min {lim : Nat → Nat} {s : Str} {h : Bytes} (hh : Hdr lim .str s.length h) :
    (encodeString s).err = none ∧ (encodeString s).bytes.length ≤ h.length + s.length := by
  have := hdr_cases hh
  unfold encodeString
  dsimp only
  repeat' split
  all_goals first | omega | (refine ⟨by simp, ?_⟩; simp; omega)

theorem encodeIntKind_min {lim : Nat → Nat} {k : IntKind} {v : Int} {bs : Bytes}
    (h : Packs lim (.int v) bs) :
    (encodeIntKind k v).err = none ∧ (encodeIntKind k v).bytes.length ≤ bs.length := by
  simp only [Packs, Signed] at h
  have hv : IsInt64 v := by
    unfold IsInt64
    rcases h with ⟨_, _, _, _⟩ | ⟨_, _, _, _⟩ | ⟨_, _, _, _⟩ | ⟨_, _, _, _⟩ | ⟨_, _, _, _⟩ <;> omega
  rw [encodeIntKind_int64 hv]
  refine ⟨(encodeInt_packs (lim := lim) hv).1, ?_⟩
  unfold IsInt64 at hv
  have hlen : (bs.length = 1 ∧ -16 ≤ v ∧ v < 128) ∨ (bs.length = 2 ∧ -128 ≤ v ∧ v < 128) ∨
      (bs.length = 3 ∧ -32768 ≤ v ∧ v < 32768) ∨ (bs.length = 5 ∧ -2147483648 ≤ v ∧ v < 2147483648) ∨
      bs.length = 9 := by
    rcases h with ⟨_, _, h, _⟩ | ⟨_, rfl, h⟩ | ⟨_, rfl, h⟩ | ⟨_, rfl, h⟩ | ⟨_, rfl, h⟩ <;>
      (try simp only [List.length_cons]) <;> omega
  unfold encodeInt
  repeat' split
  all_goals first | (simp [beSigned]; omega) | omega

/-- The encoder accepts and is no longer than `bs`. -/
def MinOK (o : Ops) (bs : Bytes) : Prop := o.err = none ∧ o.bytes.length ≤ bs.length

theorem minOK_seq {a b : Ops} {x y : Bytes} (ha : MinOK a x) (hb : MinOK b y) :
    MinOK (a.seq b) (x ++ y) := by
  refine ⟨by simp [ha.1, hb.1], ?_⟩
  rw [bytes_seq ha.1]
  simp only [List.length_append]
  exact Nat.add_le_add ha.2 hb.2

theorem minOK_wrap {a : Ops} {x : Bytes} {m : String} (ha : MinOK a x) : MinOK (a.wrapErr m) x :=
  ⟨by simp [ha.1], by simpa using ha.2⟩

theorem minOK_list {lim : Nat → Nat} {n : Nat} {o : Ops} {ps : List PS} {bs : Bytes}
    (hn : ps.length = n) (hp : Packs lim (.list ps) bs) (ho : ∀ b, PacksList lim ps b → MinOK o b) :
    MinOK ((sliceHeader n).seq o) bs := by
  simp only [Packs, hn] at hp
  obtain ⟨h, body, h1, h2, rfl⟩ := hp
  exact minOK_seq (sliceHeader_min h1) (ho _ h2)

theorem minOK_map {lim : Nat → Nat} {n : Nat} {o : Ops} {ps : List (Bytes × PS)} {bs : Bytes}
    (hn : ps.length = n) (hp : Packs lim (.map ps) bs) (ho : ∀ b, PacksKVs lim ps b → MinOK o b) :
    MinOK ((mapHeader n).seq o) bs := by
  simp only [Packs, hn] at hp
  obtain ⟨h, body, h1, h2, rfl⟩ := hp
  exact minOK_seq (mapHeader_min h1) (ho _ h2)

theorem minOK_struct {lim : Nat → Nat} {n : Nat} {sig : Int} {b : UInt8} {o : Ops} {ps : List PS}
    {bs : Bytes} (hn : ps.length = n) (hp : Packs lim (.struct b ps) bs)
    (ho : ∀ b, PacksList lim ps b → MinOK o b) : MinOK ((structHeader n sig).seq o) bs := by
  simp only [Packs, hn] at hp
  obtain ⟨h, body, h1, h2, rfl⟩ := hp
  have := minOK_seq (x := h ++ [b]) (a := structHeader n sig)
    ⟨(structHeader_min sig h1).1, by simpa using (structHeader_min sig h1).2⟩ (ho _ h2)
  simpa using this

theorem minOK_str {lim : Nat → Nat} {s : Str} {bs : Bytes} (hp : Packs lim (.str s) bs) :
    MinOK (encodeString s) bs := by
  simp only [Packs] at hp
  obtain ⟨h, h1, rfl⟩ := hp
  simpa [MinOK] using encodeString_min h1

theorem minOK_cons {lim : Nat → Nat} {a b : Ops} {x : PS} {xs : List PS} {bs : Bytes}
    (hp : PacksList lim (x :: xs) bs) (ha : ∀ c, Packs lim x c → MinOK a c)
    (hb : ∀ c, PacksList lim xs c → MinOK b c) : MinOK (a.seq b) bs := by
  simp only [PacksList] at hp
  obtain ⟨c, d, h1, h2, rfl⟩ := hp
  exact minOK_seq (ha _ h1) (hb _ h2)

theorem minOK_one {lim : Nat → Nat} {a : Ops} {x : PS} {bs : Bytes}
    (hp : PacksList lim [x] bs) (ha : ∀ c, Packs lim x c → MinOK a c) : MinOK a bs := by
  simp only [PacksList] at hp
  obtain ⟨c, d, h1, rfl, rfl⟩ := hp
  simpa using ha _ h1

theorem minOK_labels {lim : Nat → Nat} (ls : List Str) {bs : Bytes}
    (hp : PacksList lim (ls.map .str) bs) : MinOK (encodeEach encodeString ls) bs := by
  induction ls generalizing bs with
  | nil =>
    simp only [List.map_nil, PacksList] at hp
    subst hp; simp [encodeEach, MinOK]
  | cons l ls ih => exact minOK_cons hp (fun _ h => minOK_str h) (fun _ h => ih h)

theorem minOK_ints {lim : Nat → Nat} (sq : List Int) {bs : Bytes}
    (hp : PacksList lim (sq.map .int) bs) : MinOK (encodeEach (encodeIntKind .int) sq) bs := by
  induction sq generalizing bs with
  | nil =>
    simp only [List.map_nil, PacksList] at hp
    subst hp; simp [encodeEach, MinOK]
  | cons l ls ih => exact minOK_cons hp (fun _ h => encodeIntKind_min h) (fun _ h => ih h)

theorem minOK_float {lim : Nat → Nat} {d d' : UInt64} {bs : Bytes} (hp : Packs lim (.float d) bs) :
    MinOK (encodeFloat d') bs := by
  simp only [Packs, Unsigned] at hp
  obtain ⟨r, rfl, h, _⟩ := hp
  simp [MinOK, encodeFloat, h]

theorem minOK_bare {lim : Nat → Nat} {b : UInt8} {sig : Int} {bs : Bytes}
    (hp : Packs lim (.struct b []) bs) : MinOK (structHeader 0 sig) bs := by
  rw [← seq_done (structHeader 0 sig)]
  exact minOK_struct rfl hp fun c hc => by
    simp only [PacksList] at hc
    subst hc; simp [MinOK]

mutual
theorem enc_min {lim : Nat → Nat} : (v : Val) → (p : PS) → (bs : Bytes) → Means v p → Packs lim p bs →
    MinOK (encOps v) bs
  | .nil, p, bs, hm, hp => by
    simp only [Means] at hm; subst hm; simp only [Packs] at hp; subst hp
    simp [MinOK, encOps, encodeNil]
  | .bool b, p, bs, hm, hp => by
    simp only [Means] at hm; subst hm; simp only [Packs] at hp; subst hp
    cases b <;> simp [MinOK, encOps, encodeBool]
  | .int k v, p, bs, hm, hp => by
    simp only [Means] at hm; subst hm; simp only [encOps]; exact encodeIntKind_min hp
  | .float32 f, p, bs, hm, hp => by
    simp only [Means] at hm; obtain ⟨d, _, rfl⟩ := hm; simp only [encOps]; exact minOK_float hp
  | .float64 f, p, bs, hm, hp => by
    simp only [Means] at hm; subst hm; simp only [encOps]; exact minOK_float hp
  | .str s, p, bs, hm, hp => by
    simp only [Means] at hm; subst hm; simp only [encOps]; exact minOK_str hp
  | .list xs, p, bs, hm, hp => by
    simp only [Means] at hm; obtain ⟨ps, hm, rfl⟩ := hm; simp only [encOps]
    exact minOK_list (meansList_length hm) hp fun c hc => encList_min xs ps c hm hc
  | .typedSlice xs, p, bs, hm, hp => by
    simp only [Means] at hm; obtain ⟨ps, hm, rfl⟩ := hm; simp only [encOps]
    exact minOK_list (meansList_length hm) hp fun c hc => encList_min xs ps c hm hc
  | .map kvs, p, bs, hm, hp => by
    simp only [Means] at hm; obtain ⟨ps, hm, rfl⟩ := hm; simp only [encOps]
    exact minOK_map (meansKVs_length hm) hp fun c hc => encKVs_min kvs ps c hm hc
  | .other n, _, _, hm, _ => by simp [Means] at hm
  | .node id ls props, p, bs, hm, hp => by
    simp only [Means] at hm; obtain ⟨ps, hm, rfl⟩ := hm; simp only [encOps]
    exact minOK_struct rfl hp fun c hc => minOK_cons hc (fun _ h => minOK_wrap (encodeIntKind_min h))
      fun c hc => minOK_cons hc
        (fun _ h => minOK_wrap (minOK_list (by simp) h fun _ h => minOK_labels ls h))
      fun c hc => minOK_one hc
        fun _ h => minOK_wrap (minOK_map (meansKVs_length hm) h fun c hc => encKVs_min props ps c hm hc)
  | .rel id s e t props, p, bs, hm, hp => by
    simp only [Means] at hm; obtain ⟨ps, hm, rfl⟩ := hm; simp only [encOps]
    exact minOK_struct rfl hp fun c hc => minOK_cons hc (fun _ h => minOK_wrap (encodeIntKind_min h))
      fun c hc => minOK_cons hc (fun _ h => minOK_wrap (encodeIntKind_min h))
      fun c hc => minOK_cons hc (fun _ h => minOK_wrap (encodeIntKind_min h))
      fun c hc => minOK_cons hc (fun _ h => minOK_wrap (minOK_str h))
      fun c hc => minOK_one hc
        fun _ h => minOK_wrap (minOK_map (meansKVs_length hm) h fun c hc => encKVs_min props ps c hm hc)
  | .unbound id t props, p, bs, hm, hp => by
    simp only [Means] at hm; obtain ⟨ps, hm, rfl⟩ := hm; simp only [encOps]
    exact minOK_struct rfl hp fun c hc => minOK_cons hc (fun _ h => minOK_wrap (encodeIntKind_min h))
      fun c hc => minOK_cons hc (fun _ h => minOK_wrap (minOK_str h))
      fun c hc => minOK_one hc
        fun _ h => minOK_wrap (minOK_map (meansKVs_length hm) h fun c hc => encKVs_min props ps c hm hc)
  | .path ns rs sq, p, bs, hm, hp => by
    simp only [Means] at hm; obtain ⟨nps, rps, hn, hr, rfl⟩ := hm; simp only [encOps]
    exact minOK_struct rfl hp fun c hc => minOK_cons hc
        (fun _ h => minOK_wrap (minOK_list (meansList_length hn) h fun c hc => encList_min ns nps c hn hc))
      fun c hc => minOK_cons hc
        (fun _ h => minOK_wrap (minOK_list (meansList_length hr) h fun c hc => encList_min rs rps c hr hc))
      fun c hc => minOK_one hc fun _ h => minOK_wrap (minOK_list (by simp) h fun _ h => minOK_ints sq h)
  | .record fs, p, bs, hm, hp => by
    simp only [Means] at hm; obtain ⟨ps, hm, rfl⟩ := hm; simp only [encOps]
    exact minOK_struct rfl hp fun c hc => minOK_one hc
      fun _ h => minOK_wrap (minOK_list (meansList_length hm) h fun c hc => encList_min fs ps c hm hc)
  | .success md, p, bs, hm, hp => by
    simp only [Means] at hm; obtain ⟨ps, hm, rfl⟩ := hm; simp only [encOps]
    exact minOK_struct rfl hp fun c hc => minOK_one hc
      fun _ h => minOK_wrap (minOK_map (meansKVs_length hm) h fun c hc => encKVs_min md ps c hm hc)
  | .failure md, p, bs, hm, hp => by
    simp only [Means] at hm; obtain ⟨ps, hm, rfl⟩ := hm; simp only [encOps]
    exact minOK_struct rfl hp fun c hc => minOK_one hc
      fun _ h => minOK_wrap (minOK_map (meansKVs_length hm) h fun c hc => encKVs_min md ps c hm hc)
  | .ignored, _, _, hm, hp => by simp only [Means] at hm; subst hm; simp only [encOps]; exact minOK_bare hp
  | .ackFailure, _, _, hm, hp => by
    simp only [Means] at hm; subst hm; simp only [encOps]; exact minOK_bare hp
  | .discardAll, _, _, hm, hp => by
    simp only [Means] at hm; subst hm; simp only [encOps]; exact minOK_bare hp
  | .pullAll, _, _, hm, hp => by simp only [Means] at hm; subst hm; simp only [encOps]; exact minOK_bare hp
  | .reset, _, _, hm, hp => by simp only [Means] at hm; subst hm; simp only [encOps]; exact minOK_bare hp
  | .init s a, p, bs, hm, hp => by
    simp only [Means] at hm; obtain ⟨ps, hm, rfl⟩ := hm; simp only [encOps]
    exact minOK_struct rfl hp fun c hc => minOK_cons hc (fun _ h => minOK_wrap (minOK_str h))
      fun c hc => minOK_one hc
        fun _ h => minOK_wrap (minOK_map (meansKVs_length hm) h fun c hc => encKVs_min a ps c hm hc)
  | .run s a, p, bs, hm, hp => by
    simp only [Means] at hm; obtain ⟨ps, hm, rfl⟩ := hm; simp only [encOps]
    exact minOK_struct rfl hp fun c hc => minOK_cons hc (fun _ h => minOK_wrap (minOK_str h))
      fun c hc => minOK_one hc
        fun _ h => minOK_wrap (minOK_map (meansKVs_length hm) h fun c hc => encKVs_min a ps c hm hc)
  | .userStruct sig fs, p, bs, hm, hp => by
    simp only [Means] at hm; obtain ⟨ps, b, hm, hb, rfl⟩ := hm; simp only [encOps]
    exact minOK_struct (meansList_length hm) hp fun c hc => encFields_min fs ps c hm hc

theorem encList_min {lim : Nat → Nat} : (xs : List Val) → (ps : List PS) → (bs : Bytes) →
    MeansList xs ps → PacksList lim ps bs → MinOK (encList xs) bs
  | [], ps, bs, hm, hp => by
    simp only [MeansList] at hm; subst hm; simp only [PacksList] at hp; subst hp; simp [MinOK, encList]
  | x :: xs, ps, bs, hm, hp => by
    simp only [MeansList] at hm; obtain ⟨q, qs, h1, h2, rfl⟩ := hm; simp only [encList]
    exact minOK_cons hp (fun c hc => enc_min x q c h1 hc) fun c hc => encList_min xs qs c h2 hc

theorem encFields_min {lim : Nat → Nat} : (xs : List Val) → (ps : List PS) → (bs : Bytes) →
    MeansList xs ps → PacksList lim ps bs → MinOK (encFields xs) bs
  | [], ps, bs, hm, hp => by
    simp only [MeansList] at hm; subst hm; simp only [PacksList] at hp; subst hp; simp [MinOK, encFields]
  | x :: xs, ps, bs, hm, hp => by
    simp only [MeansList] at hm; obtain ⟨q, qs, h1, h2, rfl⟩ := hm; simp only [encFields]
    exact minOK_cons hp (fun c hc => minOK_wrap (enc_min x q c h1 hc)) fun c hc => encFields_min xs qs c h2 hc

theorem encKVs_min {lim : Nat → Nat} : (kvs : List (Str × Val)) → (ps : List (Bytes × PS)) →
    (bs : Bytes) → MeansKVs kvs ps → PacksKVs lim ps bs → MinOK (encKVs kvs) bs
  | [], ps, bs, hm, hp => by
    simp only [MeansKVs] at hm; subst hm; simp only [PacksKVs] at hp; subst hp; simp [MinOK, encKVs]
  | (k, v) :: rest, ps, bs, hm, hp => by
    simp only [MeansKVs] at hm; obtain ⟨q, qs, h1, h2, rfl⟩ := hm; simp only [encKVs]
    simp only [PacksKVs] at hp
    obtain ⟨h, a, b, h3, h4, h5, rfl⟩ := hp
    have := minOK_seq (a := encodeString k) (x := h ++ k) (by simpa [MinOK] using encodeString_min h3)
      (minOK_seq (enc_min v q a h1 h4) (encKVs_min rest qs b h2 h5))
    simpa using this
end

end Bolt
