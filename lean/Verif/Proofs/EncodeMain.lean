import Verif.Proofs.Encode
import Verif.Proofs.Widen

/-! The encoder's output is PackStream for the value it was given. -/

namespace Bolt
open PackStream

/-- The conditions on a value, at its top level. -/
def Good (lim : Nat → Nat) (v : Val) : Prop := v.TypedHere ∧ v.CleanHere ∧ v.SizesHere lim

theorem encodeIntKind_ok64 {lim : Nat → Nat} {v : Int} (h : IsInt64 v) :
    (encodeIntKind .int64 v).err = none ∧ Packs lim (.int v) (encodeIntKind .int64 v).bytes := by
  rw [encodeIntKind_int64 h]; exact encodeInt_packs h

theorem bare_packs {lim : Nat → Nat} {v : Val} {b : UInt8} (hm : Means v (.struct b []))
    (ho : encOps v = structHeader 0 b.toNat) (he : (encOps v).err = none) :
    ∃ p, Means v p ∧ Packs lim p (encOps v).bytes := by
  refine ⟨_, hm, ?_⟩
  rw [ho, ← seq_done (structHeader 0 _)] at he ⊢
  exact struct_packs rfl rfl he (sizeOK_small (by decide)) (by simp [PacksList])

mutual
theorem enc_packs {lim : Nat → Nat} : (v : Val) → Val.All (Good lim) v → (encOps v).err = none →
    ∃ p, Means v p ∧ Packs lim p (encOps v).bytes
  | .nil, _, _ => ⟨.null, by simp [Means], by simp [encOps, encodeNil, NilMarker, Packs]⟩
  | .bool b, _, _ => ⟨.bool b, by simp [Means], by
      cases b <;> simp [encOps, encodeBool, TrueMarker, FalseMarker, Packs]⟩
  | .int k v, ha, he => by
    simp only [Val.All, Good] at ha
    simp only [encOps] at he ⊢
    exact ⟨.int v, by simp [Means], encodeIntKind_packs ha.1 ha.2.1 he⟩
  | .float32 f, _, _ => ⟨.float (widenBits f), by
      simp only [Means]; exact ⟨_, widenBits_widens f, rfl⟩, by
      simp only [encOps]; exact (encodeFloat_packs _).2⟩
  | .float64 f, _, _ => ⟨.float f, by simp [Means], by simp only [encOps]; exact (encodeFloat_packs _).2⟩
  | .str s, ha, he => by
    simp only [Val.All, Good, Val.SizesHere, Val.sizes] at ha
    simp only [encOps] at he ⊢
    exact ⟨.str s, by simp [Means], encodeString_packs he (ha.2.2 _ (by simp))⟩
  | .list xs, ha, he => by
    simp only [Val.All, Good, Val.SizesHere, Val.sizes] at ha
    simp only [encOps] at he ⊢
    have he' := he
    simp only [err_seq] at he'
    obtain ⟨ps, h1, h2⟩ := encList_packs xs ha.2 he'.2
    exact ⟨.list ps, by simp only [Means]; exact ⟨ps, h1, rfl⟩,
      list_packs (meansList_length h1) he (ha.1.2.2 _ (by simp)) h2⟩
  | .typedSlice xs, ha, he => by
    simp only [Val.All, Good, Val.SizesHere, Val.sizes] at ha
    simp only [encOps] at he ⊢
    have he' := he
    simp only [err_seq] at he'
    obtain ⟨ps, h1, h2⟩ := encList_packs xs ha.2 he'.2
    exact ⟨.list ps, by simp only [Means]; exact ⟨ps, h1, rfl⟩,
      list_packs (meansList_length h1) he (ha.1.2.2 _ (by simp)) h2⟩
  | .map kvs, ha, he => by
    simp only [Val.All, Good, Val.SizesHere, Val.sizes] at ha
    simp only [encOps] at he ⊢
    have he' := he
    simp only [err_seq] at he'
    obtain ⟨ps, h1, h2⟩ := encKVs_packs kvs ha.2 (fun n hn => ha.1.2.2 n (by simp [hn])) he'.2
    exact ⟨.map ps, by simp only [Means]; exact ⟨ps, h1, rfl⟩,
      map_packs (meansKVs_length h1) he (ha.1.2.2 _ (by simp)) h2⟩
  | .other n, _, he => by simp [encOps] at he
  | .node id ls props, ha, he => by
    simp only [Val.All, Good, Val.SizesHere, Val.sizes, Val.TypedHere] at ha
    simp only [encOps] at he ⊢
    obtain ⟨⟨⟨hid, _⟩, _, hs⟩, ha⟩ := ha
    have he' := he
    simp only [err_seq, err_wrapErr] at he'
    obtain ⟨h0, h1, ⟨h2, h3⟩, h4, h5⟩ := he'
    obtain ⟨ps, hm, hp⟩ := encKVs_packs props ha (fun n hn => hs n (by simp [hn])) h5
    refine ⟨_, by simp only [Means]; exact ⟨ps, hm, rfl⟩, struct_packs rfl rfl he (sizeOK_small (by decide)) ?_⟩
    refine packsList_cons (by simp [*]) (encodeIntKind_ok64 hid).2 (packsList_cons (by simp [*]) ?_
      (packsList_one ?_))
    · exact list_packs (by simp) (by simp [*]) (hs _ (by simp))
        (labels_packs ls h3 fun n hn => hs n (by
          simp only [List.mem_cons, List.mem_append, List.cons_append]; exact .inr (.inr (.inl hn))))
    · exact map_packs (meansKVs_length hm) (by simp [*]) (hs _ (by simp)) hp
  | .rel id s e t props, ha, he => by
    simp only [Val.All, Good, Val.SizesHere, Val.sizes, Val.TypedHere] at ha
    simp only [encOps] at he ⊢
    obtain ⟨⟨⟨hid, hsi, hei, _⟩, _, hs⟩, ha⟩ := ha
    have he' := he
    simp only [err_seq, err_wrapErr] at he'
    obtain ⟨h0, h1, h2, h3, h4, h5, h6⟩ := he'
    obtain ⟨ps, hm, hp⟩ := encKVs_packs props ha (fun n hn => hs n (by simp [hn])) h6
    refine ⟨_, by simp only [Means]; exact ⟨ps, hm, rfl⟩, struct_packs rfl rfl he (sizeOK_small (by decide)) ?_⟩
    refine packsList_cons (by simp [*]) (encodeIntKind_ok64 hid).2 (packsList_cons (by simp [*])
      (encodeIntKind_ok64 hsi).2 (packsList_cons (by simp [*]) (encodeIntKind_ok64 hei).2
      (packsList_cons (by simp [*]) (encodeString_packs h4 (hs _ (by simp))) (packsList_one ?_))))
    exact map_packs (meansKVs_length hm) (by simp [*]) (hs _ (by simp)) hp
  | .unbound id t props, ha, he => by
    simp only [Val.All, Good, Val.SizesHere, Val.sizes, Val.TypedHere] at ha
    simp only [encOps] at he ⊢
    obtain ⟨⟨⟨hid, _⟩, _, hs⟩, ha⟩ := ha
    have he' := he
    simp only [err_seq, err_wrapErr] at he'
    obtain ⟨h0, h1, h4, h5, h6⟩ := he'
    obtain ⟨ps, hm, hp⟩ := encKVs_packs props ha (fun n hn => hs n (by simp [hn])) h6
    refine ⟨_, by simp only [Means]; exact ⟨ps, hm, rfl⟩, struct_packs rfl rfl he (sizeOK_small (by decide)) ?_⟩
    refine packsList_cons (by simp [*]) (encodeIntKind_ok64 hid).2
      (packsList_cons (by simp [*]) (encodeString_packs h4 (hs _ (by simp))) (packsList_one ?_))
    exact map_packs (meansKVs_length hm) (by simp [*]) (hs _ (by simp)) hp
  | .path ns rs sq, ha, he => by
    simp only [Val.All, Good, Val.SizesHere, Val.sizes, Val.TypedHere] at ha
    simp only [encOps] at he ⊢
    obtain ⟨⟨⟨_, _, hsq⟩, _, hs⟩, hn, hr⟩ := ha
    have he' := he
    simp only [err_seq, err_wrapErr] at he'
    obtain ⟨h0, ⟨h1, h2⟩, ⟨h3, h4⟩, h5, h6⟩ := he'
    obtain ⟨nps, hnm, hnp⟩ := encList_packs ns hn h2
    obtain ⟨rps, hrm, hrp⟩ := encList_packs rs hr h4
    refine ⟨_, by simp only [Means]; exact ⟨nps, rps, hnm, hrm, rfl⟩,
      struct_packs rfl rfl he (sizeOK_small (by decide)) ?_⟩
    refine packsList_cons (by simp [*]) ?_ (packsList_cons (by simp [*]) ?_ (packsList_one ?_))
    · exact list_packs (meansList_length hnm) (by simp [*]) (hs _ (by simp)) hnp
    · exact list_packs (meansList_length hrm) (by simp [*]) (hs _ (by simp)) hrp
    · exact list_packs (by simp) (by simp [*]) (hs _ (by simp)) (seq_packs sq h6 hsq)
  | .record fs, ha, he => by
    simp only [Val.All, Good, Val.SizesHere, Val.sizes, Val.TypedHere] at ha
    simp only [encOps] at he ⊢
    obtain ⟨⟨_, _, hs⟩, ha⟩ := ha
    have he' := he
    simp only [err_seq, err_wrapErr] at he'
    obtain ⟨ps, hm, hp⟩ := encList_packs fs ha he'.2.2
    refine ⟨_, by simp only [Means]; exact ⟨ps, hm, rfl⟩, struct_packs rfl rfl he (sizeOK_small (by decide)) ?_⟩
    exact packsList_one (list_packs (meansList_length hm) (by simp [*]) (hs _ (by simp)) hp)
  | .success md, ha, he => by
    simp only [Val.All, Good, Val.SizesHere, Val.sizes, Val.TypedHere] at ha
    simp only [encOps] at he ⊢
    obtain ⟨⟨_, _, hs⟩, ha⟩ := ha
    have he' := he
    simp only [err_seq, err_wrapErr] at he'
    obtain ⟨ps, hm, hp⟩ := encKVs_packs md ha (fun n hn => hs n (by simp [hn])) he'.2.2
    refine ⟨_, by simp only [Means]; exact ⟨ps, hm, rfl⟩, struct_packs rfl rfl he (sizeOK_small (by decide)) ?_⟩
    exact packsList_one (map_packs (meansKVs_length hm) (by simp [*]) (hs _ (by simp)) hp)
  | .failure md, ha, he => by
    simp only [Val.All, Good, Val.SizesHere, Val.sizes, Val.TypedHere] at ha
    simp only [encOps] at he ⊢
    obtain ⟨⟨_, _, hs⟩, ha⟩ := ha
    have he' := he
    simp only [err_seq, err_wrapErr] at he'
    obtain ⟨ps, hm, hp⟩ := encKVs_packs md ha (fun n hn => hs n (by simp [hn])) he'.2.2
    refine ⟨_, by simp only [Means]; exact ⟨ps, hm, rfl⟩, struct_packs rfl rfl he (sizeOK_small (by decide)) ?_⟩
    exact packsList_one (map_packs (meansKVs_length hm) (by simp [*]) (hs _ (by simp)) hp)
  | .ignored, _, he => bare_packs (b := 0x7E) (by simp [Means]) (by simp only [encOps]; rfl) he
  | .ackFailure, _, he => bare_packs (b := 0x0E) (by simp [Means]) (by simp only [encOps]; rfl) he
  | .discardAll, _, he => bare_packs (b := 0x2F) (by simp [Means]) (by simp only [encOps]; rfl) he
  | .pullAll, _, he => bare_packs (b := 0x3F) (by simp [Means]) (by simp only [encOps]; rfl) he
  | .reset, _, he => bare_packs (b := 0x0F) (by simp [Means]) (by simp only [encOps]; rfl) he
  | .init c a, ha, he => by
    simp only [Val.All, Good, Val.SizesHere, Val.sizes, Val.TypedHere] at ha
    simp only [encOps] at he ⊢
    obtain ⟨⟨_, _, hs⟩, ha⟩ := ha
    have he' := he
    simp only [err_seq, err_wrapErr] at he'
    obtain ⟨h0, h1, h2, h3⟩ := he'
    obtain ⟨ps, hm, hp⟩ := encKVs_packs a ha (fun n hn => hs n (by simp [hn])) h3
    refine ⟨_, by simp only [Means]; exact ⟨ps, hm, rfl⟩, struct_packs rfl rfl he (sizeOK_small (by decide)) ?_⟩
    exact packsList_cons (by simp [*]) (encodeString_packs h1 (hs _ (by simp)))
      (packsList_one (map_packs (meansKVs_length hm) (by simp [*]) (hs _ (by simp)) hp))
  | .run s a, ha, he => by
    simp only [Val.All, Good, Val.SizesHere, Val.sizes, Val.TypedHere] at ha
    simp only [encOps] at he ⊢
    obtain ⟨⟨_, _, hs⟩, ha⟩ := ha
    have he' := he
    simp only [err_seq, err_wrapErr] at he'
    obtain ⟨h0, h1, h2, h3⟩ := he'
    obtain ⟨ps, hm, hp⟩ := encKVs_packs a ha (fun n hn => hs n (by simp [hn])) h3
    refine ⟨_, by simp only [Means]; exact ⟨ps, hm, rfl⟩, struct_packs rfl rfl he (sizeOK_small (by decide)) ?_⟩
    exact packsList_cons (by simp [*]) (encodeString_packs h1 (hs _ (by simp)))
      (packsList_one (map_packs (meansKVs_length hm) (by simp [*]) (hs _ (by simp)) hp))
  | .userStruct sig fs, ha, he => by
    simp only [Val.All, Good, Val.SizesHere, Val.sizes, Val.CleanHere] at ha
    simp only [encOps] at he ⊢
    obtain ⟨⟨_, hsig, hs⟩, ha⟩ := ha
    have he' := he
    simp only [err_seq] at he'
    obtain ⟨ps, hm, hp⟩ := encFields_packs fs ha he'.2
    have hb : ((UInt8.ofNat sig.toNat).toNat : Int) = sig := by
      simp only [UInt8.toNat_ofNat']
      omega
    refine ⟨_, by simp only [Means]; exact ⟨ps, _, hm, hb, rfl⟩,
      struct_packs (meansList_length hm) hb he (hs _ (by simp)) hp⟩

theorem encList_packs {lim : Nat → Nat} : (xs : List Val) → Val.AllList (Good lim) xs →
    (encList xs).err = none → ∃ ps, MeansList xs ps ∧ PacksList lim ps (encList xs).bytes
  | [], _, _ => ⟨[], by simp [MeansList], by simp [PacksList, encList]⟩
  | x :: xs, ha, he => by
    simp only [Val.AllList] at ha
    simp only [encList] at he ⊢
    have he' := he
    simp only [err_seq] at he'
    obtain ⟨p, h1, h2⟩ := enc_packs x ha.1 he'.1
    obtain ⟨ps, h3, h4⟩ := encList_packs xs ha.2 he'.2
    exact ⟨p :: ps, by simp only [MeansList]; exact ⟨p, ps, h1, h3, rfl⟩, packsList_cons he h2 h4⟩

theorem encFields_packs {lim : Nat → Nat} : (xs : List Val) → Val.AllList (Good lim) xs →
    (encFields xs).err = none → ∃ ps, MeansList xs ps ∧ PacksList lim ps (encFields xs).bytes
  | [], _, _ => ⟨[], by simp [MeansList], by simp [PacksList, encFields]⟩
  | x :: xs, ha, he => by
    simp only [Val.AllList] at ha
    simp only [encFields] at he ⊢
    have he' := he
    simp only [err_seq, err_wrapErr] at he'
    obtain ⟨p, h1, h2⟩ := enc_packs x ha.1 he'.1
    obtain ⟨ps, h3, h4⟩ := encFields_packs xs ha.2 he'.2
    exact ⟨p :: ps, by simp only [MeansList]; exact ⟨p, ps, h1, h3, rfl⟩, packsList_cons he h2 h4⟩

theorem encKVs_packs {lim : Nat → Nat} : (kvs : List (Str × Val)) → Val.AllKVs (Good lim) kvs →
    (∀ n ∈ keySizes kvs, SizeOK lim n) → (encKVs kvs).err = none →
    ∃ ps, MeansKVs kvs ps ∧ PacksKVs lim ps (encKVs kvs).bytes
  | [], _, _, _ => ⟨[], by simp [MeansKVs], by simp [PacksKVs, encKVs]⟩
  | (k, v) :: rest, ha, hk, he => by
    simp only [Val.AllKVs] at ha
    simp only [encKVs, err_seq] at he
    obtain ⟨p, h1, h2⟩ := enc_packs v ha.1 he.2.1
    obtain ⟨ps, h3, h4⟩ := encKVs_packs rest ha.2 (fun n hn => hk n (by
      simp only [keySizes, List.map_cons, List.mem_cons]; exact .inr hn)) he.2.2
    obtain ⟨hd, h5, h6⟩ := encodeString_hdr (lim := lim) he.1 (hk _ (by simp [keySizes]))
    refine ⟨(k, p) :: ps, by simp only [MeansKVs]; exact ⟨p, ps, h1, h3, rfl⟩, ?_⟩
    simp only [PacksKVs, encKVs]
    refine ⟨hd, _, _, h5, h2, h4, ?_⟩
    rw [bytes_seq he.1, bytes_seq he.2.1, h6]
    simp
end

end Bolt
