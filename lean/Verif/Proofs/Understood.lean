import Verif.Proofs.RoundExact
import Verif.Spec.Plain

/-! # When a conforming encoding is understood, its size fields have their top bit clear (auxiliary lemmas for C17) -/

namespace Bolt
open PackStream Lenient

theorem fieldsOf_inj {v : Val} {xs ys : List Val} (h1 : FieldsOf v xs) (h2 : FieldsOf v ys) : xs = ys := by
  cases v <;> simp only [FieldsOf] at h1 h2 <;> rw [h1, h2]

theorem ofPSKVs_keys {qs : List (Bytes × PS)} {ys : KVs} (h : ofPSKVs qs = some ys) : ys.map Prod.fst = qs.map Prod.fst := by
  induction qs generalizing ys with
  | nil => simp only [ofPSKVs, Option.some.injEq] at h; subst h; rfl
  | cons q qs ih =>
    obtain ⟨k, q⟩ := q
    simp only [ofPSKVs, Option.bind_eq_some_iff, Option.map_eq_some_iff] at h
    obtain ⟨_, _, zs, h2, rfl⟩ := h
    simp [ih h2]

theorem hdr_half {k : Kind} {n n' : Nat} {h h' a b : Bytes} (h1 : Hdr fullRange k n h) (h2 : Hdr halfRange k n' h')
    (e : h ++ a = h' ++ b) : n = n' ∧ Hdr halfRange k n h ∧ a = b := by
  obtain ⟨rfl, rfl, h3⟩ := hdr_unique h1 h2 e
  exact ⟨rfl, h2, h3⟩

theorem hdr_few {k : Kind} {n : Nat} {h : Bytes} (hn : n < 16) (hh : Hdr fullRange k n h) : Hdr halfRange k n h := by
  rcases hh with h1 | ⟨w, m, bs, h1, h2, _, h3⟩
  · exact .inl h1
  · refine .inr ⟨w, m, bs, h1, h2, ?_, h3⟩
    rcases marker_width h1 with rfl | rfl | ⟨rfl, _⟩ <;> simp only [halfRange] <;> omega

/-- A string read as `s` at the beginning of an encoding of `s`. -/
theorem half_str {s : Bytes} {h t r : Bytes} (h1 : Hdr fullRange .str s.length h) (hr : Reads (.str s) (h ++ s ++ t) r) :
    Hdr halfRange .str s.length h ∧ r = t := by
  simp only [Reads] at hr
  obtain ⟨n, h', h2, h3, _⟩ := hr
  rw [List.append_assoc, List.append_assoc] at h3
  obtain ⟨rfl, h4, h5⟩ := hdr_half h1 h2 h3
  exact ⟨h4, (List.append_cancel_left h5).symm⟩

mutual
theorem half_of : (p : PS) → (a t r : Bytes) → (q : PS) → (v : Val) → p.Distinct → Packs fullRange p a → ofPS p = some v →
    Reads q (a ++ t) r → ofPS q = some v → Packs halfRange p a
  | .null, a, _, _, _, _, _, hp, _, _, _ => hp
  | .bool _, a, _, _, _, _, _, hp, _, _, _ => hp
  | .int _, a, _, _, _, _, _, hp, _, _, _ => by simpa only [Packs] using hp
  | .float _, a, _, _, _, _, _, hp, _, _, _ => by simpa only [Packs] using hp
  | .str s, a, t, r, q, v, _, hp, hv, hr, hq => by
    simp only [ofPS, Option.some.injEq] at hv; subst hv
    have := ofPS_str hq; subst this
    simp only [Packs] at hp ⊢
    obtain ⟨h, h1, rfl⟩ := hp
    exact ⟨h, (half_str h1 hr).1, rfl⟩
  | .list ps, a, t, r, q, v, hd, hp, hv, hr, hq => by
    simp only [ofPS, Option.map_eq_some_iff] at hv; obtain ⟨ys, hv, rfl⟩ := hv
    obtain ⟨qs, rfl, hq'⟩ := ofPS_list hq
    simp only [Packs] at hp ⊢
    obtain ⟨h, body, h1, h2, rfl⟩ := hp
    simp only [Reads] at hr
    obtain ⟨h', c, h3, h4, h5⟩ := hr
    rw [List.append_assoc] at h4
    obtain ⟨_, h6, rfl⟩ := hdr_half h1 h3 h4
    simp only [PS.Distinct] at hd
    exact ⟨h, body, h6, (halfList_of ps body t r qs ys hd h2 hv h5 hq').1, rfl⟩
  | .map ps, a, t, r, q, v, hd, hp, hv, hr, hq => by
    simp only [ofPS, Option.map_eq_some_iff] at hv; obtain ⟨ys, hv, rfl⟩ := hv
    simp only [PS.Distinct] at hd
    rw [lastWins_nodup (by rw [ofPSKVs_keys hv]; exact hd.1)] at hq
    obtain ⟨qs, zs, rfl, hq', hz⟩ := ofPS_map hq
    simp only [Packs] at hp ⊢
    obtain ⟨h, body, h1, h2, rfl⟩ := hp
    simp only [Reads] at hr
    rcases hr with ⟨h', c, h3, h4, h5⟩ | ⟨rfl, w, n, m, bs, h3, h4, h5, h6⟩
    · rw [List.append_assoc] at h4
      obtain ⟨h7, h6, rfl⟩ := hdr_half h1 h3 h4
      have h8 : lastWins zs = zs := lastWins_full (by rw [hz, ← ofPSKVs_length hv, ← ofPSKVs_length hq']; exact h7)
      rw [h8] at hz
      subst hz
      exact ⟨h, body, h6, (halfKVs_of ps body t r qs zs hd.2 h2 hv h5 hq').1, rfl⟩
    · simp only [ofPSKVs, Option.some.injEq] at hq'
      subst hq'
      simp only [lastWins, firstKeys, List.filterMap_nil] at hz
      subst hz
      have hn : ps.length = n := by
        have hu : Hdr fullRange .map n (m :: bs) := .inr ⟨w, m, bs, h3, h4, by rw [← h4.2, ← h4.1]; exact ofBytes_lt bs, rfl⟩
        rw [List.append_assoc] at h6
        exact (hdr_unique h1 hu h6).1
      rw [ofPSKVs_length hv, List.length_nil] at hn
      subst hn
      rcases marker_width h3 with rfl | rfl | ⟨rfl, _⟩ <;> simp [halfRange] at h5
  | .struct sig fs, a, t, r, q, v, hd, hp, hv, hr, hq => by
    simp only [ofPS, Option.bind_eq_some_iff] at hv; obtain ⟨xs, hv, hs⟩ := hv
    obtain ⟨sg, gs, ys, rfl, hq', hs'⟩ := ofPS_struct (structOf_entity hs) hq
    simp only [Packs] at hp ⊢
    obtain ⟨h, body, h1, h2, rfl⟩ := hp
    simp only [Reads] at hr
    obtain ⟨k, h', c, h3, h4, h5⟩ := hr
    rw [List.append_assoc] at h4
    obtain ⟨_, rfl, h6⟩ := hdr_unique h1 h3 h4
    simp only [List.cons_append, List.cons.injEq] at h6
    obtain ⟨rfl, rfl⟩ := h6
    rw [fieldsOf_inj (structOf_fields hs') (structOf_fields hs)] at hq'
    simp only [PS.Distinct] at hd
    have hx : xs.length < 16 := by
      have := structOf_fields hs
      cases v <;> simp only [FieldsOf] at this <;> subst this <;> simp
    rw [ofPSList_length hv] at hx
    exact ⟨h, body, hdr_few hx h1, (halfList_of fs body t r gs xs hd h2 hv h5 hq').1, rfl⟩

theorem halfList_of : (ps : List PS) → (a t r : Bytes) → (qs : List PS) → (ys : List Val) → PS.DistinctList ps →
    PacksList fullRange ps a → ofPSList ps = some ys → ReadsList qs (a ++ t) r → ofPSList qs = some ys →
    PacksList halfRange ps a ∧ r = t
  | [], a, t, r, qs, ys, _, hp, hv, hr, hq => by
    simp only [ofPSList, Option.some.injEq] at hv; subst hv
    simp only [PacksList] at hp; subst hp
    cases qs with
    | nil => simp only [ReadsList] at hr; exact ⟨by simp [PacksList], by simpa using hr.symm⟩
    | cons q qs => have := ofPSList_length hq; simp at this
  | p :: ps, a, t, r, qs, ys, hd, hp, hv, hr, hq => by
    simp only [ofPSList, Option.bind_eq_some_iff, Option.map_eq_some_iff] at hv
    obtain ⟨y, hv, zs, hv', rfl⟩ := hv
    simp only [PacksList] at hp ⊢
    obtain ⟨b, c, h1, h2, rfl⟩ := hp
    simp only [PS.DistinctList] at hd
    rw [List.append_assoc] at hr
    obtain ⟨q, qs, d, h3, h4, h5, h6⟩ := reads_cons hr hq
    have h7 := half_of p b (c ++ t) d q y hd.1 h1 hv h3 h4
    obtain ⟨_, rfl⟩ := reads_det h7 hv h3 h4
    obtain ⟨h8, h9⟩ := halfList_of ps c t r qs zs hd.2 h2 hv' h5 h6
    exact ⟨⟨b, c, h7, h8, rfl⟩, h9⟩

theorem halfKVs_of : (ps : List (Bytes × PS)) → (a t r : Bytes) → (qs : List (Bytes × PS)) → (ys : List (Str × Val)) →
    PS.DistinctKVs ps → PacksKVs fullRange ps a → ofPSKVs ps = some ys → ReadsKVs qs (a ++ t) r → ofPSKVs qs = some ys →
    PacksKVs halfRange ps a ∧ r = t
  | [], a, t, r, qs, ys, _, hp, hv, hr, hq => by
    simp only [ofPSKVs, Option.some.injEq] at hv; subst hv
    simp only [PacksKVs] at hp; subst hp
    cases qs with
    | nil => simp only [ReadsKVs] at hr; exact ⟨by simp [PacksKVs], by simpa using hr.symm⟩
    | cons q qs => have := ofPSKVs_length hq; simp at this
  | (k, p) :: ps, a, t, r, qs, ys, hd, hp, hv, hr, hq => by
    simp only [ofPSKVs, Option.bind_eq_some_iff, Option.map_eq_some_iff] at hv
    obtain ⟨y, hv, zs, hv', rfl⟩ := hv
    simp only [PacksKVs] at hp ⊢
    obtain ⟨h, b, c, h0, h1, h2, rfl⟩ := hp
    simp only [PS.DistinctKVs] at hd
    obtain ⟨q, qs, rfl, h4, h6⟩ := ofPSKVs_cons hq
    simp only [ReadsKVs] at hr
    obtain ⟨d, e, a1, a2, a3⟩ := hr
    rw [List.append_assoc, List.append_assoc] at a1
    obtain ⟨b1, rfl⟩ := half_str h0 a1
    have h7 := half_of p b (c ++ t) e q y hd.1 h1 hv a2 h4
    obtain ⟨_, rfl⟩ := reads_det h7 hv a2 h4
    obtain ⟨h8, h9⟩ := halfKVs_of ps c t r qs zs hd.2 h2 hv' a3 h6
    exact ⟨⟨h, b, c, b1, h7, h8, rfl⟩, h9⟩
end

end Bolt
