import Verif.Props.Encoding
import Verif.Proofs.Wrapped
import Verif.Proofs.EncoderTest

/-!
# C01, C02, C05, C07, C09, exactly

The properties fail for some values (`c01_false`, `c02_false`, …). Here the conditions under which they hold are
shown to be the weakest ones, and what happens without them is stated: for every value, of whatever size and depth, the
message holds `v.wrapped`, which is `v` exactly for the values the properties hold for.
-/

namespace Bolt
open PackStream

theorem good_wrapped {v : Val} (ht : v.Typed) : Val.All (Good fullRange) v.wrapped :=
  all_mono (fun _ h => ⟨h.1, h.2, fun n _ => sizeOK_full n⟩) _ (wrapped_sent v ht)

theorem payload_wrapped (v : Val) : payload v.wrapped = payload v := by
  unfold payload; rw [enc_wrapped]

/-! ## C01 -/

/-- C01, the exact condition: an accepted value is sent as a PackStream encoding of itself if and only if it contains no
`uint` above 2^63-1 and no user structure whose signature is not a byte. -/
theorem c01_iff_partial {cs : Nat} {w : Sink} {v : Val} (ht : v.Typed) (hok : (encodeTo cs w v).2 = none) :
    (∃ p, Means v p ∧ Packs fullRange p (payload v)) ↔ v.Clean :=
  ⟨fun ⟨p, h1, h2⟩ => clean_of_packs v p _ h1 h2, fun hc => c01_valid_packstream_partial ht hc hok⟩

/-- C01 without a condition on the value: whenever Encode succeeds, the payload is a PackStream encoding of the value with
every such `uint` reduced by 2^64 and every such signature taken modulo 256. -/
theorem c01_sent_partial {cs : Nat} {w : Sink} {v : Val} (ht : v.Typed) (hok : (encodeTo cs w v).2 = none) :
    (∃ p, Means v.wrapped p ∧ Packs fullRange p (payload v)) ∧ (v.wrapped = v ↔ v.Clean) := by
  refine ⟨?_, wrapped_eq_iff v⟩
  obtain ⟨p, h1, h2⟩ := enc_packs v.wrapped (good_wrapped ht) (by rw [enc_wrapped]; exact ok_of_encodeTo hok)
  exact ⟨p, h1, by rw [← payload_wrapped, payload_eq]; exact h2⟩

/-- The map {"n": uint(2^63), "s": structure with signature 300}, which is no PackStream value: what is sent is
{"n": -2^63, "s": structure 0x2C}. -/
def unclean : Val := .map [([110], .int .uint (2^63)), ([115], .userStruct 300 [.nil])]

theorem unclean_typed : unclean.Typed := by
  simp [unclean, Val.Typed, Val.All, Val.AllKVs, Val.AllList, Val.TypedHere, DistinctKeys, IntKind.InRange]
theorem unclean_supported : unclean.Supported := by
  simp [unclean, Val.Supported, Val.All, Val.AllKVs, Val.AllList, Val.SupportedHere, Val.sizes, keySizes]
theorem unclean_not_clean : ¬ unclean.Clean := by
  simp [unclean, Val.Clean, Val.All, Val.AllKVs, Val.AllList, Val.CleanHere]
theorem unclean_wrapped : unclean.wrapped = .map [([110], .int .int64 (-2^63)), ([115], .userStruct 44 [.nil])] := rfl
theorem unclean_ok : (encodeTo 100 ⟨[], none⟩ unclean).2 = none := (c08_rejects_iff _ _ _).mpr unclean_supported

example : ¬ ∃ p, Means unclean p ∧ Packs fullRange p (payload unclean) :=
  fun h => unclean_not_clean ((c01_iff_partial unclean_typed unclean_ok).mp h)

example : ∃ p, Means (.map [([110], .int .int64 (-2^63)), ([115], .userStruct 44 [.nil])]) p ∧ Packs fullRange p (payload unclean) := by
  rw [← unclean_wrapped]; exact (c01_sent_partial unclean_typed unclean_ok).1

/-! ## C02 -/

/-- C02, the exact condition: an integer that Marshal accepts arrives as the same number if and only if it is an `int64`;
otherwise it arrives as the number less 2^64. -/
theorem c02_iff_partial (k : IntKind) (n : _root_.Int) (hr : k.InRange n) (hok : (marshal (.int k n)).2 = none) :
    ((∃ bs, Packs fullRange (.int n) bs ∧ Framed bs (marshal (.int k n)).1) ↔ n < 2^63) ∧
    (¬ n < 2^63 → k = .uint ∧ ∃ bs, Packs fullRange (.int (n - 2^64)) bs ∧ Framed bs (marshal (.int k n)).1) := by
  have he := ok_of_encodeTo hok
  have ht : Val.Typed (.int k n) := by simpa [Val.Typed, Val.All, Val.TypedHere] using hr
  have hl : Val.StringsLe 65535 (.int k n) := by simp [Val.StringsLe, Val.All, Val.ownStrings]
  have hf := (marshal_framed hl he).2
  refine ⟨⟨fun ⟨bs, h, _⟩ => (int64_of_packs h).2, fun h => ?_⟩, fun h => ?_⟩
  · exact (c02_int_value_partial k n hr (fun _ => h)).1 hok
  · have hk : k = .uint := by
      cases k <;> simp only [IntKind.InRange] at hr <;> try omega
      · rfl
      · exact absurd ((acc _).mp he) (by simp only [Val.All, Val.SupportedHere]; exact h)
    subst hk
    refine ⟨rfl, payload (.int .uint n), ?_, hf⟩
    obtain ⟨p, h1, h2⟩ := (c01_sent_partial ht hok).1
    simp only [Val.wrapped, if_neg h, Means] at h1
    subst h1
    exact h2

example : ∃ bs, Packs fullRange (.int (2^63 + 5 - 2^64)) bs ∧ Framed bs (marshal (.int .uint (2^63 + 5))).1 :=
  ((c02_iff_partial .uint (2^63 + 5) (by simp [IntKind.InRange]) (by decide)).2 (by decide)).2

/-! ## C05 -/

/-- C05 without a condition on the value: whatever PackStream value a conforming reader finds where the payload begins is
the value with the replacements of C01, and it ends where the payload ends. -/
theorem c05_sent_partial {v : Val} (ht : v.Typed) (hok : (encOps v).err = none)
    {q : PS} {c r t : Bytes} (hq : Packs fullRange q c) (he : payload v ++ r = c ++ t) :
    Means v.wrapped q ∧ c = payload v ∧ t = r := by
  obtain ⟨p, h1, h2⟩ := enc_packs v.wrapped (good_wrapped ht) (by rw [enc_wrapped]; exact hok)
  rw [← payload_eq, payload_wrapped] at h2
  obtain ⟨rfl, h3, h4⟩ := packs_unique h2 hq he
  exact ⟨h1, h3.symm, h4.symm⟩

/-- C05, the exact condition: a conforming reader finds the value itself if and only if the value is clean. -/
theorem c05_iff_partial {v : Val} (ht : v.Typed) (hok : (encOps v).err = none) :
    (∃ q, Packs fullRange q (payload v) ∧ Means v q) ↔ v.Clean := by
  constructor
  · rintro ⟨q, h1, h2⟩; exact clean_of_packs v q _ h2 h1
  · intro hc
    obtain ⟨p, h1, h2⟩ := enc_packs v (good_full ht hc) hok
    exact ⟨p, by rw [payload_eq]; exact h2, h1⟩

/-- C05: two values whose payloads are in the prefix relation denote the same PackStream value once the replacements are made;
the payloads are then equal. -/
theorem c05_collide_partial {v₁ v₂ : Val} (ht₁ : v₁.Typed) (ht₂ : v₂.Typed) (hok₁ : (encOps v₁).err = none)
    (hok₂ : (encOps v₂).err = none) {r s : Bytes} (he : payload v₁ ++ r = payload v₂ ++ s) :
    payload v₁ = payload v₂ ∧ ∃ p, Means v₁.wrapped p ∧ Means v₂.wrapped p := by
  obtain ⟨p, h1, h2⟩ := enc_packs v₂.wrapped (good_wrapped ht₂) (by rw [enc_wrapped]; exact hok₂)
  rw [← payload_eq, payload_wrapped] at h2
  obtain ⟨h3, h4, _⟩ := c05_sent_partial ht₁ hok₁ h2 he
  exact ⟨h4.symm, p, h3, h1⟩

/-- `uint(2^64-1)` and `int(-1)`. -/
example : ∃ p, Means (Val.wrapped (.int .uint (2^64-1))) p ∧ Means (Val.wrapped (.int .int (-1))) p :=
  (c05_collide_partial (v₁ := .int .uint (2^64-1)) (v₂ := .int .int (-1)) (r := []) (s := [])
    (by simp [Val.Typed, Val.All, Val.TypedHere, IntKind.InRange]) (by simp [Val.Typed, Val.All, Val.TypedHere, IntKind.InRange])
    (by decide) (by decide) (by decide)).2

/-! ## C07 -/

/-- C07, the exact condition: every chunk is at most as long as configured if and only if at most that many bytes are left
over when the message ends. -/
theorem c07_iff_partial {cs : Nat} (hc : 0 < cs) (hc' : cs ≤ 65535) (out : Bytes) {v : Val} (hv : v.Supported) :
    ∃ wire, encodeTo cs ⟨out, none⟩ v = (⟨out ++ wire, none⟩, none) ∧
      (FramedBy cs (payload v) wire ↔ tailLen cs 0 (encOps v).writes ≤ cs) :=
  encodeTo_framedBy hc (Nat.le_refl _) hc' out v ((acc v).mpr hv)

example : ∃ wire, encodeTo 3 ⟨[], none⟩ sample = (⟨wire, none⟩, none) ∧ FramedBy 3 (payload sample) wire := by
  obtain ⟨wire, h1, h2⟩ := c07_iff_partial (cs := 3) (by decide) (by decide) [] sample_supported
  exact ⟨wire, by simpa using h1, h2.mpr (by decide)⟩

/-! ## C09 -/

/-- C09, the exact condition: a rejected value leaves the stream untouched if and only if fewer bytes than the chunk size had
been produced when it was rejected. -/
theorem c09_iff_partial {cs : Nat} (hc : 0 < cs) (hc' : cs ≤ 65535) (out : Bytes) (v : Val) (h : ¬ v.Supported) :
    (encodeTo cs ⟨out, none⟩ v).1.out = out ↔ (payload v).length < cs := by
  have h3 : (encOps v).err ≠ none := fun he => h ((acc v).mp he)
  constructor
  · intro ho
    obtain ⟨cks, buf, h1, h2, h5, h4⟩ := encodeTo_unlimited cs out v
    rw [h4] at ho
    cases he : (encOps v).err with
    | none => exact absurd he h3
    | some e =>
      rw [he] at ho
      simp only [List.append_right_eq_self] at ho
      have hk : cks = [] := by
        cases cks with
        | nil => rfl
        | cons c l => simp [chunksOf, be] at ho
      subst hk
      simp only [List.flatten_nil, List.nil_append] at h2
      have := tailLen_all (cs := cs) hc (r := 0) hc (ps := (encOps v).writes)
        (by rw [← h5, ← h2]; simp [payload])
      simpa [payload] using this
  · intro hl
    have h2 := run_short (cs := cs) (encOps v).writes [] ⟨out, none⟩ (by unfold payload at hl; simpa using hl)
    unfold encodeTo
    dsimp only
    rw [h2]
    cases he : (encOps v).err with
    | none => exact absurd he h3
    | some e => simp

/-- Eleven bytes before the unsupported part: sent with chunk size 11, kept back with chunk size 12. -/
example : (payload (.list [.str [1, 2, 3, 4, 5, 6, 7, 8, 9], .other 0])).length = 11 := by decide

example : (encodeTo 12 ⟨[7], none⟩ (.list [.str [1, 2, 3, 4, 5, 6, 7, 8, 9], .other 0])).1.out = [7] ∧
    (encodeTo 11 ⟨[7], none⟩ (.list [.str [1, 2, 3, 4, 5, 6, 7, 8, 9], .other 0])).1.out ≠ [7] := by
  have hn : ¬ Val.Supported (.list [.str [1, 2, 3, 4, 5, 6, 7, 8, 9], .other 0]) := by
    simp [Val.Supported, Val.All, Val.AllList, Val.SupportedHere]
  exact ⟨(c09_iff_partial (by decide) (by decide) _ _ hn).mpr (by decide),
    fun h => absurd ((c09_iff_partial (by decide) (by decide) _ _ hn).mp h) (by decide)⟩

end Bolt
