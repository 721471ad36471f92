import Verif.Model.Encoder
import Verif.Spec.Meaning

/-! Conversion from `float32` to `float64` keeps the value. -/

namespace Bolt

theorem split32 (n : Nat) (h : n < 2^32) :
    n / 2^31 < 2 ∧ n / 2^23 % 2^8 < 256 ∧ n % 2^23 < 2^23 ∧
    n = n / 2^31 * 2^31 + n / 2^23 % 2^8 * 2^23 + n % 2^23 := by omega

theorem split64 (s E M : Nat) (hs : s < 2) (hE : E < 2048) (hM : M < 2^52) :
    (s * 2^63 + (E * 2^52 + M)) < 2^64 ∧ (s * 2^63 + (E * 2^52 + M)) / 2^63 = s ∧
    (s * 2^63 + (E * 2^52 + M)) / 2^52 % 2^11 = E ∧ (s * 2^63 + (E * 2^52 + M)) % 2^52 = M := by omega

theorem floatParts64 (s E M : Nat) (hs : s < 2) (hE : E < 2048) (hM : M < 2^52) :
    floatParts 11 52 (s * 2^63 + (E * 2^52 + M)) =
      if E = 2047 then none
      else if E = 0 then some (decide (s = 1), M, (-1074 : Int))
      else some (decide (s = 1), M + 2^52, (E : Int) - 1075) := by
  obtain ⟨h1, h2, h3, h4⟩ := split64 s E M hs hE hM
  have hs' : s % 2 = s := Nat.mod_eq_of_lt hs
  have e1 : (11 + 52 : Nat) = 63 := rfl
  simp only [floatParts, e1, h2, h3, h4, hs']
  split
  · rfl
  split
  · rfl
  · simp only [Option.some.injEq, Prod.mk.injEq, true_and]
    omega

theorem floatParts32 (s e m : Nat) (hs : s < 2) (he : e < 256) (hm : m < 2^23) :
    floatParts 8 23 (s * 2^31 + (e * 2^23 + m)) =
      if e = 255 then none
      else if e = 0 then some (decide (s = 1), m, (-149 : Int))
      else some (decide (s = 1), m + 2^23, (e : Int) - 150) := by
  have h2 : (s * 2^31 + (e * 2^23 + m)) / 2^31 = s := by omega
  have h3 : (s * 2^31 + (e * 2^23 + m)) / 2^23 % 2^8 = e := by omega
  have h4 : (s * 2^31 + (e * 2^23 + m)) % 2^23 = m := by omega
  have hs' : s % 2 = s := Nat.mod_eq_of_lt hs
  have e1 : (8 + 23 : Nat) = 31 := rfl
  simp only [floatParts, e1, h2, h3, h4, hs']
  split
  · rfl
  split
  · rfl
  · simp only [Option.some.injEq, Prod.mk.injEq, true_and]
    omega

theorem widensNat_none {f d : Nat} (hf : floatParts 8 23 f = none) (hd : floatParts 11 52 d = none) :
    WidensNat f d ↔ (f / 2^31 = d / 2^63 ∧ (f % 2^23 = 0 ↔ d % 2^52 = 0)) := by
  simp only [WidensNat, hf, hd]

theorem widensNat_some {f d : Nat} {a b} (hf : floatParts 8 23 f = some a)
    (hd : floatParts 11 52 d = some b) : WidensNat f d ↔ SameReal a b := by
  simp only [WidensNat, hf, hd]

theorem split32' (s e m : Nat) (hs : s < 2) (he : e < 256) (hm : m < 2^23) :
    (s * 2^31 + (e * 2^23 + m)) / 2^31 = s ∧ (s * 2^31 + (e * 2^23 + m)) % 2^23 = m := by omega

theorem widen_special (s e m E M : Nat) (hs : s < 2) (hm : m < 2^23) (hM : M < 2^52) (h : m = 0 ↔ M = 0)
    (he : e = 255) (hE : E = 2047) :
    WidensNat (s * 2^31 + (e * 2^23 + m)) (s * 2^63 + (E * 2^52 + M)) := by
  have hB := floatParts64 s E M hs (by omega) hM
  have hA := floatParts32 s e m hs (by omega) hm
  obtain ⟨h1, h2, h3, h4⟩ := split64 s E M hs (by omega) hM
  obtain ⟨h5, h6⟩ := split32' s e m hs (by omega) hm
  rw [if_pos he] at hA
  rw [if_pos hE] at hB
  exact (widensNat_none hA hB).mpr ⟨h5.trans h2.symm, by rw [h6, h4]; exact h⟩

theorem widen_finite (s e m E M : Nat) (hs : s < 2) (hm : m < 2^23) (hM : M < 2^52) (he : e < 255)
    (hE : E < 2047)
    (h : SameReal (if e = 0 then (decide (s = 1), m, (-149 : Int)) else (decide (s = 1), m + 2^23, (e : Int) - 150))
      (if E = 0 then (decide (s = 1), M, (-1074 : Int)) else (decide (s = 1), M + 2^52, (E : Int) - 1075))) :
    WidensNat (s * 2^31 + (e * 2^23 + m)) (s * 2^63 + (E * 2^52 + M)) := by
  have hB := floatParts64 s E M hs (by omega) hM
  have hA := floatParts32 s e m hs (by omega) hm
  rw [if_neg (by omega)] at hA hB
  split at h <;> split at h <;> rename_i h1 h2
  · rw [if_pos h1] at hA; rw [if_pos h2] at hB; exact (widensNat_some hA hB).mpr h
  · rw [if_pos h1] at hA; rw [if_neg h2] at hB; exact (widensNat_some hA hB).mpr h
  · rw [if_neg h1] at hA; rw [if_pos h2] at hB; exact (widensNat_some hA hB).mpr h
  · rw [if_neg h1] at hA; rw [if_neg h2] at hB; exact (widensNat_some hA hB).mpr h

theorem sameReal_of {s : Bool} {m₁ m₂ : Nat} {e₁ e₂ : Int} (k : Nat) (he : e₁ = e₂ + k)
    (hm : m₁ * 2 ^ k = m₂) : SameReal (s, m₁, e₁) (s, m₂, e₂) := by
  subst he hm
  unfold SameReal
  refine ⟨rfl, ?_⟩
  have h1 : (e₂ + (k : Int) - min (e₂ + (k : Int)) e₂).toNat = k := by omega
  have h2 : (e₂ - min (e₂ + (k : Int)) e₂).toNat = 0 := by omega
  rw [h1, h2, Nat.pow_zero, Nat.mul_one]

theorem widen_fields (s e m : Nat) (hs : s < 2) (he : e < 256) (hm : m < 2^23) :
    widenFields s e m < 2^64 ∧ WidensNat (s * 2^31 + (e * 2^23 + m)) (widenFields s e m) := by
  unfold widenFields
  split
  · subst e
    split
    · exact ⟨(split64 _ _ _ hs (by omega) (by omega)).1, widen_special s 255 m 2047 0 hs hm (by omega) (by omega) rfl rfl⟩
    · have hor : m * 2^29 ||| 2^51 < 2^52 := Nat.or_lt_two_pow (by omega) (by omega)
      have hor2 : 2^51 ≤ m * 2^29 ||| 2^51 := Nat.right_le_or
      exact ⟨(split64 _ _ _ hs (by omega) hor).1, widen_special s 255 m 2047 _ hs hm hor (by omega) rfl rfl⟩
  split
  · subst e
    split
    · subst m
      refine ⟨(split64 _ _ _ hs (by omega) (by omega)).1,
        widen_finite s 0 0 0 0 hs hm (by omega) (by omega) (by omega) ?_⟩
      exact ⟨rfl, by rw [Nat.zero_mul, Nat.zero_mul]⟩
    · rename_i hm0
      have hl1 : 2 ^ Nat.log2 m ≤ m := Nat.log2_self_le hm0
      have hl2 : m < 2 ^ (Nat.log2 m + 1) := Nat.lt_log2_self
      have hl3 : Nat.log2 m < 23 := (Nat.log2_lt hm0).mpr hm
      generalize Nat.log2 m = l at *
      have hA : 2^52 ≤ m * 2^(52-l) := by
        have : 2^l * 2^(52-l) = 2^52 := by rw [← Nat.pow_add]; congr 1; omega
        rw [← this]; exact Nat.mul_le_mul_right _ hl1
      have hB : m * 2^(52-l) < 2^53 := by
        have : 2^(l+1) * 2^(52-l) = 2^53 := by rw [← Nat.pow_add]; congr 1; omega
        rw [← this]; exact Nat.mul_lt_mul_of_pos_right hl2 (Nat.pow_pos (by decide))
      refine ⟨(split64 _ _ _ hs (by omega) (by omega)).1,
        widen_finite s 0 m (l + 1023 - 149) (m * 2^(52-l) - 2^52) hs hm (by omega) (by omega) (by omega) ?_⟩
      rw [if_pos rfl, if_neg (by omega)]
      exact sameReal_of (52 - l) (by omega) (by omega)
  · refine ⟨(split64 _ _ _ hs (by omega) (by omega)).1,
      widen_finite s e m (e + 896) (m * 2^29) hs hm (by omega) (by omega) (by omega) ?_⟩
    rw [if_neg (by omega), if_neg (by omega)]
    exact sameReal_of 29 (by omega) (by omega)

theorem widenBits_widens (f : UInt32) : Widens f (widenBits f) := by
  have hn := f.toNat_lt
  unfold Widens widenBits
  generalize f.toNat = n at *
  obtain ⟨hs, he, hm, hd⟩ := split32 n hn
  obtain ⟨h1, h2⟩ := widen_fields _ _ _ hs he hm
  rw [UInt64.toNat_ofNat', Nat.mod_eq_of_lt h1]
  have : n / 2^31 * 2^31 + (n / 2^23 % 2^8 * 2^23 + n % 2^23) = n := by omega
  rw [this] at h2
  exact h2

end Bolt
