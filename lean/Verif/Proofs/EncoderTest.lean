import Verif.Spec.EncoderTest
import Verif.Proofs.Framing

/-! # The output of one `Encode`, read up to 65535 bytes (auxiliary lemmas for C91) -/

namespace Bolt

theorem tailLen_all {cs : Nat} (hc : 0 < cs) {r : Nat} (hr : r < cs) {ps : List Bytes}
    (h : tailLen cs r ps = r + ps.flatten.length) : r + ps.flatten.length < cs := by
  induction ps generalizing r with
  | nil => simpa using hr
  | cons p ps ih =>
    rw [tailLen] at h
    simp only [List.flatten_cons, List.length_append] at h ⊢
    by_cases hp : r + p.length ≥ cs
    · rw [if_pos hp] at h
      have := tailLen_le cs (r + p.length - cs) ps
      omega
    · rw [if_neg hp] at h
      have := ih (r := r + p.length) (by omega) (by omega)
      omega

theorem take_two {n : Nat} {p q : Bytes} (h : 65533 ≤ p.length) :
    (be 2 n ++ (p ++ q)).take 65535 = be 2 n ++ p.take 65533 := by
  rw [List.take_append, be_length, List.take_of_length_le (by simp), List.take_append_of_le_length (by omega)]

/-- A message of at most 65535 bytes is one chunk; of a longer one, the first 65535 bytes on the wire are
the size 65535 and the beginning of the message. -/
theorem result_payload {v : Val} (he : (encOps v).err = none) (hp : payload v ≠ []) :
    EncoderTest.result v = some (if (payload v).length ≤ 65535
      then (be 2 (payload v).length ++ payload v ++ [0, 0]).take 65535
      else be 2 65535 ++ (payload v).take 65533) := by
  obtain ⟨cks, buf, h1, h2, h3, h4⟩ := encodeTo_unlimited 65535 [] v
  rw [he] at h4
  unfold EncoderTest.result
  rw [h4]
  simp only [EncoderTest.read, List.nil_append, Option.some.injEq]
  match cks, h1, h2 with
  | [], _, h2 =>
    have hb : buf = payload v := by simpa using h2.symm
    subst hb
    have hlt := tailLen_all (cs := 65535) (by omega) (r := 0) (by omega) (ps := (encOps v).writes)
      (by rw [← h3]; simp [payload])
    have hl : (payload v).length < 65535 := by simpa [payload] using hlt
    rw [if_pos (by omega)]
    have hpos : 0 < (payload v).length := List.length_pos_iff.mpr hp
    simp [chunksOf, tailOf, if_pos hpos]
  | c :: cks, h1, h2 =>
    have hcl : c.length = 65535 := h1 c (by simp)
    have hpl : payload v = c ++ (cks.flatten ++ buf) := by simpa using h2
    have htk : (payload v).take 65533 = c.take 65533 := by
      rw [hpl, List.take_append_of_le_length (by omega)]
    have hout : (chunksOf 65535 (c :: cks) ++ tailOf buf).take 65535 = be 2 65535 ++ (payload v).take 65533 := by
      rw [htk]
      simp only [chunksOf, List.map_cons, List.flatten_cons, List.append_assoc]
      exact take_two (by omega)
    rw [hout]
    split
    · rename_i hle
      have : (cks.flatten ++ buf) = [] := by
        rw [hpl] at hle
        simp only [List.length_append] at hle
        apply List.eq_nil_of_length_eq_zero
        simp only [List.length_append]; omega
      rw [hpl, this, List.append_nil, hcl, List.append_assoc]
      exact (take_two (by omega)).symm
    · rfl

theorem be2_inj {n : Nat} : be 2 n = be 2 65535 ↔ n % 65536 = 65535 := by
  constructor
  · intro h
    have := congrArg beNat h
    simp only [be, beNat, List.foldl_cons, List.foldl_nil, UInt8.toNat_ofNat'] at this
    omega
  · intro h
    simp only [be, List.cons.injEq, and_true, ← UInt8.toNat_inj, UInt8.toNat_ofNat']
    omega

/-- When the result is what the tests' `message` says. -/
theorem result_message {v : Val} (he : (encOps v).err = none) (hp : payload v ≠ []) :
    EncoderTest.result v = some (EncoderTest.message (payload v)) ↔
      ((payload v).length ≤ 65535 ∨ (payload v).length % 65536 = 65535) := by
  rw [result_payload he hp, Option.some.injEq, EncoderTest.message, EncoderTest.read]
  split
  · rename_i h; simp [h]
  · rename_i h
    rw [List.append_assoc, take_two (by omega), List.append_left_inj, eq_comm, be2_inj]
    omega

end Bolt
