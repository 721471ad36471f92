import Verif.Model.Basic
import Verif.Spec.PackStream

/-! Helper lemmas about big-endian bytes. -/

namespace Bolt
open PackStream

@[simp] theorem be_length (w n : Nat) : (be w n).length = w := by
  induction w with
  | zero => rfl
  | succ w ih => simp [be, ih]

theorem ofBytes_lt (bs : Bytes) : ofBytes bs < 256 ^ bs.length := by
  induction bs with
  | nil => simp [ofBytes]
  | cons b bs ih =>
    simp only [ofBytes, List.length_cons, Nat.pow_succ]
    have := b.toNat_lt
    have h : b.toNat * 256 ^ bs.length ≤ 255 * 256 ^ bs.length := Nat.mul_le_mul_right _ (by omega)
    omega

theorem ofBytes_be (w n : Nat) : ofBytes (be w n) = n % 256 ^ w := by
  induction w with
  | zero => simp [be, ofBytes, Nat.mod_one]
  | succ w ih =>
    simp only [be, ofBytes, be_length, ih, UInt8.toNat_ofNat']
    rw [Nat.pow_succ 256 w, Nat.mod_mul, Nat.mul_comm, Nat.add_comm]

theorem ofBytes_append (a b : Bytes) : ofBytes (a ++ b) = ofBytes a * 256 ^ b.length + ofBytes b := by
  induction a with
  | nil => simp [ofBytes]
  | cons x a ih =>
    simp only [List.cons_append, ofBytes, ih, List.length_append, Nat.pow_add, Nat.add_mul, Nat.mul_assoc,
      Nat.add_assoc]

theorem foldl_be (bs : Bytes) (a : Nat) :
    bs.foldl (fun a b => a * 256 + b.toNat) a = a * 256 ^ bs.length + ofBytes bs := by
  induction bs generalizing a with
  | nil => simp [ofBytes]
  | cons b bs ih =>
    simp only [List.foldl_cons, ih, ofBytes, List.length_cons, Nat.pow_succ, Nat.add_mul]
    rw [Nat.mul_assoc, Nat.mul_comm 256]
    omega

theorem beNat_eq (bs : Bytes) : beNat bs = ofBytes bs := by
  simp [beNat, foldl_be]

theorem unsigned_be {w n : Nat} (h : n < 256 ^ w) : Unsigned w n (be w n) :=
  ⟨be_length w n, by rw [ofBytes_be, Nat.mod_eq_of_lt h]⟩

theorem ofBytes_inj {a b : Bytes} (hl : a.length = b.length) (h : ofBytes a = ofBytes b) : a = b := by
  induction a generalizing b with
  | nil => cases b <;> simp_all
  | cons x a ih =>
    cases b with
    | nil => simp at hl
    | cons y b =>
      simp only [List.length_cons, Nat.add_right_cancel_iff] at hl
      simp only [ofBytes, hl] at h
      have ha := ofBytes_lt a
      have hb := ofBytes_lt b
      rw [hl] at ha
      have hp : 0 < 256 ^ b.length := Nat.pow_pos (by decide)
      have hx : x.toNat = y.toNat := by
        have h1 : (x.toNat * 256 ^ b.length + ofBytes a) / 256 ^ b.length = x.toNat := by
          rw [Nat.mul_comm, Nat.mul_add_div hp, Nat.div_eq_of_lt ha]; omega
        have h2 : (y.toNat * 256 ^ b.length + ofBytes b) / 256 ^ b.length = y.toNat := by
          rw [Nat.mul_comm, Nat.mul_add_div hp, Nat.div_eq_of_lt hb]; omega
        rw [← h1, ← h2, h]
      have : ofBytes a = ofBytes b := by rw [hx] at h; omega
      rw [ih hl this, UInt8.toNat_inj.mp hx]

theorem unsigned_inj {w n : Nat} {a b : Bytes} (ha : Unsigned w n a) (hb : Unsigned w n b) : a = b :=
  ofBytes_inj (ha.1.trans hb.1.symm) (ha.2.trans hb.2.symm)

theorem signed_inj {w : Nat} {v : Int} {a b : Bytes} (ha : Signed w v a) (hb : Signed w v b) : a = b := by
  refine ofBytes_inj (ha.1.trans hb.1.symm) ?_
  have := ha.2.2.2.trans hb.2.2.2.symm
  exact Int.ofNat_inj.mp this

/-- Two's complement written by the model is two's complement of the specification. -/
theorem signed_beSigned {w : Nat} {v : Int} (h1 : -(256 ^ w : Nat) ≤ 2 * v) (h2 : 2 * v < (256 ^ w : Nat)) :
    Signed w v (beSigned w v) := by
  refine ⟨be_length _ _, h1, h2, ?_⟩
  have hpos : (0 : Int) < (256 ^ w : Nat) := by
    have : 0 < 256 ^ w := Nat.pow_pos (by decide)
    omega
  rw [beSigned, ofBytes_be]
  have hm0 := Int.emod_nonneg v (b := ((256 ^ w : Nat) : Int)) (by omega)
  have hm1 := Int.emod_lt_of_pos v hpos
  generalize 256 ^ w = M at *
  have : ((v % (M : Int)).toNat % M) = (v % (M : Int)).toNat := Nat.mod_eq_of_lt (by omega)
  rw [this, Int.toNat_of_nonneg hm0]
  split
  · rw [← Int.add_emod_right, Int.emod_eq_of_lt] <;> omega
  · rw [Int.emod_eq_of_lt] <;> omega

/-- The model reads two's complement as the specification defines it. -/
theorem signedOf_eq {w : Nat} {v : Int} {bs : Bytes} (h : Signed w v bs) (hw : 0 < w) :
    signedOf w bs = v := by
  obtain ⟨hl, h1, h2, h3⟩ := h
  have hb := ofBytes_lt bs
  rw [hl] at hb
  rw [signedOf, beNat_eq, wrapSigned]
  generalize hM : 256 ^ w = M at *
  have hmod : ((ofBytes bs : Nat) : Int) % (M : Int) = ofBytes bs := Int.emod_eq_of_lt (by omega) (by omega)
  simp only [hmod]
  have he : M % 2 = 0 := by
    subst hM
    cases w with
    | zero => omega
    | succ n => rw [Nat.pow_succ]; omega
  split at h3 <;> split <;> omega

/-- Every byte string of the right length is the two's complement of what the model reads. -/
theorem signed_signedOf {w : Nat} {bs : Bytes} (hl : bs.length = w) (hw : 0 < w) :
    Signed w (signedOf w bs) bs := by
  have hb := ofBytes_lt bs
  rw [hl] at hb
  rw [signedOf, beNat_eq, wrapSigned]
  have he : 256 ^ w % 2 = 0 := by
    cases w with
    | zero => omega
    | succ n => rw [Nat.pow_succ]; omega
  refine ⟨hl, ?_⟩
  generalize 256 ^ w = M at *
  have hmod : ((ofBytes bs : Nat) : Int) % (M : Int) = ofBytes bs := Int.emod_eq_of_lt (by omega) (by omega)
  simp only [hmod]
  split <;> refine ⟨by omega, by omega, ?_⟩ <;> split <;> omega

/-- A conversion to a wide enough type does not change the value. -/
theorem wrapSigned_eq {w : Nat} {v : Int} (h1 : -(256 ^ w : Nat) ≤ 2 * v) (h2 : 2 * v < (256 ^ w : Nat))
    (hw : 0 < w) : wrapSigned w v = v := by
  have he : 256 ^ w % 2 = 0 := by
    cases w with
    | zero => omega
    | succ n => rw [Nat.pow_succ]; omega
  rw [wrapSigned]
  have hpos : (0 : Int) < (256 ^ w : Nat) := by
    have : 0 < 256 ^ w := Nat.pow_pos (by decide)
    omega
  generalize 256 ^ w = M at *
  have hdef : v % (M : Int) = if v < 0 then v + M else v := by
    split
    · rw [← Int.add_emod_right, Int.emod_eq_of_lt] <;> omega
    · rw [Int.emod_eq_of_lt] <;> omega
  simp only [hdef]
  split <;> split <;> omega

end Bolt
