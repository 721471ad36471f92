import Verif.Model.Stream
import Verif.Proofs.Decode

/-!
# `isSuccess` tells SUCCESS messages

`Item.ofPayload` gives the value beside a decoder error by looking at the first bytes (`isSuccess`). Here: where the
decoder succeeds, these bytes tell what it returns.
-/

namespace Bolt

open PackStream

/-- The values this computation returns are SUCCESS messages (`p`), or none of them is. -/
def Makes (p : Bool) (d : Dec Val) : Prop := ∀ b v b', d b = .ok (v, b') → v.isSuccess = p

theorem Makes.bind {α : Type} {p : Bool} {x : Dec α} {f : α → Dec Val} (h : ∀ a, Makes p (f a)) : Makes p (x >>= f) := by
  intro b v b' h1
  simp only [Dec.bind_eq] at h1
  split at h1
  · exact h _ _ _ _ h1
  · cases h1

theorem Makes.pure {p : Bool} {v : Val} (h : v.isSuccess = p) : Makes p (Dec.pure v) := by
  intro b v b' h1
  cases h1
  exact h

theorem Makes.throw {p : Bool} {e : GoErr} : Makes p (Dec.throw e) := by
  intro b v b' h1; cases h1

theorem Makes.panic {p : Bool} {e : Panic} : Makes p (Dec.panic e) := by
  intro b v b' h1; cases h1

theorem Makes.ite {p : Bool} {c : Prop} [Decidable c] {x y : Dec Val} (hx : c → Makes p x) (hy : ¬ c → Makes p y) :
    Makes p (if c then x else y) := by
  split
  · exact hx ‹_›
  · exact hy ‹_›

theorem makes_next {n : Int} : Makes false (next n) := by
  intro b v b' h
  unfold next at h
  split at h <;> cases h
  rfl

theorem makes_sig {dec : Dec Val} {sig : UInt8} : Makes (sig == SuccessMessageSignature) (decodeSig dec sig) := by
  unfold decodeSig decodeNode decodeRelationship decodePath decodeUnbound decodeRecord decodeFailure decodeSuccess
  by_cases h : sig = SuccessMessageSignature
  · subst h
    simp only [NodeSignature, RelationshipSignature, PathSignature, UnboundRelationshipSignature, RecordMessageSignature,
      FailureMessageSignature, IgnoredMessageSignature, SuccessMessageSignature]
    refine Makes.bind fun _ => Makes.bind fun _ => Makes.pure rfl
  · rw [beq_eq_false_iff_ne.mpr h]
    repeat' first
      | exact Makes.throw
      | exact Makes.pure rfl
      | exact (h ‹_›).elim
      | refine Makes.bind fun _ => ?_
      | refine Makes.ite (fun _ => ?_) (fun _ => ?_)

theorem makes_struct {dec : Dec Val} {n : Int} {b b' : Bytes} {v : Val} (h : decodeStruct dec n b = .ok (v, b')) :
    (b.head? == some SuccessMessageSignature) = v.isSuccess := by
  unfold decodeStruct at h
  simp only [Dec.bind_eq] at h
  cases b with
  | nil => cases h
  | cons x b => rw [makes_sig _ _ _ h]; rfl

theorem readSize_drop {w : Nat} {msg : String} {b b' : Bytes} {n : Int} (h : readSize w msg b = .ok (n, b')) : b' = b.drop w := by
  unfold readSize readRaw at h
  split at h
  · next h1 =>
    split at h1
    · cases h1; cases h; rfl
    · split at h1 <;> cases h1
  · cases h
  · cases h

theorem makes_slice {dec : Dec Val} {n : Int} : Makes false (decodeSlice dec n) :=
  Makes.ite (fun _ => Makes.panic) fun _ => Makes.bind fun _ => Makes.pure rfl

theorem makes_map {dec : Dec Val} {n : Int} : Makes false (decodeMap dec n) := Makes.bind fun _ => Makes.pure rfl

theorem makes_int {n : Nat} : Makes false (readInt n) := Makes.bind fun _ => Makes.pure rfl

theorem makes_other {dec : Dec Val} {m : UInt8} (h1 : ¬ (m ≥ TinyStructMarker ∧ m ≤ TinyStructMarker + 0x0F))
    (h2 : m ≠ Struct8Marker) (h3 : m ≠ Struct16Marker) : Makes false (decodeMarker dec m) := by
  unfold decodeMarker
  rw [if_neg h1, if_neg h2, if_neg h3]
  dsimp only
  repeat' with_reducible first
    | exact Makes.throw
    | refine Makes.ite (fun _ => ?_) (fun _ => ?_)
    | exact makes_slice
    | exact makes_map
    | exact makes_next
    | exact makes_int
    | refine Makes.bind fun _ => ?_
    | exact Makes.pure rfl

/-- A payload that decodes to a value is recognised as a SUCCESS message exactly when the value is one. -/
theorem isSuccess_val {data : Bytes} {v : Val} (h : Item.ofPayload data = .val v) : isSuccess data = v.isSuccess := by
  have h1 : ∃ b, decodePayload data = .ok (v, b) := by
    unfold Item.ofPayload at h
    split at h <;> cases h
    exact ⟨_, ‹_›⟩
  obtain ⟨b, h1⟩ := h1
  unfold decodePayload at h1
  cases data with
  | nil => cases h1
  | cons m t =>
    rw [decode_cons] at h1
    generalize decode (m :: t).length = dec at h1
    unfold isSuccess
    simp only [Bool.and_eq_true, decide_eq_true_eq, beq_iff_eq]
    split
    · next hm =>
      obtain ⟨n, hn, rfl⟩ : ∃ n < 16, m = UInt8.ofNat (Kind.tiny .struct + n) := by
        simp only [ge_iff_le, UInt8.le_iff_toNat_le, show TinyStructMarker.toNat = 0xB0 from rfl,
          show (TinyStructMarker + 0x0F).toNat = 0xBF from rfl] at hm
        refine ⟨m.toNat - 0xB0, by omega, ?_⟩
        rw [show Kind.tiny .struct = 0xB0 from rfl, show 0xB0 + (m.toNat - 0xB0) = m.toNat by omega]
        exact (UInt8.ofNat_toNat).symm
      rw [decodeMarker_tiny _ _ _ hn] at h1
      exact makes_struct (n := n) h1
    · next hm =>
      split
      · next h8 =>
        subst h8
        have : decodeMarker dec Struct8Marker = (do
          let size ← readSize 1 "An error occurred reading struct size"
          decodeStruct dec size) := by simp [decodeMarker, NilMarker, TrueMarker, FalseMarker, Int8Marker, Int16Marker, Int32Marker, Int64Marker,
            FloatMarker, TinyStringMarker, String8Marker, String16Marker, String32Marker, TinySliceMarker,
            Slice8Marker, Slice16Marker, Slice32Marker, TinyMapMarker, Map8Marker, Map16Marker, Map32Marker,
            TinyStructMarker, Struct8Marker, Struct16Marker, wrapSigned]
        rw [this] at h1
        simp only [Dec.bind_eq] at h1
        split at h1
        · next h2 => rw [← readSize_drop h2]; exact makes_struct h1
        · cases h1
      · next h8 =>
        split
        · next h16 =>
          subst h16
          have : decodeMarker dec Struct16Marker = (do
            let size ← readSize 2 "An error occurred reading struct size"
            decodeStruct dec size) := by simp [decodeMarker, NilMarker, TrueMarker, FalseMarker, Int8Marker, Int16Marker, Int32Marker, Int64Marker,
            FloatMarker, TinyStringMarker, String8Marker, String16Marker, String32Marker, TinySliceMarker,
            Slice8Marker, Slice16Marker, Slice32Marker, TinyMapMarker, Map8Marker, Map16Marker, Map32Marker,
            TinyStructMarker, Struct8Marker, Struct16Marker, wrapSigned]
          rw [this] at h1
          simp only [Dec.bind_eq] at h1
          split at h1
          · next h2 => rw [← readSize_drop h2]; exact makes_struct h1
          · cases h1
        · next h16 => exact (makes_other hm h8 h16 _ _ _ h1).symm

end Bolt
