import Verif.Proofs.EncoderTest
import Mathlib.Tactic.SplitIfs

/-!
# C91: the repository's property tests of the encoder, for every value

The tests of `encoding/encoder_test.go` compare `Encode` with an expectation on values drawn at random.
Here both sides are compared for every value of the types they draw from: the expectations are those of
`Verif/Spec/EncoderTest.lean`.
-/

namespace Bolt
open EncoderTest

/-- `TestEncodeNil`, `TestEncodeBool`: for every boolean. -/
theorem c91_bool (b : Bool) :
    result .nil = some EncoderTest.nil ∧ result (.bool b) = some (EncoderTest.bool b) := by
  cases b <;> exact ⟨rfl, rfl⟩

theorem result_small {v : Val} {p : Bytes} (he : (encOps v).err = none) (hp : (encOps v).bytes = p)
    (hn : p ≠ []) (hl : p.length ≤ 65535) : result v = some (read (be 2 p.length ++ p ++ [0, 0])) := by
  have h : payload v = p := hp
  rw [result_payload he (by rw [h]; exact hn), h, if_pos hl]
  rfl

theorem result_int {k : IntKind} {v w : Int} (h : encodeIntKind k v = encodeInt w)
    (hw : -2^63 ≤ w ∧ w < 2^63) : result (.int k v) = EncoderTest.int w := by
  have hr : ∀ p : Bytes, (encodeInt w).err = none → (encodeInt w).bytes = p → p ≠ [] → p.length ≤ 65535 →
      result (.int k v) = some (read (be 2 p.length ++ p ++ [0, 0])) := by
    intro p h1 h2 h3 h4
    exact result_small (v := .int k v) (by simpa [encOps, h] using h1) (by simpa [encOps, h] using h2) h3 h4
  have hl : ∀ n, (beSigned n w).length = n := by simp [beSigned]
  have hone : ∀ (m : UInt8) (n : Nat), n ≤ 8 → encodeInt w = (Ops.write [m]).seq (.write (beSigned n w)) →
      result (.int k v) = some (read (be 2 (n + 1) ++ [m] ++ beSigned n w ++ [0, 0])) := by
    intro m n hn he
    refine (hr (m :: beSigned n w) (by rw [he]; rfl) (by rw [he]; simp) (by simp) (by simp [hl]; omega)).trans ?_
    simp [hl]
  simp only [EncoderTest.int, show (2 : Int)^63 = 9223372036854775808 from rfl,
    show (2 : Int)^31 = 2147483648 from rfl, show (2 : Int)^15 = 32768 from rfl,
    show (2 : Int)^7 = 128 from rfl] at hw ⊢
  by_cases h1 : w < -2147483648
  · rw [if_pos (by omega)]
    exact hone 0xCB 8 (by omega) (by rw [encodeInt, if_pos (by omega)]; rfl)
  rw [if_neg (by omega)]
  by_cases h2 : w < -32768
  · rw [if_pos (by omega)]
    exact hone 0xCA 4 (by omega) (by rw [encodeInt, if_neg (by omega), if_pos (by omega)]; rfl)
  rw [if_neg (by omega)]
  by_cases h3 : w < -128
  · rw [if_pos (by omega)]
    exact hone 0xC9 2 (by omega) (by rw [encodeInt, if_neg (by omega), if_neg (by omega), if_pos (by omega)]; rfl)
  rw [if_neg (by omega)]
  by_cases h4 : w < -16
  · rw [if_pos (by omega)]
    exact hone 0xC8 1 (by omega)
      (by rw [encodeInt, if_neg (by omega), if_neg (by omega), if_neg (by omega), if_pos (by omega)]; rfl)
  rw [if_neg (by omega)]
  by_cases h5 : w ≤ 127
  · rw [if_pos (by omega)]
    have he : encodeInt w = .write (beSigned 1 w) := by
      rw [encodeInt, if_neg (by omega), if_neg (by omega), if_neg (by omega), if_neg (by omega),
        if_pos (by omega)]
    refine (hr (beSigned 1 w) (by rw [he]; rfl) (by rw [he]; simp)
      (fun hc => by have := congrArg List.length hc; simp [hl] at this) (by simp [hl])).trans ?_
    simp [hl]
  rw [if_neg (by omega)]
  by_cases h6 : w ≤ 32767
  · rw [if_pos (by omega)]
    exact hone 0xC9 2 (by omega) (by rw [encodeInt, if_neg (by omega), if_neg (by omega), if_neg (by omega),
      if_neg (by omega), if_neg (by omega), if_pos (by omega)]; rfl)
  rw [if_neg (by omega)]
  by_cases h7 : w ≤ 2147483647
  · rw [if_pos (by omega)]
    exact hone 0xCA 4 (by omega) (by rw [encodeInt, if_neg (by omega), if_neg (by omega), if_neg (by omega),
      if_neg (by omega), if_neg (by omega), if_neg (by omega), if_pos (by omega)]; rfl)
  rw [if_neg (by omega), if_pos (by omega)]
  exact hone 0xCB 8 (by omega) (by rw [encodeInt, if_neg (by omega), if_neg (by omega), if_neg (by omega),
    if_neg (by omega), if_neg (by omega), if_neg (by omega), if_neg (by omega), if_pos (by omega)]; rfl)

theorem wrapSigned_int64 {v : Int} (h : -2^63 ≤ v ∧ v < 2^64) :
    wrapSigned 8 v = int64 v ∧ -2^63 ≤ int64 v ∧ int64 v < 2^63 := by
  unfold wrapSigned int64
  simp only [show (2 : Int)^63 = 9223372036854775808 from rfl, show (2 : Int)^64 = 18446744073709551616 from rfl,
    show (256 : Nat)^8 = 18446744073709551616 from rfl] at h ⊢
  split <;> split <;> omega

/-- `TestEncodeInt`, …, `TestEncodeUint32`: for every value of the nine integer types other than `uint64`.
The expectation for `uint` is the conversion to `int64`, negative from 2⁶³ on. -/
theorem c91_int {k : IntKind} (hk : k ≠ .uint64) {v : Int} (hv : k.InRange v) :
    result (.int k v) = EncoderTest.int (int64 v) ∧ (EncoderTest.int (int64 v)).isSome := by
  have h : -2^63 ≤ v ∧ v < 2^64 := by
    cases k <;> simp only [IntKind.InRange] at hv <;> omega
  obtain ⟨h1, h2⟩ := wrapSigned_int64 h
  refine ⟨result_int (by cases k <;> first | exact congrArg encodeInt h1 | exact absurd rfl hk) h2, ?_⟩
  unfold EncoderTest.int
  split_ifs <;> first | rfl | (exfalso; omega)

/-- `TestEncodeUint64`: nothing from 2⁶³ on, `Encode` fails; below, as the other types. -/
theorem c91_uint64 {v : Int} (hv : IntKind.InRange .uint64 v) :
    result (.int .uint64 v) = if v > 2^63 - 1 then none else EncoderTest.int v := by
  simp only [IntKind.InRange] at hv
  split
  · have : (encOps (.int .uint64 v)) = .fail (.new "Integer too big: %d. Max integer supported: %d") := by
      simp only [encOps, encodeIntKind]
      rw [if_pos (by omega)]
    unfold result encodeTo
    rw [this]
    rfl
  · have h : int64 v = v := by unfold int64; split <;> omega
    obtain ⟨h1, h2⟩ := wrapSigned_int64 (v := v) (by omega)
    rw [h] at h1 h2
    exact result_int (by rw [encodeIntKind, if_neg (by omega), h1]) h2

/-- `TestEncodeFloat32`, `TestEncodeFloat64`: for every bit pattern, `float64(val)` for a `float32`. -/
theorem c91_float (b : UInt32) (d : UInt64) :
    result (.float32 b) = some (EncoderTest.float (widenBits b)) ∧
      result (.float64 d) = some (EncoderTest.float d) := by
  have h : ∀ v d, encOps v = encodeFloat d → result v = some (EncoderTest.float d) := by
    intro v d h
    refine (result_small (v := v) (p := 0xC1 :: be 8 d.toNat) (by rw [h]; rfl)
      (by rw [h]; simp [encodeFloat, FloatMarker]) (by simp) (by simp)).trans ?_
    simp [EncoderTest.float]
  exact ⟨h _ _ (by simp [encOps]), h _ _ (by simp [encOps])⟩

theorem payload_str {s : Str} (h : s.length ≤ 4294967295) :
    (encodeString s).err = none ∧ (encodeString s).bytes = strBuf s := by
  unfold encodeString strBuf
  by_cases h1 : s.length ≤ 15
  · simp [h1, TinyStringMarker]
  by_cases h2 : s.length ≤ 255
  · simp [h1, h2, String8Marker, show 15 < s.length by omega]
  by_cases h3 : s.length ≤ 65535
  · simp [h1, h2, h3, String16Marker, show 255 < s.length by omega]
  · simp [h1, h2, h3, h, String32Marker, show 65535 < s.length by omega]

theorem payload_slice {n : Nat} (h : n ≤ 4294967295) :
    (sliceHeader n).err = none ∧ (sliceHeader n).bytes = sliceBuf n := by
  unfold sliceHeader sliceBuf
  by_cases h1 : n ≤ 15
  · simp [h1, TinySliceMarker]
  by_cases h2 : n ≤ 255
  · simp [h1, h2, Slice8Marker, show 15 < n by omega]
  by_cases h3 : n ≤ 65535
  · simp [h1, h2, h3, Slice16Marker, show 255 < n by omega]
  · simp [h1, h2, h3, h, Slice32Marker, show 65535 ≤ n by omega]

/-- The bytes a test expects fit its way of looking: one chunk, or a length whose low sixteen bits happen
to be those of a full chunk. -/
def Fits (n : Nat) : Prop := n ≤ 65535 ∨ n % 65536 = 65535

/-- `TestEncodeString`, exactly: for every string the encoder accepts, the check of the test succeeds if and
only if the encoded string fits one chunk (or its length is 65535 modulo 65536). -/
theorem c91_string_partial {s : Str} (h : s.length ≤ 4294967295) :
    (result (.str s)).isSome ∧ (result (.str s) = some (EncoderTest.str s) ↔ Fits (strBuf s).length) := by
  obtain ⟨h1, h2⟩ := payload_str h
  have hp : payload (.str s) = strBuf s := by rw [payload_eq, encOps, h2]
  have hn : payload (.str s) ≠ [] := by
    rw [hp]; unfold strBuf; split_ifs <;> simp
  refine ⟨by rw [result_payload (by rw [encOps]; exact h1) hn]; rfl, ?_⟩
  have := result_message (v := .str s) (by rw [encOps]; exact h1) hn
  rwa [hp] at this

theorem enc_bools (l : List Bool) : (encList (l.map .bool)).err = none ∧
    (encList (l.map .bool)).bytes = l.map fun b => if b then 0xC3 else 0xC2 := by
  induction l with
  | nil => exact ⟨rfl, rfl⟩
  | cons b l ih =>
    have hb : (encOps (.bool b)).err = none ∧ (encOps (.bool b)).bytes = [if b then 0xC3 else 0xC2] := by
      cases b <;> exact ⟨rfl, rfl⟩
    simp only [List.map_cons, encList, err_seq, bytes_seq hb.1]
    exact ⟨⟨hb.1, ih.1⟩, by rw [hb.2, ih.2]; rfl⟩

theorem enc_strs {l : List Str} (h : ∀ s ∈ l, s.length ≤ 4294967295) : (encList (l.map .str)).err = none ∧
    (encList (l.map .str)).bytes = l.flatMap strBuf := by
  induction l with
  | nil => exact ⟨rfl, rfl⟩
  | cons s l ih =>
    have hb := payload_str (h s (by simp))
    have ih := ih fun s hs => h s (by simp [hs])
    have he : encOps (.str s) = encodeString s := by rw [encOps]
    simp only [List.map_cons, encList, he, err_seq, bytes_seq hb.1]
    exact ⟨⟨hb.1, ih.1⟩, by rw [hb.2, ih.2]; rfl⟩

theorem result_slice {xs : List Val} {p : Bytes} (hn : xs.length ≤ 4294967295)
    (h : (encList xs).err = none ∧ (encList xs).bytes = p) :
    (result (.typedSlice xs)).isSome ∧
      (result (.typedSlice xs) = some (message (sliceBuf xs.length ++ p)) ↔
        Fits (sliceBuf xs.length ++ p).length) := by
  obtain ⟨h1, h2⟩ := payload_slice hn
  have he : (encOps (.typedSlice xs)).err = none := by rw [encOps, err_seq]; exact ⟨h1, h.1⟩
  have hp : payload (.typedSlice xs) = sliceBuf xs.length ++ p := by
    rw [payload_eq, encOps, bytes_seq h1, h2, h.2]
  have hne : payload (.typedSlice xs) ≠ [] := by
    rw [hp]; unfold sliceBuf; split_ifs <;> simp
  refine ⟨by rw [result_payload he hne]; rfl, ?_⟩
  have := result_message he hne
  rwa [hp] at this

/-- `TestEncodeInterfaceSlice`, which draws values of `[]bool`, exactly. -/
theorem c91_bools_partial {l : List Bool} (h : l.length ≤ 4294967295) :
    (result (.typedSlice (l.map .bool))).isSome ∧
      (result (.typedSlice (l.map .bool)) = some (EncoderTest.bools l) ↔
        Fits ((sliceBuf l.length).length + l.length)) := by
  have := result_slice (xs := l.map .bool) (by simpa using h) (enc_bools l)
  simpa [EncoderTest.bools] using this

/-- `TestEncodeStringSlice`, exactly. -/
theorem c91_strings_partial {l : List Str} (h : l.length ≤ 4294967295) (hs : ∀ s ∈ l, s.length ≤ 4294967295) :
    (result (.typedSlice (l.map .str))).isSome ∧
      (result (.typedSlice (l.map .str)) = some (EncoderTest.strs l) ↔
        Fits (sliceBuf l.length ++ l.flatMap strBuf).length) := by
  have := result_slice (xs := l.map .str) (by simpa using h) (enc_strs hs)
  simpa [EncoderTest.strs] using this

/-- The tests do not hold for every string: one of 65533 bytes is encoded in two chunks, the test expects
the size of the whole message, 65536, in sixteen bits. The encoder is right; the test is not. -/
theorem c91_false : ∃ s : Str, s.length = 65533 ∧ result (.str s) ≠ some (EncoderTest.str s) := by
  have hl : (List.replicate 65533 (97 : UInt8)).length = 65533 := List.length_replicate
  generalize List.replicate 65533 (97 : UInt8) = s at hl
  refine ⟨s, hl, fun h => ?_⟩
  have := (c91_string_partial (s := s) (by omega)).2.mp h
  simp [Fits, strBuf, hl] at this

/-- A string that meets the condition: sixteen letters `a` (`String8`, the size as an `int8`). -/
theorem c91_case : result (.str (List.replicate 16 97)) = some ([0, 18, 0xD0, 16] ++ List.replicate 16 97 ++ [0, 0]) ∧
    EncoderTest.str (List.replicate 16 97) = [0, 18, 0xD0, 16] ++ List.replicate 16 97 ++ [0, 0] := by
  constructor <;> rfl

/-- The values at which the expectations for integers change. -/
theorem c91_edges :
    result (.int .int (-17)) = some [0, 2, 0xC8, 0xEF, 0, 0] ∧
    result (.int .int8 (-16)) = some [0, 1, 0xF0, 0, 0] ∧
    result (.int .uint16 128) = some [0, 3, 0xC9, 0, 0x80, 0, 0] ∧
    result (.int .uint (2^64 - 1)) = some [0, 1, 0xFF, 0, 0] ∧
    result (.int .uint64 (2^64 - 1)) = none := by
  refine ⟨rfl, rfl, rfl, rfl, rfl⟩

end Bolt
