import Verif.Proofs.Memory
import Verif.Proofs.Sane

/-!
# C84: memory
-/

namespace Bolt
open Memory

/-- The counting decoder returns what the decoder returns. -/
theorem c84_same (b : Bytes) : (decodeM (b.length + 1) b).2 = decodePayload b := agree_decode _ b

/-- C84: a payload that is decoded makes the decoder allocate less than two elements for every byte read. Missing:
payloads that are rejected. -/
theorem c84_decoded_partial {b rest : Bytes} {v : Val} (h : decodePayload b = .ok (v, rest)) :
    allocated b + 2 + 2 * rest.length ≤ 2 * b.length := by
  have h1 := (pays_decode (b.length + 1) b).1 v rest (by rw [c84_same, h])
  unfold allocated
  simp only [due] at h1
  omega

/-- C84, any payload: 2^31 elements for every byte. -/
theorem c84_worst (b : Bytes) : allocated b ≤ 2147483648 * b.length := by
  have h := pays_decode (b.length + 1) b
  unfold allocated
  cases hr : (decodeM (b.length + 1) b).2 with
  | ok p => have := h.1 p.1 p.2 hr; simp only [due] at this; omega
  | error e => have := h.2 e hr; omega

/-- `k` lists, each the first element of the one before, each announcing 2^31-1 elements. -/
def nested (k : Nat) : Bytes := (List.replicate k [0xD6, 0x7F, 0xFF, 0xFF, 0xFF]).flatten

theorem items_fail {dec : Mem Val} {b : Bytes} {e : Fault} (h : (dec b).2 = .error e) (n : Nat) :
    itemsM dec (n + 1) b = ((dec b).1, .error e) := by
  unfold itemsM
  rw [bind_eq, h]

set_option maxRecDepth 100000 in
theorem marker_slice32 (dec : Mem Val) :
    markerM dec 0xD6 = (Mem.lift (readSize 4 "An error occurred reading slice size") >>= sliceM dec) := rfl

theorem readSize_big (m : String) (r : Bytes) : readSize 4 m (0x7F :: 0xFF :: 0xFF :: 0xFF :: r) = .ok (2147483647, r) := by
  unfold readSize readRaw
  rw [if_pos (by simp)]
  have : signedOf 4 [0x7F, 0xFF, 0xFF, 0xFF] = 2147483647 := by decide
  simp [this]

theorem nested_alloc (k : Nat) : ∀ f, k < f → (decodeM f (nested k)).1 = 2147483647 * k ∧
    (decodeM f (nested k)).2 = .error (.err (.wrap "Error reading marker" (some .eof))) := by
  induction k with
  | zero =>
    intro f hf
    cases f with
    | zero => omega
    | succ f => exact ⟨rfl, rfl⟩
  | succ k ih =>
    intro f hf
    cases f with
    | zero => omega
    | succ f =>
      obtain ⟨h1, h2⟩ := ih f (by omega)
      have h3 : nested (k + 1) = 0xD6 :: 0x7F :: 0xFF :: 0xFF :: 0xFF :: nested k := by
        unfold nested; rw [List.replicate_succ]; rfl
      have h4 : decodeM (f + 1) (nested (k + 1)) = sliceM (decodeM f) 2147483647 (nested k) := by
        rw [h3]
        rw [show decodeM (f + 1) = (Mem.lift (readByte "Error reading marker") >>= markerM (decodeM f)) from rfl, bind_eq]
        simp only [Mem.lift, readByte]
        rw [marker_slice32, bind_eq]
        simp only [Mem.lift, readSize_big, Nat.zero_add]
      have h5 : sliceM (decodeM f) 2147483647 (nested k) =
          (2147483647 + (decodeM f (nested k)).1, .error (.err (.wrap "Error reading marker" (some .eof)))) := by
        unfold sliceM
        rw [if_neg (by decide)]
        rw [bind_eq]
        simp only [Mem.alloc]
        rw [bind_eq, show (2147483647 : Int).toNat = 2147483646 + 1 from rfl, items_fail h2]
      rw [h4, h5, h1]
      exact ⟨by simp only; omega, rfl⟩

/-- C84 is false: for every `k`, a payload of `5 * k` bytes, which is rejected, makes the decoder ask for `k` slices of
2^31-1 elements: 32 GB for the first 5 bytes. -/
theorem c84_false (k : Nat) : (nested k).length = 5 * k ∧ allocated (nested k) = 2147483647 * k ∧
    decodePayload (nested k) = .error (.err (.wrap "Error reading marker" (some .eof))) := by
  have h0 : (nested k).length = 5 * k := by
    unfold nested; simp [List.length_flatten, Nat.mul_comm]
  obtain ⟨h1, h2⟩ := nested_alloc k ((nested k).length + 1) (by omega)
  exact ⟨h0, h1, by rw [← c84_same, h2]⟩

theorem announced_size (m : String) {n : Nat} (h : n < 2147483648) (r : Bytes) :
    readSize 4 m (be 4 n ++ r) = .ok ((n : _root_.Int), r) := by
  have h1 : be 4 n = beSigned 4 (n : _root_.Int) := by
    have : ((n : _root_.Int) % (256 ^ 4 : Nat)).toNat = n := by omega
    rw [beSigned, this]
  have h2 : signedOf 4 (be 4 n) = (n : _root_.Int) := by
    rw [h1]; exact signedOf_eq (signed_beSigned (by omega) (by omega)) (by omega)
  unfold readSize readRaw
  rw [if_pos (by simp), List.take_left' (by simp), List.drop_left' (by simp)]
  simp only [h2]

set_option maxRecDepth 100000 in
theorem marker_map32 (dec : Mem Val) :
    markerM dec 0xDA = (Mem.lift (readSize 4 "An error occurred reading map size") >>= mapM dec) := rfl

theorem alloc_le {f : Unit → Mem Val} (n : Nat) (b : Bytes) : n ≤ ((Mem.alloc n >>= f) b).1 := by
  rw [bind_eq]; simp only [Mem.alloc]; omega

/-- What a list or a map announces is allocated, whether or not the elements follow. -/
theorem c84_announced {n : Nat} (h : n < 2147483648) (r : Bytes) :
    n ≤ allocated (0xD6 :: be 4 n ++ r) ∧ n ≤ allocated (0xDA :: be 4 n ++ r) := by
  have h0 : ∀ k b, decodeM (b.length + 2) (k :: b) = markerM (decodeM (b.length + 1)) k b := by
    intro k b
    rw [show decodeM (b.length + 2) = (Mem.lift (readByte "Error reading marker") >>= markerM (decodeM (b.length + 1)))
      from rfl, bind_eq]
    simp only [Mem.lift, readByte, Nat.zero_add]
  have h1 : ∀ k b, allocated (k :: b) = (markerM (decodeM (b.length + 1)) k b).1 := fun k b => congrArg (·.1) (h0 k b)
  rw [List.cons_append, List.cons_append, h1, h1, marker_slice32, marker_map32, bind_eq, bind_eq]
  simp only [Mem.lift, announced_size _ h, Nat.zero_add]
  constructor
  · unfold sliceM
    rw [if_neg (by omega)]
    exact alloc_le n r
  · exact alloc_le n r

/-- A node with two labels and a property that is a list: six elements, two of them for the converted labels. -/
example : allocated [0xB3, 0x4E, 1, 0x92, 0x81, 0x61, 0x81, 0x62, 0xA1, 0x81, 0x63, 0x91, 0x01] = 6 := rfl

set_option maxRecDepth 100000 in
example : allocated [0xB3, 0x4E, 1, 0x92, 0x81, 0x61, 0x81, 0x62, 0xA1, 0x81, 0x63, 0x91, 0x01] + 2 + 2 * 0 ≤ 2 * 13 :=
  c84_decoded_partial (rest := []) (v := .node 1 [[0x61], [0x62]] [([0x63], .list [.int .int64 1])]) rfl

end Bolt
