import Verif.Model.Encoder
import Verif.Spec.Limits
import Verif.Proofs.Bytes

/-! Helper lemmas about the encoder's write lists. -/

namespace Bolt
open PackStream

/-- All bytes of a write list. -/
def Ops.bytes (o : Ops) : Bytes := o.writes.flatten

theorem payload_eq (v : Val) : payload v = (encOps v).bytes := rfl

@[simp] theorem bytes_write (p : Bytes) : (Ops.write p).bytes = p := by simp [Ops.bytes, Ops.write]
@[simp] theorem err_write (p : Bytes) : (Ops.write p).err = none := rfl
@[simp] theorem bytes_fail (e : GoErr) : (Ops.fail e).bytes = [] := rfl
@[simp] theorem err_fail (e : GoErr) : (Ops.fail e).err = some e := rfl
@[simp] theorem bytes_done : Ops.done.bytes = [] := rfl
@[simp] theorem err_done : Ops.done.err = none := rfl
@[simp] theorem bytes_wrapErr (a : Ops) (m : String) : (a.wrapErr m).bytes = a.bytes := rfl
@[simp] theorem writes_wrapErr (a : Ops) (m : String) : (a.wrapErr m).writes = a.writes := rfl
@[simp] theorem err_wrapErr (a : Ops) (m : String) : (a.wrapErr m).err = none ↔ a.err = none := by
  simp [Ops.wrapErr]

@[simp] theorem err_seq (a b : Ops) : (a.seq b).err = none ↔ a.err = none ∧ b.err = none := by
  unfold Ops.seq
  cases h : a.err <;> simp

theorem bytes_seq {a b : Ops} (h : a.err = none) : (a.seq b).bytes = a.bytes ++ b.bytes := by
  simp [Ops.seq, h, Ops.bytes]

@[simp] theorem bytes_write_seq (p : Bytes) (b : Ops) : ((Ops.write p).seq b).bytes = p ++ b.bytes := by
  rw [bytes_seq (err_write p), bytes_write]

@[simp] theorem seq_assoc (a b c : Ops) : (a.seq b).seq c = a.seq (b.seq c) := by
  unfold Ops.seq
  cases h : a.err <;> simp
  cases h2 : b.err <;> simp

/-- The structures of the package are encoded as `encodeStructure` applied to `Signature()` and
`AllFields()` (encoder.go:440-479). -/
theorem encList_str (ls : List Str) : encList (ls.map .str) = encodeEach encodeString ls := by
  induction ls with
  | nil => simp [encList, encodeEach]
  | cons l ls ih => simp [encList, encodeEach, ih, encOps]

theorem encList_int (sq : List Int) : encList (sq.map (.int .int)) = encodeEach (encodeIntKind .int) sq := by
  induction sq with
  | nil => simp [encList, encodeEach]
  | cons l ls ih => simp [encList, encodeEach, ih, encOps]

theorem seq_done (a : Ops) : a.seq .done = a := by
  unfold Ops.seq
  cases h : a.err <;> cases a <;> simp_all [Ops.done]

/-- `encodeStructure` (encoder.go:440-479) for any `Structure`: header for `len(AllFields())`, signature
byte, fields. -/
theorem encOps_structure {v : Val} {sig : Int} {fields : List Val} (h : allFields v = some (sig, fields)) :
    encOps v = (structHeader fields.length sig).seq (encFields fields) := by
  cases v <;> simp only [allFields, Option.some.injEq, Prod.mk.injEq, reduceCtorEq] at h
  all_goals
    obtain ⟨rfl, rfl⟩ := h
    simp [encOps, encFields, encList_str, encList_int, seq_done]

/-! ## Headers -/

theorem ofNat_toNat_add (a n : Nat) : UInt8.ofNat ((UInt8.ofNat a).toNat + n) = UInt8.ofNat (a + n) := by
  apply UInt8.toNat_inj.mp
  simp

theorem sliceHeader_hdr {lim : Nat → Nat} {n : Nat} (h : (sliceHeader n).err = none) (hs : SizeOK lim n) :
    Hdr lim .list n (sliceHeader n).bytes := by
  obtain ⟨h1, h2, h3⟩ := hs
  unfold sliceHeader at h ⊢
  split
  · left; exact ⟨by omega, by simp [Kind.tiny, TinySliceMarker]⟩
  split
  · right
    exact ⟨1, 0xD4, be 1 n, rfl, unsigned_be (by omega), h1 (by omega) (by omega), by
      simp [Slice8Marker]⟩
  split
  · right
    exact ⟨2, 0xD5, be 2 n, rfl, unsigned_be (by omega), h2 (by omega) (by omega), by
      simp [Slice16Marker]⟩
  split
  · right
    exact ⟨4, 0xD6, be 4 n, rfl, unsigned_be (by omega), h3 (by omega) (by omega), by
      simp [Slice32Marker]⟩
  · simp_all

theorem mapHeader_hdr {lim : Nat → Nat} {n : Nat} (h : (mapHeader n).err = none) (hs : SizeOK lim n) :
    Hdr lim .map n (mapHeader n).bytes := by
  obtain ⟨h1, h2, h3⟩ := hs
  unfold mapHeader at h ⊢
  split
  · left; exact ⟨by omega, by simp [Kind.tiny, TinyMapMarker]⟩
  split
  · right
    exact ⟨1, 0xD8, be 1 n, rfl, unsigned_be (by omega), h1 (by omega) (by omega), by
      simp [Map8Marker]⟩
  split
  · right
    exact ⟨2, 0xD9, be 2 n, rfl, unsigned_be (by omega), h2 (by omega) (by omega), by
      simp [Map16Marker]⟩
  split
  · right
    exact ⟨4, 0xDA, be 4 n, rfl, unsigned_be (by omega), h3 (by omega) (by omega), by
      simp [Map32Marker]⟩
  · simp_all

theorem structHeader_hdr {lim : Nat → Nat} {n : Nat} {sig : Int} (h : (structHeader n sig).err = none)
    (hs : SizeOK lim n) :
    ∃ hd, Hdr lim .struct n hd ∧ (structHeader n sig).bytes = hd ++ beSigned 1 sig := by
  obtain ⟨h1, h2, h3⟩ := hs
  unfold structHeader at h ⊢
  split
  · exact ⟨_, .inl ⟨by omega, rfl⟩, by simp [Kind.tiny, TinyStructMarker]⟩
  split
  · exact ⟨_, .inr ⟨1, 0xDC, be 1 n, rfl, unsigned_be (by omega), h1 (by omega) (by omega), rfl⟩, by
      simp [Struct8Marker]⟩
  split
  · exact ⟨_, .inr ⟨2, 0xDD, be 2 n, rfl, unsigned_be (by omega), h2 (by omega) (by omega), rfl⟩, by
      simp [Struct16Marker]⟩
  · simp_all

theorem encodeString_hdr {lim : Nat → Nat} {s : Str} (h : (encodeString s).err = none)
    (hs : SizeOK lim s.length) :
    ∃ hd, Hdr lim .str s.length hd ∧ (encodeString s).bytes = hd ++ s := by
  obtain ⟨h1, h2, h3⟩ := hs
  unfold encodeString at h ⊢
  dsimp only at h ⊢
  split
  · exact ⟨_, .inl ⟨by omega, rfl⟩, by simp [Kind.tiny, TinyStringMarker]⟩
  split
  · exact ⟨_, .inr ⟨1, 0xD0, be 1 s.length, rfl, unsigned_be (by omega), h1 (by omega) (by omega), rfl⟩, by
      simp [String8Marker]⟩
  split
  · exact ⟨_, .inr ⟨2, 0xD1, be 2 s.length, rfl, unsigned_be (by omega), h2 (by omega) (by omega), rfl⟩, by
      simp [String16Marker]⟩
  split
  · exact ⟨_, .inr ⟨4, 0xD2, be 4 s.length, rfl, unsigned_be (by omega), h3 (by omega) (by omega), rfl⟩, by
      simp [String32Marker]⟩
  · simp_all

theorem sizeOK_full (n : Nat) : SizeOK fullRange n := by
  simp only [SizeOK, fullRange]
  omega

/-! ## Integers -/

theorem encodeInt_packs {lim : Nat → Nat} {v : Int} (h : IsInt64 v) :
    (encodeInt v).err = none ∧ Packs lim (.int v) (encodeInt v).bytes := by
  obtain ⟨hl, hu⟩ := h
  simp only [encodeInt, Packs]
  split
  · refine ⟨by simp, .inr (.inr (.inr (.inr ⟨beSigned 8 v, ?_, signed_beSigned (by omega) (by omega)⟩)))⟩
    simp [Int64Marker]
  split
  · refine ⟨by simp, .inr (.inr (.inr (.inl ⟨beSigned 4 v, ?_, signed_beSigned (by omega) (by omega)⟩)))⟩
    simp [Int32Marker]
  split
  · refine ⟨by simp, .inr (.inr (.inl ⟨beSigned 2 v, ?_, signed_beSigned (by omega) (by omega)⟩))⟩
    simp [Int16Marker]
  split
  · refine ⟨by simp, .inr (.inl ⟨beSigned 1 v, ?_, signed_beSigned (by omega) (by omega)⟩)⟩
    simp [Int8Marker]
  split
  · refine ⟨by simp, .inl ⟨by omega, by omega, ?_⟩⟩
    rw [bytes_write]; exact signed_beSigned (by omega) (by omega)
  split
  · refine ⟨by simp, .inr (.inr (.inl ⟨beSigned 2 v, ?_, signed_beSigned (by omega) (by omega)⟩))⟩
    simp [Int16Marker]
  split
  · refine ⟨by simp, .inr (.inr (.inr (.inl ⟨beSigned 4 v, ?_, signed_beSigned (by omega) (by omega)⟩)))⟩
    simp [Int32Marker]
  split
  · refine ⟨by simp, .inr (.inr (.inr (.inr ⟨beSigned 8 v, ?_, signed_beSigned (by omega) (by omega)⟩)))⟩
    simp [Int64Marker]
  · omega

theorem encodeIntKind_int64 {k : IntKind} {v : Int} (h : IsInt64 v) : encodeIntKind k v = encodeInt v := by
  have hw : wrapSigned 8 v = v := wrapSigned_eq (by obtain ⟨h1, h2⟩ := h; omega)
    (by obtain ⟨h1, h2⟩ := h; omega) (by decide)
  obtain ⟨h1, h2⟩ := h
  cases k <;> simp only [encodeIntKind, hw]
  split
  · omega
  · rfl

/-- Which integers fit: all but `uint`/`uint64` above the largest `int64`. -/
theorem isInt64_of_typed {k : IntKind} {v : Int} (ht : k.InRange v) (hc : Val.CleanHere (.int k v))
    (he : (encodeIntKind k v).err = none) : IsInt64 v := by
  cases k <;> simp only [IntKind.InRange, Val.CleanHere, IsInt64] at * <;> try omega
  simp only [encodeIntKind] at he
  split at he
  · simp at he
  · omega

theorem encodeIntKind_packs {lim : Nat → Nat} {k : IntKind} {v : Int} (ht : k.InRange v)
    (hc : Val.CleanHere (.int k v)) (he : (encodeIntKind k v).err = none) :
    Packs lim (.int v) (encodeIntKind k v).bytes := by
  have h := isInt64_of_typed ht hc he
  rw [encodeIntKind_int64 h]
  exact (encodeInt_packs h).2

/-! ## Floats -/

theorem encodeFloat_packs {lim : Nat → Nat} (b : UInt64) :
    (encodeFloat b).err = none ∧ Packs lim (.float b) (encodeFloat b).bytes := by
  refine ⟨by simp [encodeFloat], ?_⟩
  simp only [Packs]
  refine ⟨be 8 b.toNat, by simp [encodeFloat, FloatMarker], unsigned_be ?_⟩
  have := b.toNat_lt
  omega

/-! ## The encoder produces PackStream -/

theorem encodeString_packs {lim : Nat → Nat} {s : Str} (h : (encodeString s).err = none)
    (hs : SizeOK lim s.length) : Packs lim (.str s) (encodeString s).bytes := by
  obtain ⟨hd, h1, h2⟩ := encodeString_hdr h hs
  simp only [Packs]
  exact ⟨hd, h1, h2⟩

theorem list_packs {lim : Nat → Nat} {n : Nat} {o : Ops} {ps : List PS} (hn : ps.length = n)
    (h : ((sliceHeader n).seq o).err = none) (hs : SizeOK lim n) (hp : PacksList lim ps o.bytes) :
    Packs lim (.list ps) ((sliceHeader n).seq o).bytes := by
  simp only [err_seq] at h
  simp only [Packs, hn]
  exact ⟨_, _, sliceHeader_hdr h.1 hs, hp, bytes_seq h.1⟩

theorem map_packs {lim : Nat → Nat} {n : Nat} {o : Ops} {ps : List (Bytes × PS)} (hn : ps.length = n)
    (h : ((mapHeader n).seq o).err = none) (hs : SizeOK lim n) (hp : PacksKVs lim ps o.bytes) :
    Packs lim (.map ps) ((mapHeader n).seq o).bytes := by
  simp only [err_seq] at h
  simp only [Packs, hn]
  exact ⟨_, _, mapHeader_hdr h.1 hs, hp, bytes_seq h.1⟩

theorem struct_packs {lim : Nat → Nat} {n : Nat} {sig : Int} {b : UInt8} {o : Ops} {ps : List PS}
    (hn : ps.length = n) (hb : (b.toNat : Int) = sig) (h : ((structHeader n sig).seq o).err = none)
    (hs : SizeOK lim n) (hp : PacksList lim ps o.bytes) :
    Packs lim (.struct b ps) ((structHeader n sig).seq o).bytes := by
  simp only [err_seq] at h
  obtain ⟨hd, h1, h2⟩ := structHeader_hdr h.1 hs
  simp only [Packs, hn]
  refine ⟨hd, _, h1, hp, ?_⟩
  rw [bytes_seq h.1, h2]
  have : beSigned 1 sig = [b] := by
    subst hb
    have := b.toNat_lt
    simp only [beSigned, be]
    have h3 : ((b.toNat : Int) % ((256 ^ 1 : Nat) : Int)).toNat = b.toNat := by omega
    rw [h3]
    simp
  simp [this]

theorem sizeOK_small {lim : Nat → Nat} {n : Nat} (h : n < 16) : SizeOK lim n := by
  refine ⟨?_, ?_, ?_⟩ <;> omega

theorem packsList_cons {lim : Nat → Nat} {a : Ops} {b : Ops} {x : PS} {xs : List PS}
    (h : (a.seq b).err = none) (ha : Packs lim x a.bytes) (hb : PacksList lim xs b.bytes) :
    PacksList lim (x :: xs) (a.seq b).bytes := by
  simp only [err_seq] at h
  simp only [PacksList]
  exact ⟨_, _, ha, hb, bytes_seq h.1⟩

theorem packsList_one {lim : Nat → Nat} {a : Ops} {x : PS} (ha : Packs lim x a.bytes) :
    PacksList lim [x] a.bytes := by
  simp only [PacksList]
  exact ⟨_, _, ha, rfl, by simp⟩

theorem labels_packs {lim : Nat → Nat} (ls : List Str) (h : (encodeEach encodeString ls).err = none)
    (hs : ∀ n ∈ ls.map List.length, SizeOK lim n) :
    PacksList lim (ls.map .str) (encodeEach encodeString ls).bytes := by
  induction ls with
  | nil => simp [PacksList, encodeEach]
  | cons l ls ih =>
    simp only [encodeEach, List.map_cons] at h ⊢
    have h' := h
    simp only [err_seq] at h'
    exact packsList_cons h (encodeString_packs h'.1 (hs _ (by simp)))
      (ih h'.2 (fun n hn => hs n (List.mem_cons_of_mem _ hn)))

theorem seq_packs {lim : Nat → Nat} (sq : List Int) (h : (encodeEach (encodeIntKind .int) sq).err = none)
    (hs : ∀ i ∈ sq, IsInt64 i) :
    PacksList lim (sq.map .int) (encodeEach (encodeIntKind .int) sq).bytes := by
  induction sq with
  | nil => simp [PacksList, encodeEach]
  | cons l ls ih =>
    simp only [encodeEach, List.map_cons] at h ⊢
    have h' := h
    simp only [err_seq] at h'
    refine packsList_cons h ?_ (ih h'.2 (fun n hn => hs n (List.mem_cons_of_mem _ hn)))
    rw [encodeIntKind_int64 (hs l (by simp))]
    exact (encodeInt_packs (hs l (by simp))).2

theorem meansList_length {xs : List Val} {ps : List PS} (h : MeansList xs ps) : ps.length = xs.length := by
  induction xs generalizing ps with
  | nil => simp only [MeansList] at h; simp [h]
  | cons x xs ih =>
    simp only [MeansList] at h
    obtain ⟨q, qs, _, h2, rfl⟩ := h
    simp [ih h2]

theorem meansKVs_length {xs : KVs} {ps : List (Bytes × PS)} (h : MeansKVs xs ps) :
    ps.length = xs.length := by
  induction xs generalizing ps with
  | nil => simp only [MeansKVs] at h; simp [h]
  | cons x xs ih =>
    obtain ⟨k, v⟩ := x
    simp only [MeansKVs] at h
    obtain ⟨q, qs, _, h2, rfl⟩ := h
    simp [ih h2]

end Bolt
