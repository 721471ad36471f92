import Mathlib.Data.List.Basic
import Verif.Model.Decoder
import Verif.Spec.Limits
import Verif.Proofs.Bytes
import Verif.Proofs.EncodeMin

/-! The decoder reads every PackStream encoding whose size fields have their top bit clear. -/

namespace Bolt
open PackStream

@[simp] theorem Dec.bind_eq {α β : Type} (x : Dec α) (f : α → Dec β) (b : Bytes) :
    (x >>= f) b = match x b with
      | .ok (a, b') => f a b'
      | .error e => .error e := rfl

@[simp] theorem Dec.pure_eq {α : Type} (a : α) : (pure a : Dec α) = Dec.pure a := rfl
@[simp] theorem Dec.pure_eq' {α : Type} (a : α) (b : Bytes) : (Dec.pure a : Dec α) b = .ok (a, b) := rfl
@[simp] theorem Dec.throw_eq {α : Type} (e : GoErr) (b : Bytes) :
    (Dec.throw e : Dec α) b = .error (.err e) := rfl
@[simp] theorem Dec.panic_eq {α : Type} (p : Panic) (b : Bytes) :
    (Dec.panic p : Dec α) b = .error (.panic p) := rfl

theorem dec_congr {α β : Type} {x : Dec α} {f : α → Dec β} {b b' : Bytes} {a : α} (h : x b = .ok (a, b')) :
    (x >>= f) b = f a b' := by simp [h]

theorem readRaw_append {a : Bytes} (r : Bytes) {w : Nat} (h : a.length = w) :
    readRaw w (a ++ r) = .ok (a, r) := by
  subst h
  simp [readRaw]

theorem readInt_append {w : Nat} {v : Int} {a : Bytes} (h : Signed w v a) (hw : 0 < w) (r : Bytes) :
    readInt w (a ++ r) = .ok (.int .int64 v, r) := by
  simp [readInt, readRaw_append r h.1, signedOf_eq h hw]

theorem readSize_append {w n : Nat} {a : Bytes} {msg : String} (h : Unsigned w n a) (hn : n < halfRange w)
    (r : Bytes) : readSize w msg (a ++ r) = .ok ((n : Int), r) := by
  obtain ⟨hl, hv⟩ := h
  simp only [readSize, readRaw_append r hl, signedOf, beNat_eq, hv, wrapSigned]
  unfold halfRange at hn
  generalize 256 ^ w = M at *
  have : (n : Int) % (M : Int) = n := Int.emod_eq_of_lt (by omega) (by omega)
  simp only [this]
  rw [if_pos (by omega)]

/-- What `decode` does with a value of kind `k` and size `n`. -/
def decBody (dec : Dec Val) (k : Kind) (n : Nat) : Dec Val :=
  match k with
  | .str => next n
  | .list => decodeSlice dec n
  | .map => decodeMap dec n
  | .struct => decodeStruct dec n

theorem u8_eq (a b : UInt8) : a = b ↔ a.toNat = b.toNat := UInt8.toNat_inj.symm

theorem tiny_cond (x : Nat) (h : x < 256) : (wrapSigned 1 x ≥ -16 ∧ wrapSigned 1 x ≤ 127) ↔ (x < 128 ∨ 240 ≤ x) := by
  unfold wrapSigned
  have : ((x : Int) % ((256 ^ 1 : Nat) : Int)) = x := Int.emod_eq_of_lt (by omega) (by omega)
  simp only [this]
  split <;> omega

theorem decodeMarker_tiny (dec : Dec Val) (k : Kind) (n : Nat) (h : n < 16) (r : Bytes) :
    decodeMarker dec (UInt8.ofNat (k.tiny + n)) r = decBody dec k n r := by
  have hx : (UInt8.ofNat (k.tiny + n)).toNat = k.tiny + n := by
    rw [UInt8.toNat_ofNat']
    cases k <;> simp only [Kind.tiny] <;> omega
  generalize UInt8.ofNat (k.tiny + n) = m at hx
  have hb : k.tiny + n < 256 := by cases k <;> simp only [Kind.tiny] <;> omega
  generalize hxe : k.tiny + n = x at hx hb
  have ht : ¬ (-16 ≤ wrapSigned 1 (x : Int) ∧ wrapSigned 1 (x : Int) ≤ 127) := by
    rw [show (-16 ≤ wrapSigned 1 (x : Int) ∧
      wrapSigned 1 (x : Int) ≤ 127) ↔ _ from tiny_cond _ hb]
    cases k <;> simp only [Kind.tiny] at hxe <;> omega
  unfold decodeMarker
  simp only [u8_eq, ge_iff_le, UInt8.le_iff_toNat_le, hx]
  have e1 : NilMarker.toNat = 0xC0 := rfl
  have e2 : TrueMarker.toNat = 0xC3 := rfl
  have e3 : FalseMarker.toNat = 0xC2 := rfl
  have e4 : Int8Marker.toNat = 0xC8 := rfl
  have e5 : Int16Marker.toNat = 0xC9 := rfl
  have e6 : Int32Marker.toNat = 0xCA := rfl
  have e7 : Int64Marker.toNat = 0xCB := rfl
  have e8 : FloatMarker.toNat = 0xC1 := rfl
  have e9 : TinyStringMarker.toNat = 0x80 := rfl
  have e10 : (TinyStringMarker + 15).toNat = 0x8F := rfl
  have e11 : String8Marker.toNat = 0xD0 := rfl
  have e12 : String16Marker.toNat = 0xD1 := rfl
  have e13 : String32Marker.toNat = 0xD2 := rfl
  have e14 : TinySliceMarker.toNat = 0x90 := rfl
  have e15 : (TinySliceMarker + 15).toNat = 0x9F := rfl
  have e16 : Slice8Marker.toNat = 0xD4 := rfl
  have e17 : Slice16Marker.toNat = 0xD5 := rfl
  have e18 : Slice32Marker.toNat = 0xD6 := rfl
  have e19 : TinyMapMarker.toNat = 0xA0 := rfl
  have e20 : (TinyMapMarker + 15).toNat = 0xAF := rfl
  have e21 : Map8Marker.toNat = 0xD8 := rfl
  have e22 : Map16Marker.toNat = 0xD9 := rfl
  have e23 : Map32Marker.toNat = 0xDA := rfl
  have e24 : TinyStructMarker.toNat = 0xB0 := rfl
  have e25 : (TinyStructMarker + 15).toNat = 0xBF := rfl
  cases k <;> simp only [Kind.tiny] at hxe
  · rw [if_neg (by omega), if_neg (by omega), if_neg (by omega), if_neg ht]
    rw [if_neg (by omega), if_neg (by omega), if_neg (by omega), if_neg (by omega), if_neg (by omega),
      if_pos (by omega)]
    rw [e9, show x - 128 = n by omega, decBody]
    split
    · rename_i h0; have : n = 0 := by omega
      subst n; simp [next]
    · rfl
  · rw [if_neg (by omega), if_neg (by omega), if_neg (by omega), if_neg ht]
    iterate 9 rw [if_neg (by omega)]
    rw [if_pos (by omega)]
    rw [e14, show x - 144 = n by omega, decBody]
  · rw [if_neg (by omega), if_neg (by omega), if_neg (by omega), if_neg ht]
    iterate 13 rw [if_neg (by omega)]
    rw [if_pos (by omega)]
    rw [e19, show x - 160 = n by omega, decBody]
  · rw [if_neg (by omega), if_neg (by omega), if_neg (by omega), if_neg ht]
    iterate 17 rw [if_neg (by omega)]
    rw [if_pos (by omega)]
    rw [e24, show x - 176 = n by omega, decBody]

theorem decode_cons (f : Nat) (m : UInt8) (r : Bytes) :
    decode (f + 1) (m :: r) = decodeMarker (decode f) m r := by
  simp [decode, readByte]

theorem decodeMarker_sized (dec : Dec Val) {k : Kind} {w n : Nat} {m : UInt8} {a : Bytes}
    (hm : k.marker w = some m) (ha : Unsigned w n a) (hn : n < halfRange w) (r : Bytes) :
    decodeMarker dec m (a ++ r) = decBody dec k n r := by
  unfold Kind.marker at hm
  split at hm <;> simp only [Option.some.injEq, reduceCtorEq] at hm <;> subst hm <;>
    unfold decodeMarker <;>
    simp [NilMarker, TrueMarker, FalseMarker, Int8Marker, Int16Marker, Int32Marker, Int64Marker,
      FloatMarker, TinyStringMarker, String8Marker, String16Marker, String32Marker, TinySliceMarker,
      Slice8Marker, Slice16Marker, Slice32Marker, TinyMapMarker, Map8Marker, Map16Marker, Map32Marker,
      TinyStructMarker, Struct8Marker, Struct16Marker, wrapSigned, decBody,
      readSize_append ha hn r]

theorem decode_hdr {k : Kind} {n : Nat} {h : Bytes} (hh : Hdr halfRange k n h) (f : Nat) (r : Bytes) :
    decode (f + 1) (h ++ r) = decBody (decode f) k n r := by
  rcases hh with ⟨h1, rfl⟩ | ⟨w, m, bs, h1, h2, h3, rfl⟩
  · rw [List.singleton_append, decode_cons, decodeMarker_tiny _ _ _ h1]
  · rw [List.cons_append, decode_cons, decodeMarker_sized _ h1 h2 h3]

theorem next_append (s r : Bytes) : next (s.length : Nat) (s ++ r) = .ok (.str s, r) := by
  simp [next]

/-! ## Maps -/

theorem get?_mapInsert (m : KVs) (k k' : Str) (v : Val) :
    get? (mapInsert m k v) k' = if k = k' then some v else get? m k' := by
  induction m with
  | nil => simp [mapInsert, get?]
  | cons e m ih =>
    obtain ⟨k0, v0⟩ := e
    simp only [mapInsert]
    split
    · subst k0; simp only [get?]; split <;> rfl
    · simp only [get?, ih]
      split <;> split <;> first | rfl | (subst_vars; contradiction)

theorem keys_mapInsert (m : KVs) (k : Str) (v : Val) :
    (mapInsert m k v).map Prod.fst =
      if k ∈ m.map Prod.fst then m.map Prod.fst else m.map Prod.fst ++ [k] := by
  induction m with
  | nil => simp [mapInsert]
  | cons e m ih =>
    obtain ⟨k0, v0⟩ := e
    simp only [mapInsert]
    split
    · subst k0; simp
    · rename_i hne
      simp only [List.map_cons, ih, List.mem_cons]
      have : ¬ k = k0 := fun h => hne h.symm
      simp only [this, false_or]
      split <;> simp

/-- The decoder's map after its entry loop. -/
def insertAll (m : KVs) (kvs : KVs) : KVs := kvs.foldl (fun m kv => mapInsert m kv.1 kv.2) m

theorem get?_insertAll (kvs m : KVs) (k : Str) :
    get? (insertAll m kvs) k = (getLast? kvs k).or (get? m k) := by
  induction kvs generalizing m with
  | nil => simp [insertAll, getLast?]
  | cons e kvs ih =>
    obtain ⟨k0, v0⟩ := e
    have : insertAll m ((k0, v0) :: kvs) = insertAll (mapInsert m k0 v0) kvs := rfl
    rw [this, ih, get?_mapInsert]
    simp only [getLast?]
    cases getLast? kvs k with
    | some w => simp
    | none => simp only [Option.none_or]; split <;> simp

theorem keys_insertAll (kvs m : KVs) :
    (insertAll m kvs).map Prod.fst =
      m.map Prod.fst ++ (firstKeys kvs).filter (fun k => decide (k ∉ m.map Prod.fst)) := by
  induction kvs generalizing m with
  | nil => simp [insertAll, firstKeys]
  | cons e kvs ih =>
    obtain ⟨k0, v0⟩ := e
    have : insertAll m ((k0, v0) :: kvs) = insertAll (mapInsert m k0 v0) kvs := rfl
    rw [this, ih, keys_mapInsert]
    simp only [firstKeys, List.filter_cons, List.filter_filter]
    split
    · rename_i hmem
      simp only [hmem, not_true_eq_false, decide_false, Bool.false_eq_true, if_false]
      congr 1
      apply List.filter_congr
      intro x hx
      by_cases hxm : x ∈ List.map Prod.fst m
      · simp [hxm]
      · have : x ≠ k0 := fun h => hxm (h ▸ hmem)
        simp [hxm, this]
    · rename_i hmem
      simp only [hmem, not_false_eq_true, decide_true, if_true, List.append_assoc, List.singleton_append]
      congr 2
      apply List.filter_congr
      intro x hx
      simp only [List.mem_append, List.mem_singleton, not_or, Bool.decide_and, bne_iff_ne, ne_eq]


theorem map_eq_filterMap {m : KVs} (h : DistinctKeys m) :
    m = (m.map Prod.fst).filterMap fun k => (get? m k).map fun v => (k, v) := by
  induction m with
  | nil => rfl
  | cons e m ih =>
    obtain ⟨k, v⟩ := e
    simp only [DistinctKeys, List.map_cons, List.nodup_cons] at h
    simp only [List.map_cons, List.filterMap_cons, get?, if_true, Option.map_some, List.cons.injEq, true_and]
    conv => lhs; rw [ih h.2]
    apply List.filterMap_congr
    intro x hx
    have : ¬ k = x := fun he => h.1 (he ▸ hx)
    simp [this]

theorem nodup_firstKeys (kvs : List (Str × α)) : (firstKeys kvs).Nodup := by
  induction kvs with
  | nil => simp [firstKeys]
  | cons e kvs ih =>
    obtain ⟨k, v⟩ := e
    simp only [firstKeys, List.nodup_cons, List.mem_filter]
    exact ⟨by simp, ih.filter _⟩

theorem insertAll_eq (kvs : KVs) : insertAll [] kvs = lastWins kvs := by
  have hk := keys_insertAll kvs []
  simp only [List.map_nil, List.not_mem_nil, not_false_eq_true, decide_true, List.filter_true,
    List.nil_append] at hk
  have hd : DistinctKeys (insertAll [] kvs) := by
    unfold DistinctKeys; rw [hk]; exact nodup_firstKeys kvs
  rw [map_eq_filterMap hd, hk, lastWins]
  apply List.filterMap_congr
  intro x _
  rw [get?_insertAll]
  simp [get?]

/-! ## Structures -/

theorem decodeItems_cons_inv {dec : Dec Val} {n : Nat} {x : Val} {xs : List Val} {b r : Bytes}
    (h : decodeItems dec (n + 1) b = .ok (x :: xs, r)) :
    ∃ b', dec b = .ok (x, b') ∧ decodeItems dec n b' = .ok (xs, r) := by
  simp only [decodeItems, Dec.bind_eq] at h
  cases hd : dec b with
  | error e => simp [hd] at h
  | ok p =>
    obtain ⟨y, b'⟩ := p
    simp only [hd] at h
    cases hi : decodeItems dec n b' with
    | error e => simp [hi] at h
    | ok q =>
      obtain ⟨ys, b''⟩ := q
      simp only [hi, Dec.pure_eq, Dec.pure_eq', Except.ok.injEq, Prod.mk.injEq, List.cons.injEq] at h
      obtain ⟨⟨rfl, rfl⟩, rfl⟩ := h
      exact ⟨b', rfl, hi⟩

theorem decodeItems_nil_inv {dec : Dec Val} {xs : List Val} {b r : Bytes}
    (h : decodeItems dec 0 b = .ok (xs, r)) : xs = [] ∧ b = r := by
  simp only [decodeItems, Dec.pure_eq', Except.ok.injEq, Prod.mk.injEq] at h
  exact ⟨h.1.symm, h.2⟩

theorem sliceToString_eq {ls : List Val} {ss : List Str} (h : allStr ls = some ss) (b : Bytes) :
    sliceToString ls b = .ok (ss, b) := by
  induction ls generalizing ss with
  | nil => simp only [allStr, Option.some.injEq] at h; subst h; rfl
  | cons l ls ih =>
    cases l <;> simp only [allStr, reduceCtorEq] at h
    cases h1 : allStr ls with
    | none => simp [h1] at h
    | some ts =>
      simp only [h1, Option.map_some, Option.some.injEq] at h
      subst h
      simp [sliceToString, ih h1]

theorem sliceToInt_eq {ls : List Val} {ss : List Int} (h : allInt ls = some ss) (b : Bytes) :
    sliceToInt ls b = .ok (ss, b) := by
  induction ls generalizing ss with
  | nil => simp only [allInt, Option.some.injEq] at h; subst h; rfl
  | cons l ls ih =>
    unfold allInt at h
    split at h <;> try simp at h
    · rename_i heq; simp at heq
    rename_i v rest heq
    simp only [List.cons.injEq] at heq
    obtain ⟨rfl, rfl⟩ := heq
    obtain ⟨ts, h1, rfl⟩ := h
    simp [sliceToInt, ih h1]

theorem sliceToNode_eq {ls : List Val} (h : allNode ls = true) (b : Bytes) :
    sliceToNode ls b = .ok (ls, b) := by
  induction ls with
  | nil => rfl
  | cons l ls ih =>
    cases l <;> simp only [allNode, Bool.false_eq_true] at h
    simp [sliceToNode, ih h]

theorem sliceToUnbound_eq {ls : List Val} (h : allUnbound ls = true) (b : Bytes) :
    sliceToUnbound ls b = .ok (ls, b) := by
  induction ls with
  | nil => rfl
  | cons l ls ih =>
    cases l <;> simp only [allUnbound, Bool.false_eq_true] at h
    simp [sliceToUnbound, ih h]

theorem decodeSig_eq {dec : Dec Val} {sig : UInt8} {n : Nat} {xs : List Val} {v : Val} {b r : Bytes}
    (hi : decodeItems dec n b = .ok (xs, r)) (hn : xs.length = n) (hs : structOf sig xs = some v) :
    decodeSig dec sig b = .ok (v, r) := by
  subst hn
  unfold structOf at hs
  by_cases hsig : sig = 0x4E
  · subst hsig; rw [if_pos rfl] at hs
    split at hs <;> try (simp only [reduceCtorEq] at hs)
    rename_i id ls m
    obtain ⟨b1, h1, hi⟩ := decodeItems_cons_inv hi
    obtain ⟨b2, h2, hi⟩ := decodeItems_cons_inv hi
    obtain ⟨b3, h3, hi⟩ := decodeItems_cons_inv hi
    obtain ⟨_, rfl⟩ := decodeItems_nil_inv hi
    simp only [Option.map_eq_some_iff] at hs
    obtain ⟨ss, h4, rfl⟩ := hs
    rw [show decodeSig dec 0x4E = decodeNode dec from rfl]
    simp [decodeNode, h1, h2, h3, assertInt64, asList, asMap, sliceToString_eq h4]
  rw [if_neg hsig] at hs; clear hsig
  by_cases hsig : sig = 0x52
  · subst hsig; rw [if_pos rfl] at hs
    split at hs <;> simp only [Option.some.injEq, reduceCtorEq] at hs
    subst hs
    obtain ⟨b1, h1, hi⟩ := decodeItems_cons_inv hi
    obtain ⟨b2, h2, hi⟩ := decodeItems_cons_inv hi
    obtain ⟨b3, h3, hi⟩ := decodeItems_cons_inv hi
    obtain ⟨b4, h4, hi⟩ := decodeItems_cons_inv hi
    obtain ⟨b5, h5, hi⟩ := decodeItems_cons_inv hi
    obtain ⟨_, rfl⟩ := decodeItems_nil_inv hi
    rw [show decodeSig dec 0x52 = decodeRelationship dec from rfl]
    simp [decodeRelationship, h1, h2, h3, h4, h5, assertInt64, asMap, asStr]
  rw [if_neg hsig] at hs; clear hsig
  by_cases hsig : sig = 0x72
  · subst hsig; rw [if_pos rfl] at hs
    split at hs <;> simp only [Option.some.injEq, reduceCtorEq] at hs
    subst hs
    obtain ⟨b1, h1, hi⟩ := decodeItems_cons_inv hi
    obtain ⟨b2, h2, hi⟩ := decodeItems_cons_inv hi
    obtain ⟨b3, h3, hi⟩ := decodeItems_cons_inv hi
    obtain ⟨_, rfl⟩ := decodeItems_nil_inv hi
    rw [show decodeSig dec 0x72 = decodeUnbound dec from rfl]
    simp [decodeUnbound, h1, h2, h3, assertInt64, asMap, asStr]
  rw [if_neg hsig] at hs; clear hsig
  by_cases hsig : sig = 0x50
  · subst hsig; rw [if_pos rfl] at hs
    split at hs <;> try simp only [reduceCtorEq] at hs
    split at hs <;> try (simp only [reduceCtorEq] at hs)
    rename_i hall
    obtain ⟨b1, h1, hi⟩ := decodeItems_cons_inv hi
    obtain ⟨b2, h2, hi⟩ := decodeItems_cons_inv hi
    obtain ⟨b3, h3, hi⟩ := decodeItems_cons_inv hi
    obtain ⟨_, rfl⟩ := decodeItems_nil_inv hi
    simp only [Option.map_eq_some_iff] at hs
    obtain ⟨ss, h4, rfl⟩ := hs
    rw [show decodeSig dec 0x50 = decodePath dec from rfl]
    simp [decodePath, h1, h2, h3, asList, sliceToInt_eq h4, sliceToNode_eq hall.1, sliceToUnbound_eq hall.2]
  rw [if_neg hsig] at hs; clear hsig
  by_cases hsig : sig = 0x71
  · subst hsig; rw [if_pos rfl] at hs
    split at hs <;> simp only [Option.some.injEq, reduceCtorEq] at hs
    subst hs
    obtain ⟨b1, h1, hi⟩ := decodeItems_cons_inv hi
    obtain ⟨_, rfl⟩ := decodeItems_nil_inv hi
    rw [show decodeSig dec 0x71 = decodeRecord dec from rfl]
    simp [decodeRecord, h1, asList]
  rw [if_neg hsig] at hs; clear hsig
  by_cases hsig : sig = 0x70
  · subst hsig; rw [if_pos rfl] at hs
    split at hs <;> simp only [Option.some.injEq, reduceCtorEq] at hs
    subst hs
    obtain ⟨b1, h1, hi⟩ := decodeItems_cons_inv hi
    obtain ⟨_, rfl⟩ := decodeItems_nil_inv hi
    rw [show decodeSig dec 0x70 = decodeSuccess dec from rfl]
    simp [decodeSuccess, h1, asMap]
  rw [if_neg hsig] at hs; clear hsig
  by_cases hsig : sig = 0x7F
  · subst hsig; rw [if_pos rfl] at hs
    split at hs <;> simp only [Option.some.injEq, reduceCtorEq] at hs
    subst hs
    obtain ⟨b1, h1, hi⟩ := decodeItems_cons_inv hi
    obtain ⟨_, rfl⟩ := decodeItems_nil_inv hi
    rw [show decodeSig dec 0x7F = decodeFailure dec from rfl]
    simp [decodeFailure, h1, asMap]
  rw [if_neg hsig] at hs; clear hsig
  by_cases hemp : xs.isEmpty
  · rw [if_pos hemp] at hs
    have hxs : xs = [] := by simpa using hemp
    subst hxs
    obtain ⟨_, rfl⟩ := decodeItems_nil_inv hi
    repeat' split at hs
    all_goals first | (simp only [reduceCtorEq] at hs; done) | skip
    all_goals
      simp only [Option.some.injEq] at hs
      subst hs
      subst sig
      rfl
  · rw [if_neg hemp] at hs; simp at hs

/-! ## Main theorem -/

theorem ofPSList_length {ps : List PS} {xs : List Val} (h : ofPSList ps = some xs) :
    xs.length = ps.length := by
  induction ps generalizing xs with
  | nil => simp only [ofPSList, Option.some.injEq] at h; subst h; rfl
  | cons p ps ih =>
    simp only [ofPSList, Option.bind_eq_some_iff, Option.map_eq_some_iff] at h
    obtain ⟨y, _, ys, h2, rfl⟩ := h
    simp [ih h2]

mutual
theorem dec_packs : (p : PS) → (a r : Bytes) → (f : Nat) → (v : Val) → Packs halfRange p a →
    ofPS p = some v → a.length ≤ f → decode f (a ++ r) = .ok (v, r)
  | .null, a, r, f, v, h, hv, hf => by
    simp only [Packs] at h; subst h
    simp only [ofPS, Option.some.injEq] at hv; subst hv
    obtain ⟨f, rfl⟩ : ∃ g, f = g + 1 := ⟨f - 1, by simp at hf; omega⟩
    simp [decode_cons, decodeMarker, NilMarker]
  | .bool b, a, r, f, v, h, hv, hf => by
    simp only [Packs] at h; subst h
    simp only [ofPS, Option.some.injEq] at hv; subst hv
    obtain ⟨f, rfl⟩ : ∃ g, f = g + 1 := ⟨f - 1, by simp at hf; omega⟩
    cases b <;> simp [decode_cons, decodeMarker, NilMarker, TrueMarker, FalseMarker]
  | .int n, a, r, f, v, h, hv, hf => by
    simp only [Packs] at h
    simp only [ofPS, Option.some.injEq] at hv; subst hv
    have hpos : 0 < f := by
      rcases h with ⟨_, _, h⟩ | ⟨_, rfl, _⟩ | ⟨_, rfl, _⟩ | ⟨_, rfl, _⟩ | ⟨_, rfl, _⟩
      · have := h.1; omega
      all_goals (simp only [List.length_cons] at hf; omega)
    obtain ⟨f, rfl⟩ : ∃ g, f = g + 1 := ⟨f - 1, by omega⟩
    rcases h with ⟨h1, h2, h⟩ | ⟨_, rfl, h⟩ | ⟨_, rfl, h⟩ | ⟨_, rfl, h⟩ | ⟨_, rfl, h⟩
    · have hs := signedOf_eq h (by decide)
      obtain ⟨hl, h3, h4, h5⟩ := h
      obtain ⟨m, rfl⟩ := List.length_eq_one_iff.mp hl
      · clear hl
        simp only [signedOf, beNat, List.foldl_cons, List.foldl_nil, Nat.zero_mul, Nat.zero_add] at hs
        simp only [ofBytes, List.length_nil, Nat.pow_zero, Nat.mul_one, Nat.add_zero] at h5
        simp only [List.singleton_append, decode_cons]
        unfold decodeMarker
        have hm := m.toNat_lt
        have e1 : ¬ m = NilMarker := by rw [u8_eq]; simp only [NilMarker]; split at h5 <;> simp <;> omega
        have e2 : ¬ m = TrueMarker := by rw [u8_eq]; simp only [TrueMarker]; split at h5 <;> simp <;> omega
        have e3 : ¬ m = FalseMarker := by rw [u8_eq]; simp only [FalseMarker]; split at h5 <;> simp <;> omega
        rw [if_neg e1, if_neg e2, if_neg e3, hs, if_pos (by omega)]
        rfl
    · simp [decode_cons, decodeMarker, NilMarker, TrueMarker, FalseMarker, Int8Marker, wrapSigned,
        readInt_append h]
    · simp [decode_cons, decodeMarker, NilMarker, TrueMarker, FalseMarker, Int8Marker, Int16Marker, wrapSigned,
        readInt_append h]
    · simp [decode_cons, decodeMarker, NilMarker, TrueMarker, FalseMarker, Int8Marker, Int16Marker,
        Int32Marker, wrapSigned, readInt_append h]
    · simp [decode_cons, decodeMarker, NilMarker, TrueMarker, FalseMarker, Int8Marker, Int16Marker,
        Int32Marker, Int64Marker, wrapSigned, readInt_append h]
  | .float d, a, r, f, v, h, hv, hf => by
    simp only [Packs] at h
    simp only [ofPS, Option.some.injEq] at hv; subst hv
    obtain ⟨b, rfl, h1, h2⟩ := h
    obtain ⟨f, rfl⟩ : ∃ g, f = g + 1 := ⟨f - 1, by simp at hf; omega⟩
    simp [decode_cons, decodeMarker, NilMarker, TrueMarker, FalseMarker, Int8Marker, Int16Marker,
        Int32Marker, Int64Marker, FloatMarker, wrapSigned, readRaw_append r h1, beNat_eq, h2]
  | .str s, a, r, f, v, h, hv, hf => by
    simp only [Packs] at h
    simp only [ofPS, Option.some.injEq] at hv; subst hv
    obtain ⟨hd, h1, rfl⟩ := h
    have := hdr_cases h1
    obtain ⟨f, rfl⟩ : ∃ g, f = g + 1 := ⟨f - 1, by simp at hf; omega⟩
    rw [List.append_assoc, decode_hdr h1]
    exact next_append s r
  | .list ps, a, r, f, v, h, hv, hf => by
    simp only [Packs] at h
    simp only [ofPS, Option.map_eq_some_iff] at hv
    obtain ⟨xs, hxs, rfl⟩ := hv
    obtain ⟨hd, body, h1, h2, rfl⟩ := h
    have := hdr_cases h1
    obtain ⟨f, rfl⟩ : ∃ g, f = g + 1 := ⟨f - 1, by simp at hf; omega⟩
    rw [List.append_assoc, decode_hdr h1]
    have hi := decItems_packs ps body r f xs h2 hxs (by simp at hf; omega)
    have hneg : ¬ ((ps.length : Int) < 0) := by omega
    simp [decBody, decodeSlice, hneg, hi]
  | .map ps, a, r, f, v, h, hv, hf => by
    simp only [Packs] at h
    simp only [ofPS, Option.map_eq_some_iff] at hv
    obtain ⟨xs, hxs, rfl⟩ := hv
    obtain ⟨hd, body, h1, h2, rfl⟩ := h
    have := hdr_cases h1
    obtain ⟨f, rfl⟩ : ∃ g, f = g + 1 := ⟨f - 1, by simp at hf; omega⟩
    rw [List.append_assoc, decode_hdr h1]
    have hi := decEntries_packs ps body r f xs [] h2 hxs (by simp at hf; omega)
    simp [decBody, decodeMap, hi, insertAll_eq]
  | .struct sig fs, a, r, f, v, h, hv, hf => by
    simp only [Packs] at h
    simp only [ofPS, Option.bind_eq_some_iff] at hv
    obtain ⟨xs, hxs, hs⟩ := hv
    obtain ⟨hd, body, h1, h2, rfl⟩ := h
    have := hdr_cases h1
    obtain ⟨f, rfl⟩ : ∃ g, f = g + 1 := ⟨f - 1, by simp at hf; omega⟩
    rw [List.append_assoc, decode_hdr h1]
    have hi := decItems_packs fs body r f xs h2 hxs (by simp at hf; omega)
    simp [decBody, decodeStruct, readByte, decodeSig_eq hi (ofPSList_length hxs) hs]

theorem decItems_packs : (ps : List PS) → (a r : Bytes) → (f : Nat) → (xs : List Val) →
    PacksList halfRange ps a → ofPSList ps = some xs → a.length ≤ f →
    decodeItems (decode f) ps.length (a ++ r) = .ok (xs, r)
  | [], a, r, f, xs, h, hv, _ => by
    simp only [PacksList] at h; subst h
    simp only [ofPSList, Option.some.injEq] at hv; subst hv
    simp [decodeItems]
  | p :: ps, a, r, f, xs, h, hv, hf => by
    simp only [PacksList] at h
    simp only [ofPSList, Option.bind_eq_some_iff, Option.map_eq_some_iff] at hv
    obtain ⟨y, hy, ys, hys, rfl⟩ := hv
    obtain ⟨b, c, h1, h2, rfl⟩ := h
    simp only [List.length_append] at hf
    simp only [List.length_cons, decodeItems, List.append_assoc]
    rw [dec_congr (dec_packs p b (c ++ r) f y h1 hy (by omega)),
      dec_congr (decItems_packs ps c r f ys h2 hys (by omega))]
    rfl

theorem decEntries_packs : (ps : List (Bytes × PS)) → (a r : Bytes) → (f : Nat) → (xs : KVs) → (m : KVs) →
    PacksKVs halfRange ps a → ofPSKVs ps = some xs → a.length ≤ f →
    decodeEntries (decode f) ps.length m (a ++ r) = .ok (insertAll m xs, r)
  | [], a, r, f, xs, m, h, hv, _ => by
    simp only [PacksKVs] at h; subst h
    simp only [ofPSKVs, Option.some.injEq] at hv; subst hv
    simp [decodeEntries, insertAll]
  | (k, p) :: ps, a, r, f, xs, m, h, hv, hf => by
    simp only [PacksKVs] at h
    simp only [ofPSKVs, Option.bind_eq_some_iff, Option.map_eq_some_iff] at hv
    obtain ⟨y, hy, ys, hys, rfl⟩ := hv
    obtain ⟨hd, b, c, h0, h1, h2, rfl⟩ := h
    simp only [List.length_append] at hf
    have := hdr_cases h0
    obtain ⟨f, rfl⟩ : ∃ g, f = g + 1 := ⟨f - 1, by omega⟩
    have hk : decode (f + 1) (hd ++ (k ++ (b ++ (c ++ r)))) = .ok (.str k, b ++ (c ++ r)) := by
      rw [decode_hdr h0]; exact next_append k _
    simp only [List.length_cons, decodeEntries, List.append_assoc]
    rw [dec_congr hk, dec_congr (dec_packs p b (c ++ r) (f + 1) y h1 hy (by omega)),
      dec_congr (show asKey (.str k) (c ++ r) = .ok (k, c ++ r) from rfl),
      decEntries_packs ps c r (f + 1) ys (mapInsert m k y) h2 hys (by omega)]
    rfl
end

end Bolt
