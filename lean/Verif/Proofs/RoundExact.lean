import Verif.Props.Lenient
import Verif.Proofs.Wrapped

/-! # When a value comes back, its sizes were small (auxiliary lemmas for C04) -/

namespace Bolt
open PackStream Lenient

/-! ## Headers -/

theorem marker_inj {k : Kind} {w w' : Nat} {m : UInt8} (h : k.marker w = some m) (h' : k.marker w' = some m) : w = w' := by
  unfold Kind.marker at h h'
  split at h <;> simp only [Option.some.injEq, reduceCtorEq] at h <;> subst h <;> (split at h' <;> simp_all)

theorem tiny_not_marker {k : Kind} {n w : Nat} {m : UInt8} (hn : n < 16) (h : k.marker w = some m) : UInt8.ofNat (k.tiny + n) ≠ m := by
  intro e
  have h2 := congrArg UInt8.toNat e
  rw [UInt8.toNat_ofNat'] at h2
  rcases marker_cases h with ⟨rfl, h1⟩ | ⟨rfl, h1⟩ | ⟨rfl, h1⟩ | ⟨rfl, h1⟩ <;> simp only [Kind.tiny] at h2 <;> omega

theorem hdr_unique {lim lim' : Nat → Nat} {k : Kind} {n n' : Nat} {h h' a b : Bytes} (h1 : Hdr lim k n h) (h2 : Hdr lim' k n' h')
    (e : h ++ a = h' ++ b) : n = n' ∧ h = h' ∧ a = b := by
  rcases h1 with ⟨h1, rfl⟩ | ⟨w, m, bs, h1, hu, _, rfl⟩ <;> rcases h2 with ⟨h2, rfl⟩ | ⟨w', m', bs', h2, hu', _, rfl⟩ <;>
    simp only [List.cons_append, List.nil_append, List.cons.injEq] at e
  · have h3 := congrArg UInt8.toNat e.1
    rw [UInt8.toNat_ofNat', UInt8.toNat_ofNat'] at h3
    have h4 : k.tiny ≤ 0xB0 := by cases k <;> decide
    have : n = n' := by omega
    subst this
    exact ⟨rfl, rfl, e.2⟩
  · exact absurd e.1 (tiny_not_marker h1 h2)
  · exact absurd e.1.symm (tiny_not_marker h2 h1)
  · obtain ⟨rfl, e⟩ := e
    have := marker_inj h1 h2
    subst this
    obtain ⟨rfl, rfl⟩ := List.append_inj e (by rw [hu.1, hu'.1])
    exact ⟨by rw [← hu.2, hu'.2], rfl, rfl⟩

/-- Length of the shortest header. -/
def hdrLen (n : Nat) : Nat := if n < 16 then 1 else if n < 2^8 then 2 else if n < 2^16 then 3 else 5

theorem hdr_sizeOK {lim : Nat → Nat} {k : Kind} {n : Nat} {h : Bytes} (hh : Hdr lim k n h) (hl : h.length = hdrLen n) : SizeOK lim n := by
  unfold hdrLen at hl
  rcases hh with ⟨h1, _⟩ | ⟨w, m, bs, h1, hu, h2, rfl⟩
  · refine ⟨?_, ?_, ?_⟩ <;> intro _ _ <;> omega
  · rw [List.length_cons, hu.1] at hl
    rcases marker_width h1 with rfl | rfl | ⟨rfl, _⟩ <;> refine ⟨?_, ?_, ?_⟩ <;> intro h5 h6 <;>
      first | exact h2 | (exfalso; split at hl <;> (try split at hl) <;> (try split at hl) <;> omega)

theorem sliceHeader_len {n : Nat} (h : (sliceHeader n).err = none) : (sliceHeader n).bytes.length = hdrLen n := by
  unfold sliceHeader at h ⊢
  unfold hdrLen
  repeat' split
  all_goals first | omega | simp_all <;> omega

theorem mapHeader_len {n : Nat} (h : (mapHeader n).err = none) : (mapHeader n).bytes.length = hdrLen n := by
  unfold mapHeader at h ⊢
  unfold hdrLen
  repeat' split
  all_goals first | omega | simp_all <;> omega

theorem encodeString_len {s : Str} (h : (encodeString s).err = none) : (encodeString s).bytes.length = hdrLen s.length + s.length := by
  unfold encodeString at h ⊢
  unfold hdrLen
  dsimp only at h ⊢
  repeat' split
  all_goals first | omega | simp_all <;> omega

/-! ## Which PackStream value was read -/

/-- A graph entity or a message. -/
def Entity : Val → Prop
  | .node .. | .rel .. | .unbound .. | .path .. | .record _ | .success _ | .failure _ | .ignored | .ackFailure | .discardAll
  | .pullAll | .reset => True
  | _ => False

/-- The fields a graph entity or message was built from. -/
def FieldsOf : Val → List Val → Prop
  | .node id ls m, xs => xs = [.int .int64 id, .list (ls.map .str), .map m]
  | .rel id s e t m, xs => xs = [.int .int64 id, .int .int64 s, .int .int64 e, .str t, .map m]
  | .unbound id t m, xs => xs = [.int .int64 id, .str t, .map m]
  | .path ns rs sq, xs => xs = [.list ns, .list rs, .list (sq.map (.int .int64))]
  | .record fs, xs => xs = [.list fs]
  | .success m, xs | .failure m, xs => xs = [.map m]
  | .ignored, xs | .ackFailure, xs | .discardAll, xs | .pullAll, xs | .reset, xs => xs = []
  | _, _ => False

theorem allStr_inv {l : List Val} {ls : List Str} (h : allStr l = some ls) : l = ls.map .str := by
  induction l generalizing ls with
  | nil => simp only [allStr, Option.some.injEq] at h; subst h; rfl
  | cons x l ih =>
    cases x <;> simp only [allStr, reduceCtorEq] at h
    simp only [Option.map_eq_some_iff] at h
    obtain ⟨m, h1, rfl⟩ := h
    simp [ih h1]

theorem allInt_inv {l : List Val} {ls : List _root_.Int} (h : allInt l = some ls) : l = ls.map (.int .int64) := by
  induction l generalizing ls with
  | nil => simp only [allInt, Option.some.injEq] at h; subst h; rfl
  | cons x l ih =>
    cases x <;> try simp only [allInt, reduceCtorEq] at h
    rename_i k v
    cases k <;> simp only [allInt, reduceCtorEq] at h
    simp only [Option.map_eq_some_iff] at h
    obtain ⟨m, h1, rfl⟩ := h
    simp [ih h1]


theorem structOf_fields {sig : UInt8} {xs : List Val} {v : Val} (h : structOf sig xs = some v) : FieldsOf v xs := by
  unfold structOf at h
  by_cases h1 : sig = 0x4E
  · rw [if_pos h1] at h
    split at h
    · simp only [Option.map_eq_some_iff] at h
      obtain ⟨_, h2, rfl⟩ := h
      simp only [FieldsOf, allStr_inv h2]
    · cases h
  rw [if_neg h1] at h
  by_cases h1 : sig = 0x52
  · rw [if_pos h1] at h
    split at h
    · simp only [Option.some.injEq] at h
      subst h; rfl
    · cases h
  rw [if_neg h1] at h
  by_cases h1 : sig = 0x72
  · rw [if_pos h1] at h
    split at h
    · simp only [Option.some.injEq] at h
      subst h; rfl
    · cases h
  rw [if_neg h1] at h
  by_cases h1 : sig = 0x50
  · rw [if_pos h1] at h
    split at h
    · split at h
      · simp only [Option.map_eq_some_iff] at h
        obtain ⟨_, h2, rfl⟩ := h
        simp only [FieldsOf, allInt_inv h2]
      · cases h
    · cases h
  rw [if_neg h1] at h
  by_cases h1 : sig = 0x71
  · rw [if_pos h1] at h
    split at h
    · simp only [Option.some.injEq] at h
      subst h; rfl
    · cases h
  rw [if_neg h1] at h
  by_cases h1 : sig = 0x70
  · rw [if_pos h1] at h
    split at h
    · simp only [Option.some.injEq] at h
      subst h; rfl
    · cases h
  rw [if_neg h1] at h
  by_cases h1 : sig = 0x7F
  · rw [if_pos h1] at h
    split at h
    · simp only [Option.some.injEq] at h
      subst h; rfl
    · cases h
  rw [if_neg h1] at h
  by_cases hx : xs = []
  · subst hx
    simp only [List.isEmpty_nil, if_true] at h
    repeat' split at h
    all_goals first | (cases h; done) | (simp only [Option.some.injEq] at h; subst h; rfl)
  · rw [if_neg (by simpa using hx)] at h; cases h

theorem structOf_entity {sig : UInt8} {xs : List Val} {v : Val} (h : structOf sig xs = some v) : Entity v := by
  have := structOf_fields h
  cases v <;> first | trivial | simp only [FieldsOf] at this

theorem ofPS_map {q : PS} {ys : KVs} (h : ofPS q = some (.map ys)) :
    ∃ qs zs, q = .map qs ∧ ofPSKVs qs = some zs ∧ lastWins zs = ys := by
  cases q with
  | map qs => simp only [ofPS, Option.map_eq_some_iff, Val.map.injEq] at h; obtain ⟨zs, h, h2⟩ := h; exact ⟨qs, zs, rfl, h, h2⟩
  | struct sig fs =>
    simp only [ofPS, Option.bind_eq_some_iff] at h
    obtain ⟨xs, _, h⟩ := h
    exact (structOf_entity h).elim
  | _ => simp [ofPS] at h

theorem ofPS_struct {q : PS} {v : Val} (he : Entity v) (h : ofPS q = some v) :
    ∃ sig fs xs, q = .struct sig fs ∧ ofPSList fs = some xs ∧ structOf sig xs = some v := by
  cases q with
  | struct sig fs =>
    simp only [ofPS, Option.bind_eq_some_iff] at h
    obtain ⟨xs, h1, h⟩ := h
    exact ⟨sig, fs, xs, rfl, h1, h⟩
  | _ =>
    simp only [ofPS, Option.some.injEq, Option.map_eq_some_iff] at h
    first
    | (subst h; exact he.elim)
    | (obtain ⟨_, _, rfl⟩ := h; exact he.elim)

theorem ofPSKVs_length {qs : List (Bytes × PS)} {ys : KVs} (h : ofPSKVs qs = some ys) : qs.length = ys.length := by
  induction qs generalizing ys with
  | nil => simp only [ofPSKVs, Option.some.injEq] at h; subst h; rfl
  | cons q qs ih =>
    obtain ⟨k, q⟩ := q
    simp only [ofPSKVs, Option.bind_eq_some_iff, Option.map_eq_some_iff] at h
    obtain ⟨_, _, zs, h2, rfl⟩ := h
    simp [ih h2]

theorem ofPSList_cons {qs : List PS} {y : Val} {ys : List Val} (h : ofPSList qs = some (y :: ys)) :
    ∃ q qs', qs = q :: qs' ∧ ofPS q = some y ∧ ofPSList qs' = some ys := by
  cases qs with
  | nil => simp [ofPSList] at h
  | cons q qs =>
    simp only [ofPSList, Option.bind_eq_some_iff, Option.map_eq_some_iff, List.cons.injEq] at h
    obtain ⟨_, h1, zs, h2, rfl, rfl⟩ := h
    exact ⟨q, qs, rfl, h1, h2⟩

theorem ofPSKVs_cons {qs : List (Bytes × PS)} {k : Str} {y : Val} {ys : KVs} (h : ofPSKVs qs = some ((k, y) :: ys)) :
    ∃ q qs', qs = (k, q) :: qs' ∧ ofPS q = some y ∧ ofPSKVs qs' = some ys := by
  cases qs with
  | nil => simp [ofPSKVs] at h
  | cons q qs =>
    obtain ⟨k', q⟩ := q
    simp only [ofPSKVs, Option.bind_eq_some_iff, Option.map_eq_some_iff, List.cons.injEq, Prod.mk.injEq] at h
    obtain ⟨_, h1, zs, h2, ⟨rfl, rfl⟩, rfl⟩ := h
    exact ⟨q, qs, rfl, h1, h2⟩

theorem reads_cons {qs : List PS} {y : Val} {ys : List Val} {b r : Bytes} (hr : ReadsList qs b r) (h : ofPSList qs = some (y :: ys)) :
    ∃ q qs' c, Reads q b c ∧ ofPS q = some y ∧ ReadsList qs' c r ∧ ofPSList qs' = some ys := by
  obtain ⟨q, qs', rfl, h1, h2⟩ := ofPSList_cons h
  simp only [ReadsList] at hr
  obtain ⟨c, h3, h4⟩ := hr
  exact ⟨q, qs', c, h3, h1, h4, h2⟩

/-! ## Maps lose entries only to repeated keys -/

theorem firstKeys_le (kvs : List (Str × α)) : (firstKeys kvs).length ≤ kvs.length := by
  induction kvs with
  | nil => simp [firstKeys]
  | cons x l ih =>
    obtain ⟨k, v⟩ := x
    simp only [firstKeys, List.length_cons]
    have := List.length_filter_le (fun k' => decide (k' ≠ k)) (firstKeys l)
    omega

theorem nodup_of_firstKeys {kvs : List (Str × α)} (h : (firstKeys kvs).length = kvs.length) : (kvs.map Prod.fst).Nodup := by
  induction kvs with
  | nil => simp
  | cons x l ih =>
    obtain ⟨k, v⟩ := x
    simp only [firstKeys, List.length_cons] at h
    have h1 := List.length_filter_le (fun k' => decide (k' ≠ k)) (firstKeys l)
    have h2 := firstKeys_le l
    have h3 := ih (by omega)
    have h4 : (firstKeys l).filter (fun k' => decide (k' ≠ k)) = firstKeys l :=
      List.filter_eq_self.mpr (List.length_filter_eq_length_iff.mp (by omega))
    rw [firstKeys_nodup h3] at h4
    simp only [List.map_cons, List.nodup_cons]
    refine ⟨fun hm => ?_, h3⟩
    have := List.filter_eq_self.mp h4 k hm
    simp at this

theorem lastWins_full {kvs : List (Str × α)} (h : (lastWins kvs).length = kvs.length) : lastWins kvs = kvs := by
  refine lastWins_nodup (nodup_of_firstKeys ?_)
  have h1 := firstKeys_le kvs
  have h2 : (lastWins kvs).length ≤ (firstKeys kvs).length := by unfold lastWins; exact List.length_filterMap_le _ _
  omega

/-! ## Reading what the encoder wrote -/

theorem rd_list {n : Nat} {body r : Bytes} {q : PS} {ys : List Val} (he : (sliceHeader n).err = none)
    (hr : Reads q ((sliceHeader n).bytes ++ body) r) (hq : ofPS q = some (.list ys)) :
    ∃ qs, SizeOK halfRange n ∧ ReadsList qs body r ∧ ofPSList qs = some ys := by
  obtain ⟨qs, rfl, h1⟩ := ofPS_list hq
  simp only [Reads] at hr
  obtain ⟨h, c, h2, h3, h4⟩ := hr
  obtain ⟨h5, h6, h7⟩ := hdr_unique (sliceHeader_hdr he (sizeOK_full n)) h2 h3
  subst h7
  refine ⟨qs, hdr_sizeOK (k := .list) (h := h) (by rw [h5]; exact h2) (by rw [← h6, sliceHeader_len he]), h4, h1⟩

theorem rd_map {n : Nat} {body r : Bytes} {q : PS} {ys : KVs} (he : (mapHeader n).err = none)
    (hr : Reads q ((mapHeader n).bytes ++ body) r) (hq : ofPS q = some (.map ys)) (hn : ys.length = n) :
    ∃ qs, SizeOK halfRange n ∧ ReadsKVs qs body r ∧ ofPSKVs qs = some ys := by
  obtain ⟨qs, zs, rfl, h1, h8⟩ := ofPS_map hq
  simp only [Reads] at hr
  rcases hr with ⟨h, c, h2, h3, h4⟩ | ⟨rfl, w, k, m, bs, h2, _, _, h3⟩
  · obtain ⟨h5, h6, h7⟩ := hdr_unique (mapHeader_hdr he (sizeOK_full n)) h2 h3
    subst h7
    have h9 : lastWins zs = zs := lastWins_full (by rw [h8, ← ofPSKVs_length h1, ← h5, hn])
    refine ⟨qs, hdr_sizeOK (k := .map) (h := h) (by rw [h5]; exact h2) (by rw [← h6, mapHeader_len he]), h4, ?_⟩
    rw [h1, ← h9, h8]
  · simp only [ofPSKVs, Option.some.injEq] at h1
    subst h1
    simp only [lastWins, firstKeys, List.filterMap_nil] at h8
    subst h8
    subst hn
    have e : (mapHeader 0).bytes = [UInt8.ofNat (Kind.map.tiny + 0)] := rfl
    simp only [List.length_nil] at h3
    rw [e] at h3
    simp only [List.cons_append, List.nil_append, List.cons.injEq] at h3
    exact absurd h3.1 (tiny_not_marker (k := .map) (n := 0) (by decide) h2)

theorem rd_str {s : Str} {t r : Bytes} {q : PS} (he : (encodeString s).err = none)
    (hr : Reads q ((encodeString s).bytes ++ t) r) (hq : ofPS q = some (.str s)) : SizeOK halfRange s.length ∧ r = t := by
  have := ofPS_str hq
  subst this
  simp only [Reads] at hr
  obtain ⟨n, h, h1, h2, _⟩ := hr
  obtain ⟨hd, h3, h4⟩ := encodeString_hdr (lim := fullRange) he (sizeOK_full _)
  rw [h4, List.append_assoc, List.append_assoc] at h2
  obtain ⟨h5, h6, h7⟩ := hdr_unique h3 h1 h2
  have hl := encodeString_len he
  rw [h4, List.length_append] at hl
  refine ⟨hdr_sizeOK (k := .str) (h := h) (by rw [h5]; exact h1) (by rw [← h6]; omega), ?_⟩
  exact (List.append_cancel_left h7).symm

theorem rd_struct {n : Nat} {sig : _root_.Int} {body r : Bytes} {q : PS} {v : Val} (he : (structHeader n sig).err = none)
    (hr : Reads q ((structHeader n sig).bytes ++ body) r) (hq : ofPS q = some v) (hv : Entity v) :
    ∃ sg fs xs, ReadsList fs body r ∧ ofPSList fs = some xs ∧ structOf sg xs = some v := by
  obtain ⟨sg, fs, xs, rfl, h1, h2⟩ := ofPS_struct hv hq
  simp only [Reads] at hr
  obtain ⟨k, h, c, h3, h4, h5⟩ := hr
  obtain ⟨hd, h6, h7⟩ := structHeader_hdr (lim := fullRange) he (sizeOK_full _)
  rw [h7, List.append_assoc] at h4
  obtain ⟨_, _, h8⟩ := hdr_unique h6 h3 h4
  have hb : beSigned 1 sig = [UInt8.ofNat (sig % ((256 ^ 1 : Nat) : _root_.Int)).toNat] := by simp [beSigned, be]
  rw [hb] at h8
  simp only [List.cons_append, List.nil_append, List.cons.injEq] at h8
  obtain ⟨_, rfl⟩ := h8
  exact ⟨sg, fs, xs, h5, h1, h2⟩

theorem reads_det {p q : PS} {a t r : Bytes} {v w : Val} (hp : Packs halfRange p a) (hv : ofPS p = some v)
    (hr : Reads q (a ++ t) r) (hw : ofPS q = some w) : w = v ∧ r = t := by
  have h1 := c17_conforming_understood_partial hp hv t
  have h2 := decodePayload_iff.mpr ⟨q, hr, hw⟩
  rw [h1] at h2
  cases h2
  exact ⟨rfl, rfl⟩

theorem rd_int {i j : _root_.Int} {t r : Bytes} {q : PS} (hi : IsInt64 i)
    (hr : Reads q ((encodeIntKind .int64 i).bytes ++ t) r) (hq : ofPS q = some (.int .int64 j)) : r = t :=
  (reads_det (p := .int i) (encodeIntKind_ok64 hi).2 rfl hr hq).2

/-! ## Fields -/

theorem rd_labels {ls : List Str} {t r : Bytes} {qs : List PS} (he : (encodeEach encodeString ls).err = none)
    (hr : ReadsList qs ((encodeEach encodeString ls).bytes ++ t) r) (hq : ofPSList qs = some (ls.map .str)) :
    (∀ l ∈ ls, SizeOK halfRange l.length) ∧ r = t := by
  induction ls generalizing qs with
  | nil =>
    cases qs with
    | nil => simp only [ReadsList] at hr; subst hr; simp [encodeEach]
    | cons q qs => have := ofPSList_length hq; simp at this
  | cons l ls ih =>
    simp only [encodeEach, err_seq] at he
    obtain ⟨q, qs', c, h1, h2, h3, h4⟩ := reads_cons hr hq
    simp only [encodeEach] at h1
    rw [bytes_seq he.1, List.append_assoc] at h1
    obtain ⟨h5, rfl⟩ := rd_str he.1 h1 h2
    obtain ⟨h6, h7⟩ := ih he.2 h3 h4
    refine ⟨?_, h7⟩
    intro x hx
    rcases List.mem_cons.mp hx with rfl | hx
    · exact h5
    · exact h6 x hx

/-! ## The induction -/

/-- Conditions at one level. -/
def SmallHere (v : Val) : Prop := v.SizesHere halfRange ∧ v.CleanHere

theorem returnsList_length {xs ys : List Val} (h : ReturnsList xs ys) : ys.length = xs.length := by
  induction xs generalizing ys with
  | nil => simp only [ReturnsList] at h; subst h; rfl
  | cons x xs ih => simp only [ReturnsList] at h; obtain ⟨_, _, _, h, rfl⟩ := h; simp [ih h]

theorem returnsKVs_length {xs ys : KVs} (h : ReturnsKVs xs ys) : ys.length = xs.length := by
  have := congrArg List.length (returnsKVs_keys h); simpa using this

/-- A value whose sizes are small is read to its end. -/
theorem rest_of {v : Val} {q : PS} {t r : Bytes} {w : Val} (hb : Val.All RoundHere v) (hs : Val.All SmallHere v)
    (he : (encOps v).err = none) (hr : Reads q ((encOps v).bytes ++ t) r) (hw : ofPS q = some w) : r = t := by
  obtain ⟨p, h1, h2⟩ := enc_packs (lim := halfRange) v
    (all_mono (P := fun v => RoundHere v ∧ SmallHere v) (fun _ h => ⟨h.1.1, h.2.2, h.2.1⟩) v (all_and v hb hs)) he
  obtain ⟨w', h3, _⟩ := ret_of v p hb h1
  exact (reads_det h2 h3 hr hw).2

theorem mem_sizes {P : Nat → Prop} {n : Nat} {l : List Nat} (h1 : P n) (h2 : ∀ m ∈ l, P m) : ∀ m ∈ n :: l, P m := by
  intro m hm
  rcases List.mem_cons.mp hm with rfl | hm
  · exact h1
  · exact h2 m hm

mutual
theorem small_of : (v : Val) → (q : PS) → (t r : Bytes) → (w : Val) → Val.All RoundHere v → (encOps v).err = none →
    Reads q ((encOps v).bytes ++ t) r → ofPS q = some w → Returns v w → Val.All SmallHere v
  | .str s, q, t, r, w, hb, he, hr, hq, hw => by
    simp only [Returns] at hw; subst hw
    simp only [encOps] at he hr
    simp only [Val.All, SmallHere, Val.SizesHere, Val.CleanHere, and_true, Val.sizes, List.mem_singleton, forall_eq]
    exact (rd_str he hr hq).1
  | .int k n, q, t, r, w, hb, he, hr, hq, hw => by
    simp only [Returns] at hw; subst hw
    refine ⟨by simp [Val.SizesHere, Val.sizes], ?_⟩
    cases q with
    | int m =>
      simp only [ofPS, Option.some.injEq, Val.int.injEq, true_and] at hq
      subst hq
      simp only [Reads] at hr
      obtain ⟨a, h1, _⟩ := hr
      have := (int64_of_packs h1).2
      cases k <;> simp only [Val.CleanHere]
      exact this
    | struct sig fs =>
      simp only [ofPS, Option.bind_eq_some_iff] at hq
      obtain ⟨xs, _, hq⟩ := hq
      exact (structOf_entity hq).elim
    | _ => simp [ofPS] at hq
  | .list xs, q, t, r, w, hb, he, hr, hq, hw => by
    simp only [Returns] at hw; obtain ⟨ys, hw, rfl⟩ := hw
    simp only [encOps, err_seq] at he hr
    rw [bytes_seq he.1, List.append_assoc] at hr
    obtain ⟨qs, h1, h2, h3⟩ := rd_list he.1 hr hq
    simp only [Val.All] at hb
    simp only [Val.All, SmallHere, Val.SizesHere, Val.CleanHere, and_true, Val.sizes, List.mem_singleton, forall_eq]
    exact ⟨h1, (smallList_of xs qs t r ys hb.2 he.2 h2 h3 hw).1⟩
  | .typedSlice xs, q, t, r, w, hb, he, hr, hq, hw => by
    simp only [Returns] at hw; obtain ⟨ys, hw, rfl⟩ := hw
    simp only [encOps, err_seq] at he hr
    rw [bytes_seq he.1, List.append_assoc] at hr
    obtain ⟨qs, h1, h2, h3⟩ := rd_list he.1 hr hq
    simp only [Val.All] at hb
    simp only [Val.All, SmallHere, Val.SizesHere, Val.CleanHere, and_true, Val.sizes, List.mem_singleton, forall_eq]
    exact ⟨h1, (smallList_of xs qs t r ys hb.2 he.2 h2 h3 hw).1⟩
  | .map kvs, q, t, r, w, hb, he, hr, hq, hw => by
    simp only [Returns] at hw; obtain ⟨ys, hw, rfl⟩ := hw
    simp only [encOps, err_seq] at he hr
    rw [bytes_seq he.1, List.append_assoc] at hr
    obtain ⟨qs, h1, h2, h3⟩ := rd_map he.1 hr hq (returnsKVs_length hw)
    simp only [Val.All] at hb
    simp only [Val.All, SmallHere, Val.SizesHere, Val.CleanHere, and_true, Val.sizes]
    obtain ⟨h4, h5, _⟩ := smallKVs_of kvs qs t r ys hb.2 he.2 h2 h3 hw
    exact ⟨mem_sizes h1 h4, h5⟩
  | .node id ls kvs, q, t, r, w, hb, he, hr, hq, hw => by
    simp only [Returns] at hw; obtain ⟨ys, hw, rfl⟩ := hw
    simp only [encOps, err_seq, err_wrapErr] at he hr
    obtain ⟨e0, e1, ⟨e2, e3⟩, e4, e5⟩ := he
    rw [bytes_seq e0, List.append_assoc] at hr
    obtain ⟨sg, fs, xs, h1, h2, h3⟩ := rd_struct e0 hr hq trivial
    rw [structOf_fields h3] at h2
    rw [bytes_seq (by simpa using e1), List.append_assoc] at h1
    obtain ⟨q1, fs, c, a1, a2, a3, a4⟩ := reads_cons h1 h2
    simp only [Val.All] at hb
    have := rd_int hb.1.1.1 (by simpa using a1) a2
    subst this
    obtain ⟨q2, fs, c, b1, b2, b3, b4⟩ := reads_cons a3 a4
    rw [bytes_seq (by simp [e2, e3]), List.append_assoc, bytes_wrapErr, bytes_seq e2, List.append_assoc] at b1
    obtain ⟨ps, s1, s2, s3⟩ := rd_list e2 b1 b2
    obtain ⟨s4, rfl⟩ := rd_labels e3 s2 s3
    obtain ⟨q3, fs, c, c1, c2, c3, c4⟩ := reads_cons b3 b4
    rw [bytes_wrapErr, bytes_seq e4, List.append_assoc] at c1
    obtain ⟨qs, d1, d2, d3⟩ := rd_map e4 c1 c2 (returnsKVs_length hw)
    obtain ⟨d4, d5, _⟩ := smallKVs_of kvs qs t _ ys hb.2 e5 d2 d3 hw
    simp only [Val.All, SmallHere, Val.SizesHere, Val.CleanHere, and_true, Val.sizes]
    refine ⟨mem_sizes s1 (mem_sizes d1 ?_), d5⟩
    intro m hm
    rcases List.mem_append.mp hm with hm | hm
    · obtain ⟨l, hl, rfl⟩ := List.mem_map.mp hm; exact s4 l hl
    · exact d4 m hm
  | .rel id s e t' kvs, q, t, r, w, hb, he, hr, hq, hw => by
    simp only [Returns] at hw; obtain ⟨ys, hw, rfl⟩ := hw
    simp only [encOps, err_seq, err_wrapErr] at he hr
    obtain ⟨e0, e1, e2, e3, e4, e5, e6⟩ := he
    rw [bytes_seq e0, List.append_assoc] at hr
    obtain ⟨sg, fs, xs, h1, h2, h3⟩ := rd_struct e0 hr hq trivial
    rw [structOf_fields h3] at h2
    simp only [Val.All] at hb
    rw [bytes_seq (by simpa using e1), List.append_assoc] at h1
    obtain ⟨q1, fs, c, a1, a2, a3, a4⟩ := reads_cons h1 h2
    have := rd_int hb.1.1.1 (by simpa using a1) a2
    subst this
    rw [bytes_seq (by simpa using e2), List.append_assoc] at a3
    obtain ⟨q1, fs, c, a1, a2, a3, a4⟩ := reads_cons a3 a4
    have := rd_int hb.1.1.2.1 (by simpa using a1) a2
    subst this
    rw [bytes_seq (by simpa using e3), List.append_assoc] at a3
    obtain ⟨q1, fs, c, a1, a2, a3, a4⟩ := reads_cons a3 a4
    have := rd_int hb.1.1.2.2.1 (by simpa using a1) a2
    subst this
    rw [bytes_seq (by simpa using e4), List.append_assoc] at a3
    obtain ⟨q1, fs, c, a1, a2, a3, a4⟩ := reads_cons a3 a4
    rw [bytes_wrapErr] at a1
    obtain ⟨s1, rfl⟩ := rd_str e4 a1 a2
    obtain ⟨q3, fs, c, c1, c2, c3, c4⟩ := reads_cons a3 a4
    rw [bytes_wrapErr, bytes_seq e5, List.append_assoc] at c1
    obtain ⟨qs, d1, d2, d3⟩ := rd_map e5 c1 c2 (returnsKVs_length hw)
    obtain ⟨d4, d5, _⟩ := smallKVs_of kvs qs t _ ys hb.2 e6 d2 d3 hw
    simp only [Val.All, SmallHere, Val.SizesHere, Val.CleanHere, and_true, Val.sizes]
    exact ⟨mem_sizes s1 (mem_sizes d1 d4), d5⟩
  | .unbound id t' kvs, q, t, r, w, hb, he, hr, hq, hw => by
    simp only [Returns] at hw; obtain ⟨ys, hw, rfl⟩ := hw
    simp only [encOps, err_seq, err_wrapErr] at he hr
    obtain ⟨e0, e1, e4, e5, e6⟩ := he
    rw [bytes_seq e0, List.append_assoc] at hr
    obtain ⟨sg, fs, xs, h1, h2, h3⟩ := rd_struct e0 hr hq trivial
    rw [structOf_fields h3] at h2
    simp only [Val.All] at hb
    rw [bytes_seq (by simpa using e1), List.append_assoc] at h1
    obtain ⟨q1, fs, c, a1, a2, a3, a4⟩ := reads_cons h1 h2
    have := rd_int hb.1.1.1 (by simpa using a1) a2
    subst this
    rw [bytes_seq (by simpa using e4), List.append_assoc] at a3
    obtain ⟨q1, fs, c, a1, a2, a3, a4⟩ := reads_cons a3 a4
    rw [bytes_wrapErr] at a1
    obtain ⟨s1, rfl⟩ := rd_str e4 a1 a2
    obtain ⟨q3, fs, c, c1, c2, c3, c4⟩ := reads_cons a3 a4
    rw [bytes_wrapErr, bytes_seq e5, List.append_assoc] at c1
    obtain ⟨qs, d1, d2, d3⟩ := rd_map e5 c1 c2 (returnsKVs_length hw)
    obtain ⟨d4, d5, _⟩ := smallKVs_of kvs qs t _ ys hb.2 e6 d2 d3 hw
    simp only [Val.All, SmallHere, Val.SizesHere, Val.CleanHere, and_true, Val.sizes]
    exact ⟨mem_sizes s1 (mem_sizes d1 d4), d5⟩
  | .path ns rs sq, q, t, r, w, hb, he, hr, hq, hw => by
    simp only [Returns] at hw; obtain ⟨ns', rs', hw, hw', rfl⟩ := hw
    simp only [encOps, err_seq, err_wrapErr] at he hr
    obtain ⟨e0, ⟨e1, e2⟩, ⟨e3, e4⟩, e5, e6⟩ := he
    rw [bytes_seq e0, List.append_assoc] at hr
    obtain ⟨sg, fs, xs, h1, h2, h3⟩ := rd_struct e0 hr hq trivial
    rw [structOf_fields h3] at h2
    simp only [Val.All] at hb
    rw [bytes_seq (by simp [e1, e2]), List.append_assoc, bytes_wrapErr, bytes_seq e1, List.append_assoc] at h1
    obtain ⟨q1, fs, c, a1, a2, a3, a4⟩ := reads_cons h1 h2
    obtain ⟨qs, s1, s2, s3⟩ := rd_list e1 a1 a2
    obtain ⟨s4, s5⟩ := smallList_of ns qs _ _ ns' hb.2.1 e2 s2 s3 hw
    rw [s5, bytes_seq (by simp [e3, e4]), List.append_assoc, bytes_wrapErr, bytes_seq e3, List.append_assoc] at a3
    obtain ⟨q1, fs, c, a1, a2, a3, a4⟩ := reads_cons a3 a4
    obtain ⟨qs, u1, u2, u3⟩ := rd_list e3 a1 a2
    obtain ⟨u4, u5⟩ := smallList_of rs qs _ _ rs' hb.2.2 e4 u2 u3 hw'
    rw [u5, bytes_wrapErr, bytes_seq e5, List.append_assoc] at a3
    obtain ⟨q1, fs, c, a1, a2, a3, a4⟩ := reads_cons a3 a4
    obtain ⟨qs, v1, _⟩ := rd_list e5 a1 a2
    simp only [Val.All, SmallHere, Val.SizesHere, Val.CleanHere, and_true, Val.sizes]
    exact ⟨mem_sizes s1 (mem_sizes u1 (mem_sizes v1 (by simp))), s4, u4⟩
  | .record fs, q, t, r, w, hb, he, hr, hq, hw => by
    simp only [Returns] at hw; obtain ⟨ys, hw, rfl⟩ := hw
    simp only [encOps, err_seq, err_wrapErr] at he hr
    obtain ⟨e0, e1, e2⟩ := he
    rw [bytes_seq e0, List.append_assoc] at hr
    obtain ⟨sg, gs, xs, h1, h2, h3⟩ := rd_struct e0 hr hq trivial
    rw [structOf_fields h3] at h2
    rw [bytes_wrapErr, bytes_seq e1, List.append_assoc] at h1
    obtain ⟨q1, gs, c, a1, a2, a3, a4⟩ := reads_cons h1 h2
    obtain ⟨qs, s1, s2, s3⟩ := rd_list e1 a1 a2
    simp only [Val.All] at hb
    simp only [Val.All, SmallHere, Val.SizesHere, Val.CleanHere, and_true, Val.sizes, List.mem_singleton, forall_eq]
    exact ⟨s1, (smallList_of fs qs _ _ ys hb.2 e2 s2 s3 hw).1⟩
  | .success md, q, t, r, w, hb, he, hr, hq, hw => by
    simp only [Returns] at hw; obtain ⟨ys, hw, rfl⟩ := hw
    simp only [encOps, err_seq, err_wrapErr] at he hr
    obtain ⟨e0, e1, e2⟩ := he
    rw [bytes_seq e0, List.append_assoc] at hr
    obtain ⟨sg, gs, xs, h1, h2, h3⟩ := rd_struct e0 hr hq trivial
    rw [structOf_fields h3] at h2
    rw [bytes_wrapErr, bytes_seq e1, List.append_assoc] at h1
    obtain ⟨q1, gs, c, a1, a2, a3, a4⟩ := reads_cons h1 h2
    obtain ⟨qs, s1, s2, s3⟩ := rd_map e1 a1 a2 (returnsKVs_length hw)
    simp only [Val.All] at hb
    obtain ⟨d4, d5, _⟩ := smallKVs_of md qs _ _ ys hb.2 e2 s2 s3 hw
    simp only [Val.All, SmallHere, Val.SizesHere, Val.CleanHere, and_true, Val.sizes]
    exact ⟨mem_sizes s1 d4, d5⟩
  | .failure md, q, t, r, w, hb, he, hr, hq, hw => by
    simp only [Returns] at hw; obtain ⟨ys, hw, rfl⟩ := hw
    simp only [encOps, err_seq, err_wrapErr] at he hr
    obtain ⟨e0, e1, e2⟩ := he
    rw [bytes_seq e0, List.append_assoc] at hr
    obtain ⟨sg, gs, xs, h1, h2, h3⟩ := rd_struct e0 hr hq trivial
    rw [structOf_fields h3] at h2
    rw [bytes_wrapErr, bytes_seq e1, List.append_assoc] at h1
    obtain ⟨q1, gs, c, a1, a2, a3, a4⟩ := reads_cons h1 h2
    obtain ⟨qs, s1, s2, s3⟩ := rd_map e1 a1 a2 (returnsKVs_length hw)
    simp only [Val.All] at hb
    obtain ⟨d4, d5, _⟩ := smallKVs_of md qs _ _ ys hb.2 e2 s2 s3 hw
    simp only [Val.All, SmallHere, Val.SizesHere, Val.CleanHere, and_true, Val.sizes]
    exact ⟨mem_sizes s1 d4, d5⟩
  | .init _ _, _, _, _, _, hb, _, _, _, _ => by simp only [Val.All] at hb; exact hb.1.2.elim
  | .run _ _, _, _, _, _, hb, _, _, _, _ => by simp only [Val.All] at hb; exact hb.1.2.elim
  | .userStruct _ _, _, _, _, _, hb, _, _, _, _ => by simp only [Val.All] at hb; exact hb.1.2.elim
  | .nil, _, _, _, _, _, _, _, _, _ | .bool _, _, _, _, _, _, _, _, _, _
  | .float32 _, _, _, _, _, _, _, _, _, _ | .float64 _, _, _, _, _, _, _, _, _, _
  | .ignored, _, _, _, _, _, _, _, _, _ | .ackFailure, _, _, _, _, _, _, _, _, _
  | .discardAll, _, _, _, _, _, _, _, _, _ | .pullAll, _, _, _, _, _, _, _, _, _
  | .reset, _, _, _, _, _, _, _, _, _ | .other _, _, _, _, _, _, _, _, _, _ => by
    simp [Val.All, SmallHere, Val.SizesHere, Val.CleanHere, Val.sizes]

theorem smallList_of : (xs : List Val) → (qs : List PS) → (t r : Bytes) → (ys : List Val) → Val.AllList RoundHere xs →
    (encList xs).err = none → ReadsList qs ((encList xs).bytes ++ t) r → ofPSList qs = some ys → ReturnsList xs ys →
    Val.AllList SmallHere xs ∧ r = t
  | [], qs, t, r, ys, _, _, hr, hq, hw => by
    simp only [ReturnsList] at hw; subst hw
    cases qs with
    | nil => simp only [ReadsList, encList] at hr; exact ⟨trivial, by simpa using hr.symm⟩
    | cons q qs => have := ofPSList_length hq; simp at this
  | x :: xs, qs, t, r, ys, hb, he, hr, hq, hw => by
    simp only [ReturnsList] at hw; obtain ⟨y, zs, hw, hw', rfl⟩ := hw
    simp only [encList, err_seq] at he hr
    simp only [Val.AllList] at hb
    rw [bytes_seq he.1, List.append_assoc] at hr
    obtain ⟨q, qs, c, h1, h2, h3, h4⟩ := reads_cons hr hq
    have h5 := small_of x q _ _ y hb.1 he.1 h1 h2 hw
    rw [rest_of hb.1 h5 he.1 h1 h2] at h3
    obtain ⟨h6, h7⟩ := smallList_of xs qs t r zs hb.2 he.2 h3 h4 hw'
    exact ⟨⟨h5, h6⟩, h7⟩

theorem smallKVs_of : (xs : List (Str × Val)) → (qs : List (Bytes × PS)) → (t r : Bytes) → (ys : List (Str × Val)) →
    Val.AllKVs RoundHere xs → (encKVs xs).err = none → ReadsKVs qs ((encKVs xs).bytes ++ t) r → ofPSKVs qs = some ys →
    ReturnsKVs xs ys → (∀ n ∈ keySizes xs, SizeOK halfRange n) ∧ Val.AllKVs SmallHere xs ∧ r = t
  | [], qs, t, r, ys, _, _, hr, hq, hw => by
    simp only [ReturnsKVs] at hw; subst hw
    cases qs with
    | nil => simp only [ReadsKVs, encKVs] at hr; exact ⟨by simp [keySizes], trivial, by simpa using hr.symm⟩
    | cons q qs => have := ofPSKVs_length hq; simp at this
  | (k, x) :: xs, qs, t, r, ys, hb, he, hr, hq, hw => by
    simp only [ReturnsKVs] at hw; obtain ⟨y, zs, hw, hw', rfl⟩ := hw
    simp only [encKVs, err_seq] at he hr
    simp only [Val.AllKVs] at hb
    rw [bytes_seq he.1, bytes_seq he.2.1, List.append_assoc, List.append_assoc] at hr
    obtain ⟨q, qs, rfl, h2, h4⟩ := ofPSKVs_cons hq
    simp only [ReadsKVs] at hr
    obtain ⟨c, d, a1, a2, a3⟩ := hr
    obtain ⟨a4, rfl⟩ := rd_str he.1 a1 rfl
    have h5 := small_of x q _ _ y hb.1 he.2.1 a2 h2 hw
    rw [rest_of hb.1 h5 he.2.1 a2 h2] at a3
    obtain ⟨h6, h7, h8⟩ := smallKVs_of xs qs t r zs hb.2 he.2.2 a3 h4 hw'
    refine ⟨?_, ⟨h5, h7⟩, h8⟩
    simp only [keySizes, List.map_cons]
    exact mem_sizes a4 h6
end

end Bolt
