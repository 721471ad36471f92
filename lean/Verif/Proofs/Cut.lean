import Verif.Spec.Ends
import Verif.Proofs.Count

/-! Decoding a payload that was cut short. -/

namespace Bolt
open PackStream

/-- The run failed with an error, or (`t`) delivered something and used up the buffer. -/
def CutRes (t : Bool) (x : Except Fault (α × Bytes)) : Prop :=
  (∃ e, x = .error (.err e)) ∨ (t = true ∧ ∃ v', x = .ok (v', []))

/-- `l`: for every value to be read, whether its encoding ends in a string, and the value. The buffer
ends somewhere inside one of them. -/
inductive CutRun (dec : Dec Val) : List (Bool × Val) → Bytes → Prop
  | fail {b e t x l} : dec b = .error (.err e) → CutRun dec ((t, x) :: l) b
  | short {b v' x l} : dec b = .ok (v', []) → CutRun dec ((true, x) :: l) b
  | step {b b' t x l} : dec b = .ok (x, b') → CutRun dec l b' → CutRun dec ((t, x) :: l) b

theorem decode_nil {f : Nat} (hf : 0 < f) : decode f [] = .error (.err (.wrap "Error reading marker" (some .eof))) := by
  obtain ⟨f, rfl⟩ : ∃ g, f = g + 1 := ⟨f - 1, by omega⟩
  simp [decode, readByte]

theorem readRaw_short {w : Nat} {a : Bytes} (h : a.length < w) : ∃ e, readRaw w a = .error (.err e) := by
  unfold readRaw
  rw [if_neg (by omega)]
  split
  · exact ⟨_, rfl⟩
  · exact ⟨_, rfl⟩

theorem readInt_short {w : Nat} {a : Bytes} (h : a.length < w) :
    ∃ e, readInt w a = .error (.err e) := by
  obtain ⟨e, he⟩ := readRaw_short h
  exact ⟨e, by simp [readInt, he]⟩

theorem decodeMarker_cut (dec : Dec Val) {k : Kind} {w : Nat} {m : UInt8} {a : Bytes}
    (hm : k.marker w = some m) (ha : a.length < w) :
    ∃ e, decodeMarker dec m a = .error (.err e) := by
  obtain ⟨e, he⟩ := readRaw_short ha
  unfold Kind.marker at hm
  split at hm <;> simp only [Option.some.injEq, reduceCtorEq] at hm <;> subst hm <;>
    unfold decodeMarker <;>
    simp [NilMarker, TrueMarker, FalseMarker, Int8Marker, Int16Marker, Int32Marker, Int64Marker,
      FloatMarker, TinyStringMarker, String8Marker, String16Marker, String32Marker, TinySliceMarker,
      Slice8Marker, Slice16Marker, Slice32Marker, TinyMapMarker, Map8Marker, Map16Marker, Map32Marker,
      TinyStructMarker, Struct8Marker, Struct16Marker, wrapSigned, readSize, he]

/-- Either `pre` contains all of `a`, or it ends inside `a`. -/
theorem cut_append {a b pre suf : Bytes} (h : a ++ b = pre ++ suf) (hs : suf ≠ []) :
    (∃ pre', pre = a ++ pre' ∧ b = pre' ++ suf) ∨ (∃ s, s ≠ [] ∧ a = pre ++ s) := by
  rcases List.append_eq_append_iff.mp h with ⟨c, h1, h2⟩ | ⟨c, h1, h2⟩
  · exact .inl ⟨c, h1, h2⟩
  · rcases c with _ | ⟨x, c⟩
    · simp only [List.append_nil] at h1
      exact .inl ⟨[], by simp [h1], by simpa using h2.symm⟩
    · exact .inr ⟨_, by simp, h1⟩

theorem hdr_cut {k : Kind} {n : Nat} {h pre s : Bytes} (hh : Hdr halfRange k n h) (hp : h = pre ++ s)
    (hs : s ≠ []) {f : Nat} (hf : 0 < f) : ∃ e, decode f pre = .error (.err e) := by
  cases pre with
  | nil => exact ⟨_, decode_nil hf⟩
  | cons x pre =>
    obtain ⟨f, rfl⟩ : ∃ g, f = g + 1 := ⟨f - 1, by omega⟩
    rw [decode_cons]
    rcases hh with ⟨h1, rfl⟩ | ⟨w, m, bs, h1, h2, h3, rfl⟩
    · simp only [List.cons_append, List.cons.injEq, List.nil_eq, List.append_eq_nil_iff] at hp
      exact absurd hp.2.2 hs
    · simp only [List.cons_append, List.cons.injEq] at hp
      obtain ⟨rfl, rfl⟩ := hp
      refine decodeMarker_cut _ h1 ?_
      have := h2.1
      simp only [List.length_append] at this
      have := List.length_pos_iff.mpr hs
      omega

/-! ## Structures -/

theorem asMap_cases (m : String) (v : Val) (b : Bytes) :
    (∃ e, asMap m v b = .error (.err e)) ∨ ∃ x, asMap m v b = .ok (x, b) := by
  cases v <;> simp [asMap]

theorem asList_cases (m : String) (v : Val) (b : Bytes) :
    (∃ e, asList m v b = .error (.err e)) ∨ ∃ x, asList m v b = .ok (x, b) := by
  cases v <;> simp [asList]

theorem asStr_cases (m : String) (v : Val) (b : Bytes) :
    (∃ e, asStr m v b = .error (.err e)) ∨ ∃ x, asStr m v b = .ok (x, b) := by
  cases v <;> simp [asStr]

theorem sliceToString_cases (l : List Val) (b : Bytes) :
    (∃ e, sliceToString l b = .error (.err e)) ∨ ∃ x, sliceToString l b = .ok (x, b) := by
  induction l with
  | nil => simp [sliceToString]
  | cons v l ih =>
    cases v <;> simp only [sliceToString, Dec.throw_eq, Except.error.injEq, Fault.err.injEq, exists_eq',
      true_or]
    rcases ih with ⟨e, h⟩ | ⟨x, h⟩ <;> simp [h]

theorem sliceToNode_cases (l : List Val) (b : Bytes) :
    (∃ e, sliceToNode l b = .error (.err e)) ∨ ∃ x, sliceToNode l b = .ok (x, b) := by
  induction l with
  | nil => simp [sliceToNode]
  | cons v l ih =>
    cases v <;> simp only [sliceToNode, Dec.throw_eq, Except.error.injEq, Fault.err.injEq, exists_eq',
      true_or]
    rcases ih with ⟨e, h⟩ | ⟨x, h⟩ <;> simp [h]

theorem sliceToUnbound_cases (l : List Val) (b : Bytes) :
    (∃ e, sliceToUnbound l b = .error (.err e)) ∨ ∃ x, sliceToUnbound l b = .ok (x, b) := by
  induction l with
  | nil => simp [sliceToUnbound]
  | cons v l ih =>
    cases v <;> simp only [sliceToUnbound, Dec.throw_eq, Except.error.injEq, Fault.err.injEq, exists_eq',
      true_or]
    rcases ih with ⟨e, h⟩ | ⟨x, h⟩ <;> simp [h]

/-- Continuation that converts a value without reading, after the buffer was used up. -/
theorem conv_cut {α : Type} {x : Dec α} {g : α → Dec β} {t : Bool}
    (hx : (∃ e, x [] = .error (.err e)) ∨ ∃ a, x [] = .ok (a, []))
    (hg : ∀ a, CutRes t (g a [])) : CutRes t ((x >>= g) []) := by
  rcases hx with ⟨e, h⟩ | ⟨a, h⟩
  · exact .inl ⟨e, by simp [h]⟩
  · rw [dec_congr h]; exact hg a

theorem fail_cut {x : Dec α} {g : α → Dec β} {t : Bool} {b : Bytes} {e : GoErr}
    (h : x b = .error (.err e)) : CutRes t ((x >>= g) b) := .inl ⟨e, by simp [h]⟩

theorem pure_cut (a : α) : CutRes true (Dec.pure a []) := .inr ⟨rfl, a, rfl⟩

section
variable {dec : Dec Val} {e0 : GoErr} (h0 : dec [] = .error (.err e0))
include h0

theorem node_cut {id : Int} {ls : List Val} {ss : List Str} {m : KVs} {t2 t3 : Bool} {b : Bytes}
    (h : CutRun dec [(false, .int .int64 id), (t2, .list ls), (t3, .map m)] b) (hs : allStr ls = some ss) :
    CutRes t3 (decodeNode dec b) := by
  cases h with
  | fail h => exact fail_cut h
  | step h h' =>
    unfold decodeNode
    rw [dec_congr h, dec_congr (show assertInt64 (.int .int64 id) _ = .ok (id, _) from rfl)]
    cases h' with
    | fail h => exact fail_cut h
    | short h =>
      rw [dec_congr h]
      exact conv_cut (asList_cases _ _ _) fun _ => conv_cut (sliceToString_cases _ _) fun _ => fail_cut h0
    | step h h' =>
      rw [dec_congr h, dec_congr (show asList _ (.list ls) _ = .ok (ls, _) from rfl),
        dec_congr (sliceToString_eq hs _)]
      cases h' with
      | fail h => exact fail_cut h
      | short h =>
        rw [dec_congr h]
        exact conv_cut (asMap_cases _ _ _) fun _ => pure_cut _
      | step _ h' => cases h'

theorem rel_cut {id s e : Int} {ty : Str} {m : KVs} {t4 t5 : Bool} {b : Bytes}
    (h : CutRun dec [(false, .int .int64 id), (false, .int .int64 s), (false, .int .int64 e),
      (t4, .str ty), (t5, .map m)] b) :
    CutRes t5 (decodeRelationship dec b) := by
  unfold decodeRelationship
  cases h with
  | fail h => exact fail_cut h
  | step h h' =>
    rw [dec_congr h, dec_congr (show assertInt64 (.int .int64 id) _ = .ok (id, _) from rfl)]
    cases h' with
    | fail h => exact fail_cut h
    | step h h' =>
      rw [dec_congr h, dec_congr (show assertInt64 (.int .int64 s) _ = .ok (s, _) from rfl)]
      cases h' with
      | fail h => exact fail_cut h
      | step h h' =>
        rw [dec_congr h, dec_congr (show assertInt64 (.int .int64 e) _ = .ok (e, _) from rfl)]
        cases h' with
        | fail h => exact fail_cut h
        | short h =>
          rw [dec_congr h]
          exact conv_cut (asStr_cases _ _ _) fun _ => fail_cut h0
        | step h h' =>
          rw [dec_congr h, dec_congr (show asStr _ (.str ty) _ = .ok (ty, _) from rfl)]
          cases h' with
          | fail h => exact fail_cut h
          | short h =>
            rw [dec_congr h]
            exact conv_cut (asMap_cases _ _ _) fun _ => pure_cut _
          | step _ h' => cases h'

theorem unbound_cut {id : Int} {ty : Str} {m : KVs} {t4 t5 : Bool} {b : Bytes}
    (h : CutRun dec [(false, .int .int64 id), (t4, .str ty), (t5, .map m)] b) :
    CutRes t5 (decodeUnbound dec b) := by
  unfold decodeUnbound
  cases h with
  | fail h => exact fail_cut h
  | step h h' =>
    rw [dec_congr h, dec_congr (show assertInt64 (.int .int64 id) _ = .ok (id, _) from rfl)]
    cases h' with
    | fail h => exact fail_cut h
    | short h =>
      rw [dec_congr h]
      exact conv_cut (asStr_cases _ _ _) fun _ => fail_cut h0
    | step h h' =>
      rw [dec_congr h, dec_congr (show asStr _ (.str ty) _ = .ok (ty, _) from rfl)]
      cases h' with
      | fail h => exact fail_cut h
      | short h =>
        rw [dec_congr h]
        exact conv_cut (asMap_cases _ _ _) fun _ => pure_cut _
      | step _ h' => cases h'

theorem path_cut {ns rs sq : List Val} {t1 t2 : Bool} {b : Bytes}
    (h : CutRun dec [(t1, .list ns), (t2, .list rs), (false, .list sq)] b) (hn : allNode ns = true)
    (hr : allUnbound rs = true) : CutRes false (decodePath dec b) := by
  unfold decodePath
  cases h with
  | fail h => exact fail_cut h
  | short h =>
    rw [dec_congr h]
    exact conv_cut (asList_cases _ _ _) fun _ => conv_cut (sliceToNode_cases _ _) fun _ => fail_cut h0
  | step h h' =>
    rw [dec_congr h, dec_congr (show asList _ (.list ns) _ = .ok (ns, _) from rfl),
      dec_congr (sliceToNode_eq hn _)]
    cases h' with
    | fail h => exact fail_cut h
    | short h =>
      rw [dec_congr h]
      exact conv_cut (asList_cases _ _ _) fun _ => conv_cut (sliceToUnbound_cases _ _) fun _ => fail_cut h0
    | step h h' =>
      rw [dec_congr h, dec_congr (show asList _ (.list rs) _ = .ok (rs, _) from rfl),
        dec_congr (sliceToUnbound_eq hr _)]
      cases h' with
      | fail h => exact fail_cut h
      | step _ h' => cases h'

end

/-- Integers do not end in strings. -/
theorem ends_int {p : PS} {i : Int} (h : ofPS p = some (.int .int64 i)) : p.endsInString = false := by
  cases p <;> try rfl
  · simp [ofPS] at h
  · simp [ofPS] at h
  · simp [ofPS] at h
  rename_i sig fs
  simp only [ofPS, Option.bind_eq_some_iff] at h
  obtain ⟨xs, _, hs⟩ := h
  exact absurd hs (structOf_kind _ _ _)
where
  structOf_kind (sig : UInt8) (xs : List Val) (i : Int) : structOf sig xs ≠ some (.int .int64 i) := by
    intro h
    unfold structOf at h
    by_cases h1 : sig = 0x4E
    · rw [if_pos h1] at h
      split at h <;> simp at h
    rw [if_neg h1] at h
    by_cases h1 : sig = 0x52
    · rw [if_pos h1] at h
      split at h <;> simp at h
    rw [if_neg h1] at h
    by_cases h1 : sig = 0x72
    · rw [if_pos h1] at h
      split at h <;> simp at h
    rw [if_neg h1] at h
    by_cases h1 : sig = 0x50
    · rw [if_pos h1] at h
      split at h <;> simp at h
    rw [if_neg h1] at h
    by_cases h1 : sig = 0x71
    · rw [if_pos h1] at h
      split at h <;> simp at h
    rw [if_neg h1] at h
    by_cases h1 : sig = 0x70
    · rw [if_pos h1] at h
      split at h <;> simp at h
    rw [if_neg h1] at h
    by_cases h1 : sig = 0x7F
    · rw [if_pos h1] at h
      split at h <;> simp at h
    rw [if_neg h1] at h
    by_cases h1 : xs.isEmpty = true
    · rw [if_pos h1] at h
      repeat' split at h
      all_goals simp at h
    · rw [if_neg h1] at h; simp at h

/-- Lists of integers do not end in strings. -/
theorem ends_ints {ps : List PS} {xs : List Val} {is : List Int} (h : ofPSList ps = some xs)
    (hi : allInt xs = some is) : PS.endsList ps = false := by
  induction ps generalizing xs is with
  | nil => rfl
  | cons p ps ih =>
    simp only [ofPSList, Option.bind_eq_some_iff, Option.map_eq_some_iff] at h
    obtain ⟨y, hy, ys, hys, rfl⟩ := h
    cases y <;> try (simp [allInt] at hi)
    rename_i k v
    cases k <;> simp only [allInt, reduceCtorEq, Option.map_eq_some_iff] at hi
    obtain ⟨js, hj, rfl⟩ := hi
    simp only [PS.endsList]
    split
    · exact ends_int hy
    · exact ih hys hj

theorem ofPS_list {p : PS} {xs : List Val} (h : ofPS p = some (.list xs)) :
    ∃ ps, p = .list ps ∧ ofPSList ps = some xs := by
  cases p <;> try (simp [ofPS] at h; done)
  · simp only [ofPS, Option.map_eq_some_iff, Val.list.injEq] at h
    obtain ⟨ys, h1, rfl⟩ := h
    exact ⟨_, rfl, h1⟩
  · rename_i sig fs
    simp only [ofPS, Option.bind_eq_some_iff] at h
    obtain ⟨ys, _, h⟩ := h
    exfalso
    unfold structOf at h
    by_cases h1 : sig = 0x4E
    · rw [if_pos h1] at h
      split at h <;> simp at h
    rw [if_neg h1] at h
    by_cases h1 : sig = 0x52
    · rw [if_pos h1] at h
      split at h <;> simp at h
    rw [if_neg h1] at h
    by_cases h1 : sig = 0x72
    · rw [if_pos h1] at h
      split at h <;> simp at h
    rw [if_neg h1] at h
    by_cases h1 : sig = 0x50
    · rw [if_pos h1] at h
      split at h <;> simp at h
    rw [if_neg h1] at h
    by_cases h1 : sig = 0x71
    · rw [if_pos h1] at h
      split at h <;> simp at h
    rw [if_neg h1] at h
    by_cases h1 : sig = 0x70
    · rw [if_pos h1] at h
      split at h <;> simp at h
    rw [if_neg h1] at h
    by_cases h1 : sig = 0x7F
    · rw [if_pos h1] at h
      split at h <;> simp at h
    rw [if_neg h1] at h
    by_cases h1 : ys.isEmpty = true
    · rw [if_pos h1] at h
      repeat' split at h
      all_goals simp at h
    · rw [if_neg h1] at h; simp at h

/-- Flags and values of the elements. -/
def flags (ps : List PS) (xs : List Val) : List (Bool × Val) := (ps.map PS.endsInString).zip xs

theorem cutRun_items {dec : Dec Val} {e0 : GoErr} (h0 : dec [] = .error (.err e0)) {ps : List PS} {xs : List Val}
    (hl : xs.length = ps.length) {b : Bytes} (h : CutRun dec (flags ps xs) b) :
    CutRes (PS.endsList ps) (decodeItems dec ps.length b) := by
  induction ps generalizing xs b with
  | nil => cases h
  | cons p ps ih =>
    cases xs with
    | nil => cases h
    | cons x xs =>
      simp only [List.length_cons, decodeItems]
      simp only [flags, List.map_cons, List.zip_cons_cons] at h
      generalize he : p.endsInString = t at h
      cases h with
      | fail h => exact fail_cut h
      | short h =>
        rw [dec_congr h]
        cases ps with
        | nil => exact .inr ⟨by simp [PS.endsList, he], _, rfl⟩
        | cons q qs => simp only [List.length_cons, decodeItems]; exact fail_cut (fail_bind h0)
      | step h h' =>
        rw [dec_congr h]
        have := ih (by simpa using hl) h'
        have hne : ps ≠ [] := by rintro rfl; simp [flags] at h'; cases h'
        rcases this with ⟨e, h1⟩ | ⟨ht, v', h1⟩
        · exact fail_cut h1
        · rw [dec_congr h1]
          exact .inr ⟨by simpa [PS.endsList, hne] using ht, _, rfl⟩
where
  fail_bind {α β : Type} {x : Dec α} {g : α → Dec β} {b : Bytes} {e : GoErr}
    (h : x b = .error (.err e)) : (x >>= g) b = .error (.err e) := by simp [h]

theorem sig_cut {dec : Dec Val} {e0 : GoErr} (h0 : dec [] = .error (.err e0)) {sig : UInt8} {ps : List PS}
    {xs : List Val} {v : Val} (hps : ofPSList ps = some xs) (hs : structOf sig xs = some v) {b : Bytes}
    (h : CutRun dec (flags ps xs) b) : CutRes (PS.endsList ps) (decodeSig dec sig b) := by
  have hl := ofPSList_length hps
  unfold structOf at hs
  by_cases hsig : sig = 0x4E
  · subst hsig; rw [if_pos rfl] at hs
    split at hs <;> try (simp only [reduceCtorEq] at hs)
    simp only [Option.map_eq_some_iff] at hs
    obtain ⟨ss, h4, rfl⟩ := hs
    obtain ⟨p1, p2, p3, rfl⟩ := List.length_eq_three.mp hl.symm
    simp only [ofPSList, Option.bind_eq_some_iff, Option.map_eq_some_iff, Option.some.injEq, exists_eq_left', List.cons.injEq] at hps
    obtain ⟨_, h1, _, ⟨_, h2, _, ⟨_, h3, rfl⟩, rfl⟩, rfl, rfl, rfl, _⟩ := hps
    simp only [flags, List.map_cons, List.map_nil, List.zip_cons_cons, List.zip_nil_left, ends_int h1] at h
    exact node_cut h0 h h4
  rw [if_neg hsig] at hs; clear hsig
  by_cases hsig : sig = 0x52
  · subst hsig; rw [if_pos rfl] at hs
    split at hs <;> simp only [Option.some.injEq, reduceCtorEq] at hs
    subst hs
    rcases ps with _ | ⟨p1, _ | ⟨p2, _ | ⟨p3, _ | ⟨p4, _ | ⟨p5, _ | ⟨p6, ps⟩⟩⟩⟩⟩⟩ <;> simp at hl
    simp only [ofPSList, Option.bind_eq_some_iff, Option.map_eq_some_iff, Option.some.injEq, exists_eq_left', List.cons.injEq] at hps
    obtain ⟨_, h1, _, ⟨_, h2, _, ⟨_, h3, _, ⟨_, h4, _, ⟨_, h5, rfl⟩, rfl⟩, rfl⟩, rfl⟩, rfl, rfl, rfl, rfl, rfl, _⟩ := hps
    simp only [flags, List.map_cons, List.map_nil, List.zip_cons_cons, List.zip_nil_left, ends_int h1,
      ends_int h2, ends_int h3] at h
    exact rel_cut h0 h
  rw [if_neg hsig] at hs; clear hsig
  by_cases hsig : sig = 0x72
  · subst hsig; rw [if_pos rfl] at hs
    split at hs <;> simp only [Option.some.injEq, reduceCtorEq] at hs
    subst hs
    obtain ⟨p1, p2, p3, rfl⟩ := List.length_eq_three.mp hl.symm
    simp only [ofPSList, Option.bind_eq_some_iff, Option.map_eq_some_iff, Option.some.injEq, exists_eq_left', List.cons.injEq] at hps
    obtain ⟨_, h1, _, ⟨_, h2, _, ⟨_, h3, rfl⟩, rfl⟩, rfl, rfl, rfl, _⟩ := hps
    simp only [flags, List.map_cons, List.map_nil, List.zip_cons_cons, List.zip_nil_left, ends_int h1] at h
    exact unbound_cut h0 h
  rw [if_neg hsig] at hs; clear hsig
  by_cases hsig : sig = 0x50
  · subst hsig; rw [if_pos rfl] at hs
    split at hs <;> try simp only [reduceCtorEq] at hs
    split at hs <;> try (simp only [reduceCtorEq] at hs)
    rename_i hall
    simp only [Option.map_eq_some_iff] at hs
    obtain ⟨ss, h4, rfl⟩ := hs
    obtain ⟨p1, p2, p3, rfl⟩ := List.length_eq_three.mp hl.symm
    simp only [ofPSList, Option.bind_eq_some_iff, Option.map_eq_some_iff, Option.some.injEq, exists_eq_left', List.cons.injEq] at hps
    obtain ⟨_, h1, _, ⟨_, h2, _, ⟨_, h3, rfl⟩, rfl⟩, rfl, rfl, rfl, _⟩ := hps
    obtain ⟨qs, rfl, h5⟩ := ofPS_list h3
    have he : PS.endsInString (.list qs) = false := ends_ints h5 h4
    simp only [flags, List.map_cons, List.map_nil, List.zip_cons_cons, List.zip_nil_left, he] at h
    have := path_cut h0 h hall.1 hall.2
    have h6 : PS.endsList [p1, p2, .list qs] = false := by simp [PS.endsList, he]
    rw [h6]; exact this
  rw [if_neg hsig] at hs; clear hsig
  have hone : ∀ {g : Val → Dec Val}, ps.length = 1 →
      (∀ w, (∃ e, g w [] = .error (.err e)) ∨ ∃ a, g w [] = .ok (a, [])) →
      CutRes (PS.endsList ps) ((dec >>= g) b) := by
    intro g h1 hg
    obtain ⟨p, rfl⟩ := List.length_eq_one_iff.mp h1
    obtain ⟨x, rfl⟩ := List.length_eq_one_iff.mp (hl.trans h1)
    simp only [flags, List.map_cons, List.map_nil, List.zip_cons_cons, List.zip_nil_left] at h
    generalize he : p.endsInString = t at h
    cases h with
    | fail h => exact fail_cut h
    | short h =>
      rw [dec_congr h]
      rcases hg _ with ⟨e, h⟩ | ⟨a, h⟩
      · exact .inl ⟨e, h⟩
      · exact .inr ⟨by simp [PS.endsList, he], a, h⟩
    | step _ h' => cases h'
  by_cases hsig : sig = 0x71
  · subst hsig; rw [if_pos rfl] at hs
    split at hs <;> simp only [Option.some.injEq, reduceCtorEq] at hs
    refine hone (g := fun x => do let fs ← asList _ x; Dec.pure (.record fs)) (by simpa using hl.symm) fun w => ?_
    rcases asList_cases "Expected: Fields []interface{}, but got %T %+v" w [] with ⟨e, h⟩ | ⟨x, h⟩ <;> simp [h]
  rw [if_neg hsig] at hs; clear hsig
  by_cases hsig : sig = 0x70
  · subst hsig; rw [if_pos rfl] at hs
    split at hs <;> simp only [Option.some.injEq, reduceCtorEq] at hs
    refine hone (g := fun x => do let md ← asMap mdMsg x; Dec.pure (.success md)) (by simpa using hl.symm) fun w => ?_
    rcases asMap_cases mdMsg w [] with ⟨e, h⟩ | ⟨x, h⟩ <;> simp [h]
  rw [if_neg hsig] at hs; clear hsig
  by_cases hsig : sig = 0x7F
  · subst hsig; rw [if_pos rfl] at hs
    split at hs <;> simp only [Option.some.injEq, reduceCtorEq] at hs
    refine hone (g := fun x => do let md ← asMap mdMsg x; Dec.pure (.failure md)) (by simpa using hl.symm) fun w => ?_
    rcases asMap_cases mdMsg w [] with ⟨e, h⟩ | ⟨x, h⟩ <;> simp [h]
  rw [if_neg hsig] at hs; clear hsig
  by_cases hemp : xs.isEmpty
  · have hxs : xs = [] := by simpa using hemp
    subst hxs
    have : ps = [] := by simpa using hl.symm
    subst this
    cases h
  · rw [if_neg hemp] at hs; simp at hs

mutual
/-- A proper prefix of an encoding decodes to an error, or to a value that ends with a shortened string. -/
theorem cut_packs : (p : PS) → (a pre suf : Bytes) → (f : Nat) → (v : Val) → Packs halfRange p a →
    ofPS p = some v → a = pre ++ suf → suf ≠ [] → a.length < f → CutRes p.endsInString (decode f pre)
  | .null, a, pre, suf, f, v, h, hv, hc, hs, hf => by
    simp only [Packs] at h; subst h
    have : pre = [] := by
      cases pre with
      | nil => rfl
      | cons x pre => simp at hc; simp_all
    subst this
    exact .inl ⟨_, decode_nil (by omega)⟩
  | .bool b, a, pre, suf, f, v, h, hv, hc, hs, hf => by
    simp only [Packs] at h; subst h
    have : pre = [] := by
      cases pre with
      | nil => rfl
      | cons x pre => simp at hc; simp_all
    subst this
    exact .inl ⟨_, decode_nil (by omega)⟩
  | .int n, a, pre, suf, f, v, h, hv, hc, hs, hf => by
    simp only [Packs] at h
    obtain ⟨f, rfl⟩ : ∃ g, f = g + 1 := ⟨f - 1, by omega⟩
    cases pre with
    | nil => exact .inl ⟨_, decode_nil (by omega)⟩
    | cons x pre =>
      have hpos := List.length_pos_iff.mpr hs
      rw [decode_cons]
      left
      rcases h with ⟨h1, h2, h⟩ | ⟨r, rfl, h⟩ | ⟨r, rfl, h⟩ | ⟨r, rfl, h⟩ | ⟨r, rfl, h⟩
      · have := h.1; rw [hc] at this; simp only [List.cons_append, List.length_cons, List.length_append] at this
        omega
      all_goals
        have hl := h.1
        simp only [List.cons_append, List.cons.injEq] at hc
        obtain ⟨rfl, rfl⟩ := hc
        simp only [List.length_append] at hl
        have hlt := Nat.lt_of_lt_of_eq (Nat.lt_add_of_pos_right (n := pre.length) hpos) hl
        obtain ⟨e, he⟩ := readInt_short hlt
        exact ⟨e, by simp [decodeMarker, NilMarker, TrueMarker, FalseMarker, Int8Marker, Int16Marker,
          Int32Marker, Int64Marker, wrapSigned, he]⟩
  | .float d, a, pre, suf, f, v, h, hv, hc, hs, hf => by
    simp only [Packs] at h
    obtain ⟨f, rfl⟩ : ∃ g, f = g + 1 := ⟨f - 1, by omega⟩
    obtain ⟨r, rfl, h⟩ := h
    cases pre with
    | nil => exact .inl ⟨_, decode_nil (by omega)⟩
    | cons x pre =>
      have hpos := List.length_pos_iff.mpr hs
      rw [decode_cons]
      left
      have hl := h.1
      simp only [List.cons_append, List.cons.injEq] at hc
      obtain ⟨rfl, rfl⟩ := hc
      simp only [List.length_append] at hl
      obtain ⟨e, he⟩ := readRaw_short (w := 8) (a := pre) (by omega)
      exact ⟨e, by simp [decodeMarker, NilMarker, TrueMarker, FalseMarker, Int8Marker, Int16Marker,
        Int32Marker, Int64Marker, FloatMarker, wrapSigned, he]⟩
  | .str s, a, pre, suf, f, v, h, hv, hc, hs, hf => by
    simp only [Packs] at h
    obtain ⟨hd, h1, rfl⟩ := h
    rcases cut_append hc hs with ⟨pre', rfl, rfl⟩ | ⟨s', hs', rfl⟩
    · have := hdr_cases h1
      obtain ⟨f, rfl⟩ : ∃ g, f = g + 1 := ⟨f - 1, by omega⟩
      rw [decode_hdr h1]
      refine .inr ⟨?_, .str pre', ?_⟩
      · simp [PS.endsInString, hs]
      · simp only [decBody, next]
        rw [if_neg (by omega)]
        have : pre'.length ≤ (((pre' ++ suf).length : Nat) : Int).toNat := by rw [Int.toNat_natCast]; simp
        rw [List.take_of_length_le this, List.drop_eq_nil_of_le this]
    · obtain ⟨e, he⟩ := hdr_cut h1 rfl hs' (Nat.zero_lt_of_lt hf)
      exact .inl ⟨e, he⟩
  | .list ps, a, pre, suf, f, v, h, hv, hc, hs, hf => by
    simp only [Packs] at h
    simp only [ofPS, Option.map_eq_some_iff] at hv
    obtain ⟨xs, hxs, rfl⟩ := hv
    obtain ⟨hd, body, h1, h2, rfl⟩ := h
    rcases cut_append hc hs with ⟨pre', rfl, rfl⟩ | ⟨s', hs', rfl⟩
    · have := hdr_cases h1
      obtain ⟨f, rfl⟩ : ∃ g, f = g + 1 := ⟨f - 1, by omega⟩
      rw [decode_hdr h1]
      have hf' : (pre' ++ suf).length < f := by simp only [List.length_append] at *; omega
      have hr := cutRun_items (decode_nil (by omega)) (ofPSList_length hxs)
        (cut_items ps _ pre' suf f xs h2 hxs rfl hs hf')
      have hneg : ¬ ((ps.length : Int) < 0) := by omega
      rcases hr with ⟨e, he⟩ | ⟨ht, v', he⟩
      · exact .inl ⟨e, by simp [decBody, decodeSlice, hneg, he]⟩
      · exact .inr ⟨by simpa [PS.endsInString] using ht, .list v', by simp [decBody, decodeSlice, hneg, he]⟩
    · obtain ⟨e, he⟩ := hdr_cut h1 rfl hs' (Nat.zero_lt_of_lt hf)
      exact .inl ⟨e, he⟩
  | .map ps, a, pre, suf, f, v, h, hv, hc, hs, hf => by
    simp only [Packs] at h
    simp only [ofPS, Option.map_eq_some_iff] at hv
    obtain ⟨xs, hxs, rfl⟩ := hv
    obtain ⟨hd, body, h1, h2, rfl⟩ := h
    rcases cut_append hc hs with ⟨pre', rfl, rfl⟩ | ⟨s', hs', rfl⟩
    · have := hdr_cases h1
      obtain ⟨f, rfl⟩ : ∃ g, f = g + 1 := ⟨f - 1, by omega⟩
      rw [decode_hdr h1]
      have hf' : (pre' ++ suf).length < f := by simp only [List.length_append] at *; omega
      have hr := cut_entries ps _ pre' suf f xs [] h2 hxs rfl hs hf'
      rcases hr with ⟨e, he⟩ | ⟨ht, v', he⟩
      · exact .inl ⟨e, by simp [decBody, decodeMap, he]⟩
      · exact .inr ⟨by simpa [PS.endsInString] using ht, .map v', by simp [decBody, decodeMap, he]⟩
    · obtain ⟨e, he⟩ := hdr_cut h1 rfl hs' (Nat.zero_lt_of_lt hf)
      exact .inl ⟨e, he⟩
  | .struct sig fs, a, pre, suf, f, v, h, hv, hc, hs, hf => by
    simp only [Packs] at h
    simp only [ofPS, Option.bind_eq_some_iff] at hv
    obtain ⟨xs, hxs, hv⟩ := hv
    obtain ⟨hd, body, h1, h2, rfl⟩ := h
    rcases cut_append hc hs with ⟨pre', rfl, hc'⟩ | ⟨s', hs', rfl⟩
    · have := hdr_cases h1
      obtain ⟨f, rfl⟩ : ∃ g, f = g + 1 := ⟨f - 1, by omega⟩
      rw [decode_hdr h1]
      cases pre' with
      | nil => exact .inl ⟨_, by simp [decBody, decodeStruct, readByte]; rfl⟩
      | cons x pre' =>
        simp only [List.cons_append, List.cons.injEq] at hc'
        obtain ⟨rfl, rfl⟩ := hc'
        have hf' : (pre' ++ suf).length < f := by
          simp only [List.length_append, List.length_cons] at *; omega
        have := sig_cut (decode_nil (f := f) (by omega)) hxs hv
          (cut_items fs _ pre' suf f xs h2 hxs rfl hs hf')
        simpa [decBody, decodeStruct, readByte, PS.endsInString] using this
    · obtain ⟨e, he⟩ := hdr_cut h1 rfl hs' (Nat.zero_lt_of_lt hf)
      exact .inl ⟨e, he⟩

theorem cut_items : (ps : List PS) → (a pre suf : Bytes) → (f : Nat) → (xs : List Val) →
    PacksList halfRange ps a → ofPSList ps = some xs → a = pre ++ suf → suf ≠ [] → a.length < f →
    CutRun (decode f) (flags ps xs) pre
  | [], a, pre, suf, f, xs, h, hv, hc, hs, hf => by
    simp only [PacksList] at h; subst h
    simp at hc; exact absurd hc.2 hs
  | p :: ps, a, pre, suf, f, xs, h, hv, hc, hs, hf => by
    simp only [PacksList] at h
    simp only [ofPSList, Option.bind_eq_some_iff, Option.map_eq_some_iff] at hv
    obtain ⟨y, hy, ys, hys, rfl⟩ := hv
    obtain ⟨b, c, h1, h2, rfl⟩ := h
    simp only [List.length_append] at hf
    simp only [flags, List.map_cons, List.zip_cons_cons]
    rcases cut_append hc hs with ⟨pre', rfl, rfl⟩ | ⟨s', hs', rfl⟩
    · exact .step (dec_packs p b pre' f y h1 hy (by omega)) (cut_items ps _ pre' suf f ys h2 hys rfl hs (by omega))
    · rcases cut_packs p _ pre s' f y h1 hy rfl hs' (by omega) with ⟨e, he⟩ | ⟨ht, v', he⟩
      · exact .fail he
      · rw [ht]; exact .short he

theorem cut_entries : (ps : List (Bytes × PS)) → (a pre suf : Bytes) → (f : Nat) → (xs : KVs) → (m : KVs) →
    PacksKVs halfRange ps a → ofPSKVs ps = some xs → a = pre ++ suf → suf ≠ [] → a.length < f →
    CutRes (PS.endsKVs ps) (decodeEntries (decode f) ps.length m pre)
  | [], a, pre, suf, f, xs, m, h, hv, hc, hs, hf => by
    simp only [PacksKVs] at h; subst h
    simp at hc; exact absurd hc.2 hs
  | (k, p) :: ps, a, pre, suf, f, xs, m, h, hv, hc, hs, hf => by
    simp only [PacksKVs] at h
    simp only [ofPSKVs, Option.bind_eq_some_iff, Option.map_eq_some_iff] at hv
    obtain ⟨y, hy, ys, hys, rfl⟩ := hv
    obtain ⟨hd, b, c, h0, h1, h2, rfl⟩ := h
    simp only [List.length_append] at hf
    have hl := hdr_cases h0
    have hn := decode_nil (f := f) (by omega)
    simp only [List.length_cons, decodeEntries]
    simp only [List.append_assoc] at hc
    rcases cut_append hc hs with ⟨pre1, rfl, hc1⟩ | ⟨s', hs', rfl⟩
    · obtain ⟨f, rfl⟩ : ∃ g, f = g + 1 := ⟨f - 1, by omega⟩
      rcases cut_append hc1 hs with ⟨pre2, rfl, hc2⟩ | ⟨s', hs', rfl⟩
      · have hk : decode (f + 1) (hd ++ (k ++ pre2)) = .ok (.str k, pre2) := by
          rw [decode_hdr h0]; exact next_append k _
        rw [dec_congr hk]
        rcases cut_append hc2 hs with ⟨pre3, rfl, hc3⟩ | ⟨s', hs', rfl⟩
        · rw [dec_congr (dec_packs p b pre3 (f + 1) y h1 hy (by omega)),
            dec_congr (show asKey (.str k) pre3 = .ok (k, pre3) from rfl)]
          have hne : ps ≠ [] := by
            rintro rfl; simp only [PacksKVs] at h2; subst h2
            simp at hc3; exact hs hc3.2
          have := cut_entries ps _ pre3 suf (f + 1) ys (mapInsert m k y) h2 hys hc3 hs (by omega)
          simpa [PS.endsKVs, hne] using this
        · rcases cut_packs p _ pre2 s' (f + 1) y h1 hy rfl hs' (by omega) with ⟨e, he⟩ | ⟨ht, v', he⟩
          · exact fail_cut he
          · rw [dec_congr he, dec_congr (show asKey (.str k) [] = .ok (k, []) from rfl)]
            cases ps with
            | nil => exact .inr ⟨by simp [PS.endsKVs, ht], _, rfl⟩
            | cons q qs => simp only [List.length_cons, decodeEntries]; exact fail_cut hn
      · have hk : decode (f + 1) (hd ++ pre1) = .ok (.str pre1, []) := by
          rw [decode_hdr h0]
          simp only [decBody, next]
          rw [if_neg (by omega)]
          have : pre1.length ≤ (((pre1 ++ s').length : Nat) : Int).toNat := by rw [Int.toNat_natCast]; simp
          rw [List.take_of_length_le this, List.drop_eq_nil_of_le this]
        rw [dec_congr hk]
        exact fail_cut hn
    · obtain ⟨e, he⟩ := hdr_cut h0 rfl hs' (by omega : 0 < f)
      exact fail_cut he
end

end Bolt
