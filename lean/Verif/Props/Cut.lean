import Verif.Props.Decoding
import Verif.Model.Errors

/-!
# C90: where a stream ended
-/

namespace Bolt
open PackStream

/-- Complete chunks, without an end marker. -/
inductive Chunks : Bytes → Prop
  | nil : Chunks []
  | chunk {c hdr w : Bytes} : c ≠ [] → Unsigned 2 c.length hdr → Chunks w → Chunks (hdr ++ c ++ w)

/-- Nothing, one byte of a length, or a length and fewer bytes than it says. -/
def Piece (t : Bytes) : Prop :=
  t.length < 2 ∨ ∃ hdr d n, t = hdr ++ d ∧ Unsigned 2 n hdr ∧ d.length < n

theorem readFlat_where {p w : Bytes} (h : Framed p w) :
    ∀ {f : Nat} {pre suf out : Bytes}, w = pre ++ suf → suf ≠ [] → pre.length < f →
      ∃ whole tail e, pre = whole ++ tail ∧ Chunks whole ∧ Piece tail ∧ readFlat .eof f pre out = .error e ∧
        e.innerMost = if tail.length = 1 then .unexpectedEOF else .eof := by
  have short : ∀ {f : Nat} {pre out : Bytes}, pre.length < 2 → ∃ whole tail e, pre = whole ++ tail ∧ Chunks whole ∧ Piece tail ∧
      readFlat .eof (f + 1) pre out = .error e ∧ e.innerMost = if tail.length = 1 then .unexpectedEOF else .eof := by
    intro f pre out h
    refine ⟨[], pre, _, rfl, .nil, .inl h, by simp only [readFlat]; rw [if_pos h], ?_⟩
    match pre, h with
    | [], _ => rfl
    | [x], _ => rfl
  induction h with
  | done =>
    intro f pre suf out hw hs hf
    obtain ⟨f, rfl⟩ : ∃ k, f = k + 1 := ⟨f - 1, by omega⟩
    refine short ?_
    have := congrArg List.length hw
    have := List.length_pos_iff.mpr hs
    simp at *; omega
  | @chunk c hdr p wire h1 h2 _ ih =>
    intro f pre suf out hw hs hf
    obtain ⟨f, rfl⟩ : ∃ k, f = k + 1 := ⟨f - 1, by omega⟩
    have hpos := List.length_pos_iff.mpr h1
    by_cases hp : pre.length < 2
    · exact short hp
    have hw' : hdr ++ (c ++ wire) = pre ++ suf := by rw [← hw, List.append_assoc]
    obtain ⟨pre1, rfl, hw1⟩ : ∃ pre1, pre = hdr ++ pre1 ∧ c ++ wire = pre1 ++ suf := by
      rcases List.append_eq_append_iff.mp hw' with h | ⟨x, hx, hw1⟩
      · exact h
      · have : x = [] := by
          have := congrArg List.length hx
          rw [h2.1, List.length_append] at this
          exact List.eq_nil_of_length_eq_zero (by omega)
        subst this
        exact ⟨[], by simpa using hx.symm, by simpa using hw1.symm⟩
    simp only [readFlat]
    rw [if_neg hp, List.take_append_of_le_length (by rw [h2.1]; exact Nat.le_refl _),
      List.take_of_length_le (by rw [h2.1]; exact Nat.le_refl _),
      List.drop_append_of_le_length (by rw [h2.1]; exact Nat.le_refl _),
      List.drop_eq_nil_of_le (by rw [h2.1]; exact Nat.le_refl _), List.nil_append, beNat_eq, h2.2, if_neg (by omega)]
    by_cases hl : pre1.length < c.length
    · rw [if_pos hl]
      refine ⟨[], hdr ++ pre1, _, rfl, .nil, .inr ⟨hdr, pre1, _, rfl, h2, hl⟩, rfl, ?_⟩
      rw [if_neg (by omega)]
      rfl
    rw [if_neg hl]
    obtain ⟨pre2, rfl, hw2⟩ : ∃ pre2, pre1 = c ++ pre2 ∧ wire = pre2 ++ suf := by
      rcases List.append_eq_append_iff.mp hw1 with h | ⟨x, hx, hw1⟩
      · exact h
      · have : x = [] := by
          have := congrArg List.length hx
          rw [List.length_append] at this
          exact List.eq_nil_of_length_eq_zero (by omega)
        subst this
        exact ⟨[], by simpa using hx.symm, by simpa using hw1.symm⟩
    rw [List.drop_left]
    obtain ⟨whole, tail, e, e1, e2, e3, e4, e5⟩ := ih (f := f) (out := out ++ (c ++ pre2).take c.length) hw2 hs
      (by simp only [List.length_append, h2.1] at hf; omega)
    exact ⟨hdr ++ c ++ whole, tail, e, by rw [e1]; simp, .chunk h1 h2 e2, e3, e4, e5⟩

/-- The error of `Decode` on a stream whose reading gives `io.EOF` at the end of the bytes. -/
theorem decodeFrom_eof {r : Source} {pre : Bytes} {e : GoErr} (hr : r.NonEmpty) (he : r.err = .eof) (hb : r.bytes = pre)
    (h : readFlat .eof (pre.length + 1) pre [] = .error e) : (decodeFrom r).1 = .error (.err e) := by
  have h' : readOne r.err r.bytes = .error e := by rw [he, hb]; exact h
  rcases decodeFrom_flat r hr with ⟨e', a1, a2, _⟩ | ⟨p', rest', a1, _⟩
  · rw [h'] at a1; cases a1; exact a2
  · rw [h'] at a1; cases a1

/-- C90: when the stream ends between messages, the innermost error is io.EOF. -/
theorem c90_between {r : Source} (he : r.err = .eof) (hr : r.NonEmpty) (hb : r.bytes = []) :
    ∃ e, (decodeFrom r).1 = .error (.err e) ∧ e.innerMost = .eof :=
  ⟨_, decodeFrom_eof hr he hb rfl, rfl⟩

/-- C90: when it ends within a message, after some complete chunks and a piece of another (possibly empty), the innermost
error is io.ErrUnexpectedEOF if the piece is one byte, half of a length; otherwise it is io.EOF as well. Missing: telling
the latter from the end between messages (see `c90_false`). -/
theorem c90_within_partial {p w pre suf : Bytes} (hf : Framed p w) (hw : w = pre ++ suf) (hs : suf ≠ [])
    {r : Source} (he : r.err = .eof) (hr : r.NonEmpty) (hb : r.bytes = pre) :
    ∃ whole tail e, pre = whole ++ tail ∧ Chunks whole ∧ Piece tail ∧ (decodeFrom r).1 = .error (.err e) ∧
      e.innerMost = if tail.length = 1 then .unexpectedEOF else .eof := by
  obtain ⟨whole, tail, e, e1, e2, e3, e4, e5⟩ := readFlat_where hf (f := pre.length + 1) (out := []) hw hs (by omega)
  exact ⟨whole, tail, e, e1, e2, e3, decodeFrom_eof hr he hb e4, e5⟩

/-- C90 for Unmarshal: of a message that is cut off it reports the same. -/
theorem c90_unmarshal_partial {p w pre suf : Bytes} (hf : Framed p w) (hw : w = pre ++ suf) (hs : suf ≠ []) :
    ∃ whole tail e, pre = whole ++ tail ∧ Chunks whole ∧ Piece tail ∧ unmarshal pre = .error (.err e) ∧
      e.innerMost = if tail.length = 1 then .unexpectedEOF else .eof := by
  refine c90_within_partial hf hw hs (r := ⟨if pre = [] then [] else [pre], .eof⟩) rfl ?_ ?_
  · unfold Source.NonEmpty
    split
    · intro s h; cases h
    · next hn => intro s h; rw [List.mem_singleton] at h; exact h ▸ hn
  · unfold Source.bytes
    split
    · next h => rw [h]; rfl
    · simp

/-- C90 is false: a message cut after its first chunk, or in its data, is reported like the end of the stream. -/
theorem c90_false : ¬ ∀ (p w pre suf : Bytes) (r : Source), Framed p w → w = pre ++ suf → suf ≠ [] → pre ≠ [] →
    r.err = .eof → r.NonEmpty → r.bytes = pre → ∀ e, (decodeFrom r).1 = .error (.err e) → e.innerMost ≠ .eof := by
  intro h
  have hf : Framed [0xC0] ([0x00, 0x01] ++ [0xC0] ++ [0x00, 0x00]) := Framed.chunk (c := [0xC0]) (by simp) (by unfold Unsigned; decide) Framed.done
  exact h _ _ [0x00, 0x01, 0xC0] [0x00, 0x00] ⟨[[0x00, 0x01, 0xC0]], .eof⟩ hf rfl (by simp) (by simp) rfl (by simp [Source.NonEmpty]) rfl _ rfl rfl

/-- Cut in the length of the second chunk. -/
example : ∃ whole tail e, [0x00, 0x01, 0xC0, 0x00] = whole ++ tail ∧ Chunks whole ∧ Piece tail ∧
    (decodeFrom ⟨[[0x00, 0x01, 0xC0, 0x00]], .eof⟩).1 = .error (.err e) ∧
      e.innerMost = if tail.length = 1 then .unexpectedEOF else .eof :=
  c90_within_partial (p := [0xC0]) (w := [0x00, 0x01] ++ [0xC0] ++ [0x00, 0x00]) (suf := [0x00])
    (Framed.chunk (c := [0xC0]) (by simp) (by unfold Unsigned; decide) Framed.done) rfl (by simp) rfl (by simp [Source.NonEmpty]) rfl

end Bolt
