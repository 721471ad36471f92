import Verif.Model.Trace
import Verif.Spec.Dump

/-!
# The trace log shows the bytes exchanged (C101)
-/

namespace Bolt.Logging

open Dump

theorem words_cur {x : Str} (hx : ∀ c ∈ x, blank c = false) (cur rest : Str) : wordsFrom cur (x ++ rest) = wordsFrom (cur ++ x) rest := by
  induction x generalizing cur with
  | nil => simp
  | cons c x ih =>
    have h : blank c = false := hx c (by simp)
    simp only [List.cons_append, wordsFrom, h, Bool.false_eq_true, if_false]
    rw [ih (fun d hd => hx d (by simp [hd]))]
    simp

theorem words_blank {sep : Str} (hs : ∀ c ∈ sep, blank c = true) (rest : Str) : wordsFrom [] (sep ++ rest) = wordsFrom [] rest := by
  induction sep with
  | nil => rfl
  | cons c sep ih =>
    have h : blank c = true := hs c (by simp)
    simp only [List.cons_append, wordsFrom, h, if_true]
    exact ih fun d hd => hs d (by simp [hd])

theorem words_word {x sep : Str} (hx : ∀ c ∈ x, blank c = false) (hn : x ≠ []) (hs : ∀ c ∈ sep, blank c = true) (hsn : sep ≠ []) (rest : Str) :
    wordsFrom [] (x ++ (sep ++ rest)) = x :: wordsFrom [] rest := by
  rw [words_cur hx]
  cases sep with
  | nil => exact absurd rfl hsn
  | cons c sep =>
    have h : blank c = true := hs c (by simp)
    simp only [List.nil_append, List.cons_append, wordsFrom, h, if_true, hn, if_false]
    rw [words_blank fun d hd => hs d (by simp [hd])]

theorem hexByte_ok : ∀ b : UInt8, (∀ c ∈ hexByte b, blank c = false) ∧ hexByte b ≠ [] ∧ UInt8.ofNat (value (hexByte b)) = b := by
  have h : ∀ n, n < 256 → (∀ c ∈ hexByte (UInt8.ofNat n), blank c = false) ∧ hexByte (UInt8.ofNat n) ≠ [] ∧ UInt8.ofNat (value (hexByte (UInt8.ofNat n))) = UInt8.ofNat n := by decide +kernel
  intro b
  have := h b.toNat b.toNat_lt
  simpa using this

theorem hexSep_ok (i : Nat) : (∀ c ∈ hexSep i, blank c = true) ∧ hexSep i ≠ [] := by
  unfold hexSep
  split
  · decide
  · split <;> decide

theorem words_loop (b : Bytes) (i : Nat) (rest : Str) : wordsFrom [] (hexLoop i b ++ rest) = b.map hexByte ++ wordsFrom [] rest := by
  induction b generalizing i with
  | nil => rfl
  | cons x b ih =>
    obtain ⟨h1, h2, -⟩ := hexByte_ok x
    obtain ⟨h3, h4⟩ := hexSep_ok i
    simp only [hexLoop, List.append_assoc]
    rw [words_word h1 h2 h3 h4, ih]
    rfl

/-! ## C101 -/

/-- C101: a dump shows the bytes it was made of: read as hexadecimal numbers between white space it gives them back. -/
theorem c101_dump_partial (b : Bytes) : Dump.bytes (sprintByteHex b) = b := by
  unfold Dump.bytes words sprintByteHex
  rw [List.append_assoc, words_blank (sep := [9]) (by decide), words_loop]
  rw [show wordsFrom [] [10] = [] from rfl, List.append_nil, List.map_map]
  induction b with
  | nil => rfl
  | cons x b ih =>
    simp only [List.map_cons, Function.comp] at ih ⊢
    rw [ih, (hexByte_ok x).2.2]

/-- C101 at work: a row of sixteen, and one more. -/
example : sprintByteHex (0 :: List.replicate 16 255) = txt "\t0 ff ff ff  ff ff ff ff  ff ff ff ff  ff ff ff ff\n\n\tff \n" := by decide +kernel

theorem decimal_digit {n : Nat} {c : UInt8} (h : c ∈ decimal n) : 48 ≤ c ∧ c ≤ 57 := by
  obtain ⟨d, hd, rfl⟩ := List.mem_map.mp h
  have := Nat.isDigit_of_mem_toDigits (b := 10) (by omega) (by omega) hd
  simp only [Char.isDigit, Bool.and_eq_true, decide_eq_true_eq] at this
  obtain ⟨h1, h2⟩ := this
  have e1 : 48 ≤ d.toNat := by simpa [Char.le_def, UInt32.le_iff_toNat_le] using h1
  have e2 : d.toNat ≤ 57 := by simpa [Char.le_def, UInt32.le_iff_toNat_le] using h2
  constructor <;> rw [UInt8.le_iff_toNat_le] <;> simp <;> omega

theorem decimal_inj {n m : Nat} (h : decimal n = decimal m) : n = m := by
  unfold decimal at h
  have h' : Nat.toDigits 10 n = Nat.toDigits 10 m := by
    have key : ∀ {a b : List Char}, (∀ c ∈ a, c.toNat < 256) → (∀ c ∈ b, c.toNat < 256) → a.map (fun c => UInt8.ofNat c.toNat) = b.map (fun c => UInt8.ofNat c.toNat) → a = b := by
      intro a
      induction a with
      | nil => intro b _ _ h; cases b with | nil => rfl | cons => cases h
      | cons x a ih =>
        intro b ha hb h
        cases b with
        | nil => cases h
        | cons y b =>
          simp only [List.map_cons, List.cons.injEq] at h
          have hx : x.toNat = y.toNat := by
            have := congrArg UInt8.toNat h.1
            simp only [UInt8.toNat_ofNat'] at this
            rw [Nat.mod_eq_of_lt (ha x (by simp)), Nat.mod_eq_of_lt (hb y (by simp))] at this
            exact this
          rw [ih (fun c hc => ha c (by simp [hc])) (fun c hc => hb c (by simp [hc])) h.2, Char.ext (UInt32.toNat_inj.mp hx)]
    have small : ∀ n, ∀ c ∈ Nat.toDigits 10 n, c.toNat < 256 := by
      intro n c hc
      have := Nat.isDigit_of_mem_toDigits (b := 10) (by omega) (by omega) hc
      simp only [Char.isDigit, Bool.and_eq_true, decide_eq_true_eq] at this
      have e2 : c.toNat ≤ 57 := by simpa [Char.le_def, UInt32.le_iff_toNat_le] using this.2
      omega
    exact key (small n) (small m) h
  have := congrArg (fun l => Nat.ofDigitChars 10 l 0) h'
  simpa [Nat.ofDigitChars_toDigits] using this

/-- Digits, then something that is not a digit. -/
theorem decimal_append_inj {n m : Nat} {c : UInt8} {x y : Str} (hc : c < 48 ∨ 57 < c) (h : decimal n ++ c :: x = decimal m ++ c :: y) : n = m ∧ x = y := by
  have key : ∀ {a b x y : Str}, (∀ d ∈ a, 48 ≤ d ∧ d ≤ 57) → (∀ d ∈ b, 48 ≤ d ∧ d ≤ 57) → a ++ c :: x = b ++ c :: y → a = b ∧ x = y := by
    intro a
    induction a with
    | nil =>
      intro b x y _ hb h
      cases b with
      | nil => simp_all
      | cons d b =>
        simp only [List.nil_append, List.cons_append, List.cons.injEq] at h
        have := hb d (by simp)
        rw [← h.1] at this
        simp only [UInt8.le_iff_toNat_le, UInt8.lt_iff_toNat_lt] at this hc
        omega
    | cons d a ih =>
      intro b x y ha hb h
      cases b with
      | nil =>
        simp only [List.nil_append, List.cons_append, List.cons.injEq] at h
        have := ha d (by simp)
        rw [h.1] at this
        simp only [UInt8.le_iff_toNat_le, UInt8.lt_iff_toNat_lt] at this hc
        omega
      | cons e b =>
        simp only [List.cons_append, List.cons.injEq] at h
        obtain ⟨h1, h2⟩ := ih (fun d hd => ha d (by simp [hd])) (fun d hd => hb d (by simp [hd])) h.2
        exact ⟨by rw [h.1, h1], h2⟩
  obtain ⟨h1, h2⟩ := key (fun _ h => decimal_digit h) (fun _ h => decimal_digit h) h
  exact ⟨decimal_inj h1, h2⟩

theorem dump_inj {a b : Bytes} (h : sprintByteHex a = sprintByteHex b) : a = b := by
  rw [← c101_dump_partial a, h, c101_dump_partial]

/-- C101: the log of a `Read` says how many bytes were read and which: they are the first ones of the dump. Missing: that
nothing else is shown, see `c101_read_false`. -/
theorem c101_read_partial {n m : Nat} {b c : Bytes} (h : readLine n b = readLine m c) : n = m ∧ b = c ∧ b.take n = c.take m := by
  unfold readLine at h
  simp only [List.append_assoc, List.append_cancel_left_eq] at h
  obtain ⟨rfl, h⟩ := decimal_append_inj (c := 32) (by decide) (x := txt "bytes from stream:\n\n" ++ (sprintByteHex b ++ [10])) (y := txt "bytes from stream:\n\n" ++ (sprintByteHex c ++ [10])) h
  simp only [List.append_cancel_left_eq, List.append_cancel_right_eq] at h
  have := dump_inj h
  exact ⟨rfl, this, by rw [this]⟩

/-- C101: the log of a `Write` says which bytes were written, and how many there were to be written. -/
theorem c101_write_partial {n m : Nat} {b c : Bytes} (h : writeLine b n = writeLine c m) : n = m ∧ b.length = c.length ∧ b.take n = c.take m := by
  unfold writeLine at h
  simp only [List.append_assoc, List.append_cancel_left_eq] at h
  obtain ⟨h1, h⟩ := decimal_append_inj (c := 32) (by decide) (x := txt "of " ++ (decimal n ++ (txt " bytes to stream:\n\n" ++ (sprintByteHex (b.take n) ++ [10]))))
    (y := txt "of " ++ (decimal m ++ (txt " bytes to stream:\n\n" ++ (sprintByteHex (c.take m) ++ [10])))) h
  simp only [List.append_cancel_left_eq] at h
  obtain ⟨rfl, h⟩ := decimal_append_inj (c := 32) (by decide) (x := txt "bytes to stream:\n\n" ++ (sprintByteHex (b.take n) ++ [10])) (y := txt "bytes to stream:\n\n" ++ (sprintByteHex (c.take m) ++ [10])) h
  simp only [List.append_cancel_left_eq, List.append_cancel_right_eq] at h
  exact ⟨rfl, h1, dump_inj h⟩

/-- C101 at work. -/
example : writeLine [0xB1, 0x01, 0x80] 3 = txt "Wrote 3 of 3 bytes to stream:\n\n\tb1 1 80 \n\n" := by decide +kernel

/-- C101 is false: a `Read` that got one byte shows the rest of the buffer as well, bytes that nobody sent. -/
theorem c101_read_false : readLine 1 [7, 0, 0, 0] = txt "Read 1 bytes from stream:\n\n\t7 0 0 0  \n\n" ∧ Dump.bytes (sprintByteHex [7, 0, 0, 0]) ≠ [7] := by decide +kernel

/-- C101 is false: a `Write` that wrote 3 of 10 bytes claims to have written 10 of 3. -/
theorem c101_write_false : writeLine [1, 2, 3, 4, 5, 6, 7, 8, 9, 10] 3 = txt "Wrote 10 of 3 bytes to stream:\n\n\t1 2 3 \n\n" := by decide +kernel

end Bolt.Logging
