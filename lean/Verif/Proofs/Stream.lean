import Verif.Proofs.Framing
import Verif.Proofs.Sane

/-! Helper lemmas about reading messages from a fragmented stream. -/

namespace Bolt
open PackStream

/-- No read returns zero bytes without an error. -/
def Source.NonEmpty (r : Source) : Prop := ∀ s ∈ r.segs, s ≠ []

/-- The bytes still to come. -/
def Source.bytes (r : Source) : Bytes := r.segs.flatten

/-- Outcome of reading `n` bytes when the stream holds enough of them. -/
theorem readFull_ok {err : GoErr} : (segs : List Bytes) → (n : Nat) → (acc : Bytes) → n ≤ segs.flatten.length →
    ∃ segs', readFull err segs n acc = .ok (acc ++ segs.flatten.take n) ⟨segs', err⟩ ∧
      segs'.flatten = segs.flatten.drop n ∧ ((∀ s ∈ segs, s ≠ []) → ∀ s ∈ segs', s ≠ [])
  | segs, 0, acc, _ => ⟨segs, by cases segs <;> simp [readFull], by simp, id⟩
  | [], n + 1, acc, h => by simp at h
  | s :: rest, n + 1, acc, h => by
    rw [readFull]
    by_cases hs : s.length ≤ n + 1
    · rw [if_pos hs]
      simp only [List.flatten_cons, List.length_append] at h
      obtain ⟨segs', h1, h2, h3⟩ := readFull_ok rest (n + 1 - s.length) (acc ++ s) (by omega)
      refine ⟨segs', ?_, ?_, fun hne => h3 fun t ht => hne t (by simp [ht])⟩
      · rw [h1, List.flatten_cons, List.take_append, List.take_of_length_le hs, List.append_assoc]
      · rw [h2, List.flatten_cons, List.drop_append, List.drop_eq_nil_of_le hs, List.nil_append]
    · rw [if_neg hs]
      refine ⟨s.drop (n + 1) :: rest, ?_, ?_, ?_⟩
      rotate_left
      · rw [List.flatten_cons, List.flatten_cons, List.drop_append_of_le_length (by omega)]
      · intro hne t ht
        rcases List.mem_cons.mp ht with rfl | ht
        · simp only [ne_eq, List.drop_eq_nil_iff]; omega
        · exact hne t (by simp [ht])
      · rw [List.flatten_cons, List.take_append_of_le_length (by omega)]

theorem readFull_short {err : GoErr} : (segs : List Bytes) → (n : Nat) → (acc : Bytes) → segs.flatten.length < n →
    readFull err segs n acc = .err (readFullErr err (acc ++ segs.flatten)) ⟨[], err⟩
  | segs, 0, acc, h => by omega
  | [], n + 1, acc, h => by simp [readFull]
  | s :: rest, n + 1, acc, h => by
    simp only [List.flatten_cons, List.length_append] at h
    rw [readFull, if_pos (by omega), readFull_short rest _ _ (by omega)]
    simp

theorem readData_ok {err : GoErr} : (segs : List Bytes) → (n : Nat) → (acc : Bytes) → (∀ s ∈ segs, s ≠ []) →
    n ≤ segs.flatten.length →
    ∃ segs', readData err segs n acc = .ok (acc ++ segs.flatten.take n) ⟨segs', err⟩ ∧
      segs'.flatten = segs.flatten.drop n ∧ ∀ s ∈ segs', s ≠ []
  | segs, 0, acc, hne, _ => ⟨segs, by cases segs <;> simp [readData], by simp, hne⟩
  | [], n + 1, acc, _, h => by simp at h
  | s :: rest, n + 1, acc, hne, h => by
    rw [readData, if_neg (hne s (by simp))]
    by_cases hs : s.length ≤ n + 1
    · rw [if_pos hs]
      simp only [List.flatten_cons, List.length_append] at h
      obtain ⟨segs', h1, h2, h3⟩ := readData_ok rest (n + 1 - s.length) (acc ++ s)
        (fun t ht => hne t (by simp [ht])) (by omega)
      refine ⟨segs', ?_, ?_, h3⟩
      · rw [h1, List.flatten_cons, List.take_append, List.take_of_length_le hs, List.append_assoc]
      · rw [h2, List.flatten_cons, List.drop_append, List.drop_eq_nil_of_le hs, List.nil_append]
    · rw [if_neg hs]
      refine ⟨s.drop (n + 1) :: rest, ?_, ?_, ?_⟩
      rotate_left
      · rw [List.flatten_cons, List.flatten_cons, List.drop_append_of_le_length (by omega)]
      · intro t ht
        rcases List.mem_cons.mp ht with rfl | ht
        · simp only [ne_eq, List.drop_eq_nil_iff]; omega
        · exact hne t (by simp [ht])
      · rw [List.flatten_cons, List.take_append_of_le_length (by omega)]

theorem readData_short {err : GoErr} : (segs : List Bytes) → (n : Nat) → (acc : Bytes) → (∀ s ∈ segs, s ≠ []) →
    segs.flatten.length < n →
    readData err segs n acc = .err (.wrap "An error occurred reading from stream" (some err)) ⟨[], err⟩
  | segs, 0, acc, _, h => by omega
  | [], n + 1, acc, _, h => by simp [readData]
  | s :: rest, n + 1, acc, hne, h => by
    simp only [List.flatten_cons, List.length_append] at h
    rw [readData, if_neg (hne s (by simp)), if_pos (by omega),
      readData_short rest _ _ (fun t ht => hne t (by simp [ht])) (by omega)]

/-! ## The bytes alone determine the result -/

/-- Reading one message from a byte string, without fragmentation: the payload and the rest, or the
error. -/
def readFlat (err : GoErr) : Nat → Bytes → Bytes → Except GoErr (Bytes × Bytes)
  | 0, _, _ => .error (.new "unreachable")
  | f + 1, b, out =>
    if b.length < 2 then
      .error (.wrap "Couldn't read expected bytes for message length. Read: %d Expected: 2."
        (some (readFullErr err b)))
    else
      let n := beNat (b.take 2)
      if n = 0 then .ok (out, b.drop 2)
      else if (b.drop 2).length < n then
        .error (.wrap "An error occurred reading message data"
          (some (.wrap "An error occurred reading from stream" (some err))))
      else readFlat err f ((b.drop 2).drop n) (out ++ (b.drop 2).take n)

/-- `ReadRes` and `readFlat` agree. -/
def SameRead (err : GoErr) : ReadRes Bytes → Except GoErr (Bytes × Bytes) → Prop
  | .ok p r, .ok (p', rest) => p = p' ∧ r.err = err ∧ r.bytes = rest ∧ r.NonEmpty
  | .err e r, .error e' => e = e' ∧ r.err = err ∧ r.bytes = []
  | _, _ => False

theorem loop_flat (f : Nat) (r : Source) (out : Bytes) (hne : r.NonEmpty) (hf : r.bytes.length < f) :
    SameRead r.err (readMsgLoop f r out) (readFlat r.err f r.bytes out) := by
  induction f generalizing r out with
  | zero => omega
  | succ f ih =>
    obtain ⟨segs, err⟩ := r
    simp only [Source.NonEmpty] at hne
    show SameRead err _ (readFlat err (f + 1) segs.flatten out)
    simp only [readMsgLoop, readFlat]
    by_cases h2 : segs.flatten.length < 2
    · rw [if_pos h2, readFull_short _ _ _ h2]
      exact ⟨rfl, rfl, rfl⟩
    rw [if_neg h2]
    obtain ⟨segs1, e1, e2, e3⟩ := readFull_ok (err := err) segs 2 [] (by omega)
    rw [e1]
    simp only [List.nil_append]
    by_cases hz : beNat (segs.flatten.take 2) = 0
    · rw [if_pos hz, if_pos hz]
      exact ⟨rfl, rfl, e2, e3 hne⟩
    rw [if_neg hz, if_neg hz, ← e2]
    by_cases hs : segs1.flatten.length < beNat (segs.flatten.take 2)
    · rw [if_pos hs, readData_short _ _ _ (e3 hne) hs]
      exact ⟨rfl, rfl, rfl⟩
    rw [if_neg hs]
    obtain ⟨segs2, f1, f2, f3⟩ := readData_ok (err := err) segs1 _ [] (e3 hne) (Nat.le_of_not_lt hs)
    rw [f1]
    simp only [List.nil_append]
    rw [← f2]
    refine ih ⟨segs2, err⟩ _ f3 ?_
    simp only [Source.bytes] at hf ⊢
    rw [f2, e2]
    simp only [List.length_drop]
    omega

theorem readFlat_fuel {err : GoErr} {f g : Nat} {b out : Bytes} (hf : b.length < f) (hg : b.length < g) :
    readFlat err f b out = readFlat err g b out := by
  induction f generalizing g b out with
  | zero => omega
  | succ f ih =>
    obtain ⟨g, rfl⟩ : ∃ k, g = k + 1 := ⟨g - 1, by omega⟩
    simp only [readFlat]
    split
    · rfl
    · split
      · rfl
      · split
        · rfl
        · apply ih <;> simp only [List.length_drop] <;> omega

/-- One message from a byte string. -/
def readOne (err : GoErr) (b : Bytes) : Except GoErr (Bytes × Bytes) := readFlat err (b.length + 1) b []

theorem readMsg_flat (r : Source) (hne : r.NonEmpty) : SameRead r.err (readMsg r) (readOne r.err r.bytes) :=
  loop_flat _ r [] hne (Nat.lt_succ_self _)

theorem readData_size {err : GoErr} : (segs : List Bytes) → (n : Nat) → (acc a : Bytes) → (r : Source) →
    readData err segs n acc = .ok a r → r.size + n = segs.flatten.length ∧ r.err = err
  | segs, 0, acc, a, r, h => by
    have : ReadRes.ok acc ⟨segs, err⟩ = .ok a r := by rw [← h]; cases segs <;> simp [readData]
    cases this; exact ⟨rfl, rfl⟩
  | [], n + 1, acc, a, r, h => by simp [readData] at h
  | s :: rest, n + 1, acc, a, r, h => by
    rw [readData] at h
    split at h
    · simp at h
    · split at h
      · rename_i hs
        have := readData_size rest _ _ _ _ h
        simp only [List.flatten_cons, List.length_append]
        exact ⟨by omega, this.2⟩
      · rename_i hs
        cases h
        simp only [Source.size, List.flatten_cons, List.length_append, List.length_drop]
        exact ⟨by omega, trivial⟩

/-- Any sufficient fuel gives the same message: `unreachable` is unreachable. -/
theorem readMsg_fuel {r : Source} {f : Nat} (hf : r.size < f) (out : Bytes) :
    readMsgLoop f r out = readMsgLoop (r.size + 1) r out := by
  suffices h : ∀ f g (r : Source) (out : Bytes), r.size < f → r.size < g → readMsgLoop f r out = readMsgLoop g r out from
    h f _ r out hf (Nat.lt_succ_self _)
  clear hf
  intro f
  induction f with
  | zero => intro g r out h; omega
  | succ f ih =>
    intro g r out h1 h2
    obtain ⟨g, rfl⟩ : ∃ k, g = k + 1 := ⟨g - 1, by omega⟩
    simp only [readMsgLoop]
    by_cases hl : r.segs.flatten.length < 2
    · rw [readFull_short _ _ _ hl]
    · obtain ⟨segs1, e1, e2, -⟩ := readFull_ok (err := r.err) r.segs 2 [] (by omega)
      rw [e1]
      simp only
      split
      · rfl
      · split
        · rfl
        · rename_i hz _ _ r2 hd
          have hs := readData_size _ _ _ _ _ hd
          rw [e2, List.length_drop] at hs
          have : r.size = r.segs.flatten.length := rfl
          apply ih <;> omega

/-! ## Framed messages -/

theorem readFlat_framed {err : GoErr} {p w : Bytes} (h : Framed p w) :
    ∀ {f : Nat} {rest out : Bytes}, (w ++ rest).length < f → readFlat err f (w ++ rest) out = .ok (out ++ p, rest) := by
  induction h with
  | done =>
    intro f rest out hf
    obtain ⟨f, rfl⟩ : ∃ k, f = k + 1 := ⟨f - 1, by omega⟩
    simp [readFlat, beNat]
  | @chunk c hdr p wire h1 h2 _ ih =>
    intro f rest out hf
    obtain ⟨f, rfl⟩ : ∃ k, f = k + 1 := ⟨f - 1, by omega⟩
    have e1 : (hdr ++ c ++ wire ++ rest).take 2 = hdr := by
      rw [List.append_assoc, List.append_assoc, List.take_append_of_le_length (by rw [h2.1]; exact Nat.le_refl _),
        List.take_of_length_le (by rw [h2.1]; exact Nat.le_refl _)]
    have e2 : (hdr ++ c ++ wire ++ rest).drop 2 = c ++ (wire ++ rest) := by
      rw [List.append_assoc, List.append_assoc, List.drop_append_of_le_length (by rw [h2.1]; exact Nat.le_refl _),
        List.drop_eq_nil_of_le (by rw [h2.1]; exact Nat.le_refl _), List.nil_append]
    have e3 : beNat hdr = c.length := by rw [beNat_eq, h2.2]
    have hpos := List.length_pos_iff.mpr h1
    simp only [List.length_append, h2.1] at hf
    simp only [readFlat]
    rw [if_neg (by simp only [List.length_append, h2.1]; omega), e1, e2, e3, if_neg (by omega),
      if_neg (by simp only [List.length_append]; omega)]
    rw [List.drop_left, List.take_left, ih (by simp only [List.length_append]; omega), List.append_assoc]

theorem readFlat_cut {err : GoErr} {p w : Bytes} (h : Framed p w) :
    ∀ {f : Nat} {pre suf out : Bytes}, w = pre ++ suf → suf ≠ [] → pre.length < f →
      ∃ e, readFlat err f pre out = .error e := by
  induction h with
  | done =>
    intro f pre suf out hw hs hf
    obtain ⟨f, rfl⟩ : ∃ k, f = k + 1 := ⟨f - 1, by omega⟩
    have : pre.length < 2 := by
      have := congrArg List.length hw
      have := List.length_pos_iff.mpr hs
      simp at *; omega
    simp only [readFlat]
    rw [if_pos this]
    exact ⟨_, rfl⟩
  | @chunk c hdr p wire h1 h2 _ ih =>
    intro f pre suf out hw hs hf
    obtain ⟨f, rfl⟩ : ∃ k, f = k + 1 := ⟨f - 1, by omega⟩
    have hpos := List.length_pos_iff.mpr h1
    simp only [readFlat]
    by_cases hp : pre.length < 2
    · rw [if_pos hp]; exact ⟨_, rfl⟩
    rw [if_neg hp]
    have hw' : hdr ++ (c ++ wire) = pre ++ suf := by rw [← hw, List.append_assoc]
    rcases List.append_eq_append_iff.mp hw' with ⟨pre1, rfl, hw1⟩ | ⟨x, hx, hw1⟩
    · rw [List.take_append_of_le_length (by rw [h2.1]; exact Nat.le_refl _),
        List.take_of_length_le (by rw [h2.1]; exact Nat.le_refl _),
        List.drop_append_of_le_length (by rw [h2.1]; exact Nat.le_refl _),
        List.drop_eq_nil_of_le (by rw [h2.1]; exact Nat.le_refl _), List.nil_append, beNat_eq, h2.2, if_neg (by omega)]
      by_cases hl : pre1.length < c.length
      · rw [if_pos hl]; exact ⟨_, rfl⟩
      rw [if_neg hl]
      rcases List.append_eq_append_iff.mp hw1 with ⟨pre2, rfl, hw2⟩ | ⟨x, hx, hw2⟩
      · rw [List.drop_left]
        refine ih hw2 hs ?_
        simp only [List.length_append, h2.1] at hf; omega
      · have : x = [] := by
          rw [hx] at hl; simp at hl
          cases x with
          | nil => rfl
          | cons y x => simp at hl
        subst this
        simp only [List.append_nil, List.nil_append] at hx hw2
        subst hx
        rw [List.drop_length]
        refine ih (pre := []) (suf := wire) rfl (hw2 ▸ hs) ?_
        simp only [List.length_append, h2.1] at hf; simp; omega
    · have hxl : x = [] := by
        have := h2.1
        rw [hx] at this; simp only [List.length_append] at this
        exact List.length_eq_zero_iff.mp (by omega)
      subst hxl
      simp only [List.append_nil, List.nil_append] at hx hw1
      subst hx
      rw [List.take_of_length_le (by rw [h2.1]; exact Nat.le_refl _), List.drop_eq_nil_of_le (by rw [h2.1]; exact Nat.le_refl _),
        beNat_eq, h2.2, if_neg (by omega), if_pos (by simp; omega)]
      exact ⟨_, rfl⟩

end Bolt
