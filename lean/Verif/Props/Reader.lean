import Verif.Model.Reader
import Verif.Model.Errors
import Verif.Proofs.Stream

/-!
# C85: any io.Reader
-/

namespace Bolt

/-- What the contract of io.Reader allows: every read returns bytes, and an error only together with the last of them; the
calls after it return the same error. -/
def Reader.Lasting (r : Reader) : Prop :=
  (∀ s ∈ r.steps, s.1 ≠ []) ∧ ∀ pre s post, r.steps = pre ++ s :: post → s.2 = none ∨ (post = [] ∧ s.2 = some r.fin)

/-- The reader that returns the same bytes and keeps the error for the next call. -/
def Reader.plain (r : Reader) : Source := ⟨r.steps.map Prod.fst, r.fin⟩

namespace Readers

/-- `Lasting` for the steps still to come. -/
def Lasts (fin : GoErr) : List (Bytes × Option GoErr) → Prop
  | [] => True
  | (s, e) :: rest => s ≠ [] ∧ (e = none ∨ (rest = [] ∧ e = some fin)) ∧ Lasts fin rest

theorem lasts_of (fin : GoErr) (steps : List (Bytes × Option GoErr)) (h : (⟨steps, fin⟩ : Reader).Lasting) : Lasts fin steps := by
  induction steps with
  | nil => trivial
  | cons a rest ih =>
    obtain ⟨s, e⟩ := a
    refine ⟨h.1 (s, e) List.mem_cons_self, ?_, ih ⟨fun x hx => h.1 x (List.mem_cons_of_mem _ hx), ?_⟩⟩
    · have := h.2 [] (s, e) rest rfl
      simpa using this
    · intro pre x post hp
      exact h.2 ((s, e) :: pre) x post (by simp only at hp ⊢; rw [hp]; rfl)

theorem lasts_drop {fin : GoErr} {s : Bytes} {e : Option GoErr} {rest : List (Bytes × Option GoErr)} {n : Nat}
    (h : Lasts fin ((s, e) :: rest)) (hn : n < s.length) : Lasts fin ((s.drop n, e) :: rest) :=
  ⟨by intro h'; have := congrArg List.length h'; simp at this; omega, h.2⟩

/-- Same bytes, same steps to come; or an error from both, with the same cause. -/
def Same (fin : GoErr) : ReaderRes Bytes → ReadRes Bytes → Prop
  | .ok a steps, .ok a' r => a = a' ∧ r = ⟨steps.map Prod.fst, fin⟩ ∧ Lasts fin steps
  | .err e _, .err e' _ => e = e'
  | _, _ => False

theorem same_full (fin : GoErr) : (steps : List (Bytes × Option GoErr)) → (n : Nat) → (acc : Bytes) → Lasts fin steps →
    Same fin (readFullR fin steps n acc) (readFull fin (steps.map Prod.fst) n acc)
  | steps, 0, acc, h => by
    have h1 : readFullR fin steps 0 acc = .ok acc steps := by cases steps <;> rfl
    have h2 : readFull fin (steps.map Prod.fst) 0 acc = .ok acc ⟨steps.map Prod.fst, fin⟩ := by cases steps <;> rfl
    rw [h1, h2]
    exact ⟨rfl, rfl, h⟩
  | [], n + 1, acc, h => rfl
  | (s, e) :: rest, n + 1, acc, h => by
    simp only [readFullR, readFull, List.map_cons]
    by_cases hl : s.length ≤ n + 1
    · rw [if_pos hl, if_pos hl]
      rcases h.2.1 with rfl | ⟨rfl, rfl⟩
      · exact same_full fin rest _ _ h.2.2
      · simp only
        by_cases hs : s.length = n + 1
        · rw [if_pos hs, hs, Nat.sub_self]
          exact ⟨rfl, rfl, trivial⟩
        · rw [if_neg hs]
          obtain ⟨m, hm⟩ : ∃ m, n + 1 - s.length = m + 1 := ⟨n - s.length, by omega⟩
          rw [hm]
          rfl
    · rw [if_neg hl, if_neg hl]
      exact ⟨rfl, rfl, lasts_drop h (by omega)⟩

/-- Same bytes; or an error from both, with the same cause; or the error came with the last bytes. -/
def SameOr (fin : GoErr) : ReaderRes Bytes → ReadRes Bytes → Prop
  | .err e _, .ok _ r => e = .wrap "An error occurred reading from stream" (some fin) ∧ r = ⟨[], fin⟩
  | x, y => Same fin x y

theorem same_data (fin : GoErr) : (steps : List (Bytes × Option GoErr)) → (n : Nat) → (acc : Bytes) → Lasts fin steps →
    SameOr fin (readDataR fin steps n acc) (readData fin (steps.map Prod.fst) n acc)
  | steps, 0, acc, h => by
    have h1 : readDataR fin steps 0 acc = .ok acc steps := by cases steps <;> rfl
    have h2 : readData fin (steps.map Prod.fst) 0 acc = .ok acc ⟨steps.map Prod.fst, fin⟩ := by cases steps <;> rfl
    rw [h1, h2]
    exact ⟨rfl, rfl, h⟩
  | [], n + 1, acc, h => rfl
  | (s, e) :: rest, n + 1, acc, h => by
    simp only [readDataR, readData, List.map_cons]
    simp only [if_neg h.1]
    by_cases hl : s.length ≤ n + 1
    · rw [if_pos hl, if_pos hl]
      rcases h.2.1 with rfl | ⟨rfl, rfl⟩
      · simp only
        exact same_data fin rest _ _ h.2.2
      · simp only [List.map_nil]
        by_cases hs : s.length = n + 1
        · rw [hs, Nat.sub_self]
          exact ⟨rfl, rfl⟩
        · obtain ⟨m, hm⟩ : ∃ m, n + 1 - s.length = m + 1 := ⟨n - s.length, by omega⟩
          rw [hm]
          rfl
    · rw [if_neg hl, if_neg hl]
      exact ⟨rfl, rfl, lasts_drop h (by omega)⟩

theorem readFull_size {err : GoErr} (segs : List Bytes) (n : Nat) (a : Bytes) (r : Source)
    (h : readFull err segs n [] = .ok a r) : r.size + n = segs.flatten.length := by
  by_cases hn : n ≤ segs.flatten.length
  · obtain ⟨segs', h1, h2, -⟩ := readFull_ok (err := err) segs n [] hn
    rw [h1] at h
    cases h
    unfold Source.size
    simp only [h2, List.length_drop]
    omega
  · rw [readFull_short _ _ _ (by omega)] at h
    cases h

theorem same_msg (fin : GoErr) (f : Nat) : (steps : List (Bytes × Option GoErr)) → (out : Bytes) → Lasts fin steps →
    (steps.map Prod.fst).flatten.length < f →
    (∃ p s r, readMsgR fin f steps out = .ok p s ∧ readMsgLoop f ⟨steps.map Prod.fst, fin⟩ out = .ok p r) ∨
    (∃ e e' s r, readMsgR fin f steps out = .err e s ∧ readMsgLoop f ⟨steps.map Prod.fst, fin⟩ out = .err e' r ∧
      (e = e' ∨ e.innerMost = fin.innerMost ∧ e'.innerMost = fin.innerMost)) := by
  induction f with
  | zero => intro steps out _ hf; omega
  | succ f ih =>
    intro steps out h hf
    have h1 := same_full fin steps 2 [] h
    unfold readMsgR readMsgLoop
    simp only
    cases h2 : readFullR fin steps 2 [] with
    | err e s =>
      cases h3 : readFull fin (steps.map Prod.fst) 2 [] with
      | err e' r =>
        rw [h2, h3] at h1
        obtain rfl : e = e' := h1
        exact .inr ⟨_, _, _, _, rfl, rfl, .inl rfl⟩
      | ok a r => rw [h2, h3] at h1; exact h1.elim
    | ok a s =>
      cases h3 : readFull fin (steps.map Prod.fst) 2 [] with
      | err e' r => rw [h2, h3] at h1; exact h1.elim
      | ok a' r =>
        rw [h2, h3] at h1
        obtain ⟨rfl, rfl, hs⟩ := h1
        simp only
        by_cases hz : beNat a = 0
        · rw [if_pos hz, if_pos hz]; exact .inl ⟨_, _, _, rfl, rfl⟩
        · rw [if_neg hz, if_neg hz]
          have h4 := same_data fin s (beNat a) [] hs
          cases h5 : readDataR fin s (beNat a) [] with
          | err e s' =>
            cases h6 : readData fin (s.map Prod.fst) (beNat a) [] with
            | err e' r =>
              rw [h5, h6] at h4
              obtain rfl : e = e' := h4
              exact .inr ⟨_, _, _, _, rfl, rfl, .inl rfl⟩
            | ok d r =>
              rw [h5, h6] at h4
              obtain ⟨rfl, rfl⟩ := h4
              have g1 := readFull_size _ _ _ _ h3
              obtain ⟨g2, _⟩ := readData_size _ _ _ _ _ h6
              unfold Source.size at g1 g2
              obtain ⟨k, rfl⟩ : ∃ k, f = k + 1 := ⟨f - 1, by simp only at g1 g2; omega⟩
              refine .inr ⟨_, _, _, _, rfl, rfl, .inr ⟨rfl, ?_⟩⟩
              cases fin <;> rfl
          | ok d s' =>
            cases h6 : readData fin (s.map Prod.fst) (beNat a) [] with
            | err e' r => rw [h5, h6] at h4; exact h4.elim
            | ok d' r =>
              rw [h5, h6] at h4
              obtain ⟨rfl, rfl, hs'⟩ := h4
              simp only
              have g1 := readFull_size _ _ _ _ h3
              obtain ⟨g2, _⟩ := readData_size _ _ _ _ _ h6
              unfold Source.size at g1 g2
              exact ih s' (out ++ d) hs' (by simp only at g1 g2; omega)

end Readers

/-- C85: over a reader whose reads all return bytes, the last of them possibly together with the final error, Decode does
what it does over a reader that returns the error separately: the same value or panic, or an error with the same
innermost error. Missing: readers that return no bytes and no error. -/
theorem c85_together_partial (r : Reader) (h : r.Lasting) :
    decodeReader r = (decodeFrom r.plain).1 ∨
    ∃ e e', decodeReader r = .error (.err e) ∧ (decodeFrom r.plain).1 = .error (.err e') ∧
      e.innerMost = r.fin.innerMost ∧ e'.innerMost = r.fin.innerMost := by
  unfold decodeReader decodeFrom readMsg Reader.plain Source.size
  simp only
  rcases Readers.same_msg r.fin _ r.steps [] (Readers.lasts_of _ _ h) (Nat.lt_succ_self _) with
    ⟨p, s, r', h1, h2⟩ | ⟨e, e', s, r', h1, h2, h3⟩
  · rw [h1, h2]
    left
    simp only
    cases decodePayload p with
    | ok a => rfl
    | error f => rfl
  · rw [h1, h2]
    rcases h3 with rfl | ⟨h3, h4⟩
    · exact .inl rfl
    · exact .inr ⟨e, e', rfl, rfl, h3, h4⟩

set_option maxRecDepth 100000 in
/-- A message whose end marker comes together with io.EOF is read. -/
example : decodeReader ⟨[([0, 1, 5], none), ([0, 0], some .eof)], .eof⟩ = .ok (.int .int64 5) ∧
    (⟨[([0, 1, 5], none), ([0, 0], some .eof)], .eof⟩ : Reader).Lasting := by
  refine ⟨rfl, by simp, ?_⟩
  intro pre s post h
  match pre, h with
  | [], h => cases h; exact .inl rfl
  | [_], h => cases h; exact .inr ⟨rfl, rfl⟩
  | _ :: _ :: [], h => cases h
  | _ :: _ :: _ :: _, h => cases h

set_option maxRecDepth 100000 in
/-- An error that comes with payload bytes is returned, as it is when it comes after them. -/
example : decodeReader ⟨[([0, 1, 5], some .eof)], .eof⟩ =
      .error (.err (.wrap "An error occurred reading message data" (some (.wrap "An error occurred reading from stream" (some .eof))))) ∧
    (decodeFrom ⟨[[0, 1, 5]], .eof⟩).1 =
      .error (.err (.wrap "Couldn't read expected bytes for message length. Read: %d Expected: 2." (some .eof))) :=
  ⟨rfl, rfl⟩

set_option maxRecDepth 100000 in
/-- C85 fails as stated: a read that returns no bytes and no error, which io.Reader permits and asks callers to treat as
nothing having happened, makes Decode fail when it falls inside a message, although all its bytes arrive. -/
theorem c85_false : ∃ r : Reader, (∀ s ∈ r.steps, s.2 = none) ∧
    (decodeFrom ⟨[(r.steps.map Prod.fst).flatten], r.fin⟩).1 = .ok (.int .int64 5) ∧
    ∃ e, decodeReader r = .error (.err e) :=
  ⟨⟨[([0, 1], none), ([], none), ([5], none), ([0, 0], none)], .eof⟩, by simp, rfl, _, rfl⟩

end Bolt
