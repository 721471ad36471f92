import Verif.Model.Log

/-! C62: the logging level gates output. -/

namespace Bolt.Logging

/-- `s` spells the lower-case ASCII word `w` in some mixture of upper and lower case, U+0130 counting as an upper-case i
and U+212A as an upper-case k, as Unicode has it. -/
inductive Spells : Str → Str → Prop
  | nil : Spells [] []
  | lower {w s : Str} (c : UInt8) : Spells w s → Spells (c :: w) (c :: s)
  | upper {w s : Str} (c : UInt8) : 65 ≤ c → c ≤ 90 → Spells w s → Spells ((c + 32) :: w) (c :: s)
  | dotted {w s : Str} : Spells w s → Spells (105 :: w) (0xC4 :: 0xB0 :: s)
  | kelvin {w s : Str} : Spells w s → Spells (107 :: w) (0xE2 :: 0x84 :: 0xAA :: s)

/-- The word consists of lower-case ASCII letters. -/
def IsWord (w : Str) : Prop := ∀ c ∈ w, 97 ≤ c ∧ c ≤ 122

/-- Severities: the smaller, the more severe; 0 is beyond all levels. -/
def severity : Fn → Nat
  | .fatal | .fatalf | .panic | .panicf => 0
  | .error | .errorf => 1
  | .info | .infof => 2
  | .trace | .tracef => 3

/-- The bytes of a word of the documentation of SetLevel (log.go:35). -/
def word (w : String) : Str := w.toList.map fun c => UInt8.ofNat c.toNat

/-- The number of the level a string names. -/
def Names (s : Str) (n : Nat) : Prop :=
  (Spells (word "trace") s ∧ n = 3) ∨ (Spells (word "info") s ∧ n = 2) ∨ (Spells (word "error") s ∧ n = 1) ∨
    (¬ Spells (word "trace") s ∧ ¬ Spells (word "info") s ∧ ¬ Spells (word "error") s ∧ n = 0)

/-- The logger of a function. -/
def loggerOf : Fn → Logger
  | .fatal | .fatalf | .panic | .panicf => .std
  | .error | .errorf => .error
  | .info | .infof => .info
  | .trace | .tracef => .trace

/-- What a sequence of calls should print when `n` is the number of the level set last. -/
inductive Prints : Nat → List Op → List (Logger × Str) → Prop
  | nil {n : Nat} : Prints n [] []
  | set {n m : Nat} {s : Str} {ops : List Op} {out : List (Logger × Str)} : Names s m → Prints m ops out →
    Prints n (.setLevel s :: ops) out
  | print {n : Nat} {f : Fn} {msg : Str} {ops : List Op} {out : List (Logger × Str)} : 0 < severity f →
    severity f ≤ n → Prints n ops out → Prints n (.print f msg :: ops) ((loggerOf f, msg) :: out)
  | quiet {n : Nat} {f : Fn} {msg : Str} {ops : List Op} {out : List (Logger × Str)} : n < severity f →
    Prints n ops out → Prints n (.print f msg :: ops) out
  | stop {n : Nat} {f : Fn} {msg : Str} {ops : List Op} : severity f = 0 →
    Prints n (.print f msg :: ops) [(loggerOf f, msg)]

theorem toLower_cons {b : UInt8} {s : Str} (h1 : b ≠ 0xC4) (h2 : b ≠ 0xE2) :
    toLower (b :: s) = (if 65 ≤ b ∧ b ≤ 90 then b + 32 else b) :: toLower s := by
  conv => lhs; unfold toLower
  split
  · rename_i h; cases h; exact absurd rfl h1
  · rename_i h; cases h; exact absurd rfl h2
  · rename_i h; cases h; rfl
  · rename_i h; cases h

theorem spells_iff {w s : Str} (hw : IsWord w) : Spells w s ↔ toLower s = w := by
  constructor
  · intro h
    induction h with
    | nil => rfl
    | @lower w s c h ih =>
      have hc := hw c (by simp)
      have h1 : ¬ (65 ≤ c ∧ c ≤ 90) := by
        intro h
        have := UInt8.le_iff_toNat_le.mp hc.1; have := UInt8.le_iff_toNat_le.mp h.2
        simp at *; omega
      have h2 := UInt8.le_iff_toNat_le.mp hc.2
      rw [toLower_cons, if_neg h1, ih (fun c hc => hw c (by simp [hc]))]
      · rintro rfl; revert h2; decide
      · rintro rfl; revert h2; decide
    | @upper w s c h1 h2 h ih =>
      have h3 := UInt8.le_iff_toNat_le.mp h2
      rw [toLower_cons, if_pos ⟨h1, h2⟩, ih (fun c hc => hw c (by simp [hc]))]
      · rintro rfl; revert h3; decide
      · rintro rfl; revert h3; decide
    | @dotted w s h ih =>
      show 105 :: toLower s = _
      rw [ih (fun c hc => hw c (by simp [hc]))]
    | @kelvin w s h ih =>
      show 107 :: toLower s = _
      rw [ih (fun c hc => hw c (by simp [hc]))]
  · intro h
    fun_induction toLower s generalizing w with
    | case1 rest ih =>
      subst h
      exact .dotted (ih (fun c hc => hw c (by simp [hc])) rfl)
    | case2 rest ih =>
      subst h
      exact .kelvin (ih (fun c hc => hw c (by simp [hc])) rfl)
    | case3 b rest h1 h2 ih =>
      subst h
      have := ih (fun c hc => hw c (by simp [hc])) rfl
      split
      · rename_i hb; exact .upper b hb.1 hb.2 this
      · exact .lower b this
    | case4 => subst h; exact .nil

theorem word_trace : IsWord nTrace := by unfold IsWord nTrace; decide
theorem word_info : IsWord nInfo := by unfold IsWord nInfo; decide
theorem word_error : IsWord nError := by unfold IsWord nError; decide

theorem word_eq : word "trace" = nTrace ∧ word "info" = nInfo ∧ word "error" = nError := by decide

theorem names_iff (s : Str) (n : Nat) : Names s n ↔ n = (setLevel s).num := by
  unfold Names setLevel
  obtain ⟨w1, w2, w3⟩ := word_eq
  rw [w1, w2, w3]
  rw [spells_iff word_trace, spells_iff word_info, spells_iff word_error]
  have e1 : nTrace ≠ nInfo := by decide
  have e2 : nTrace ≠ nError := by decide
  have e3 : nInfo ≠ nError := by decide
  by_cases h1 : toLower s = nTrace
  · simp [h1, e1, e2, Level.num]
  · by_cases h2 : toLower s = nInfo
    · simp [h2, e1.symm, e3, Level.num]
    · by_cases h3 : toLower s = nError
      · simp [h3, e2.symm, e3.symm, Level.num]
      · simp [h1, h2, h3, Level.num]

theorem target_eq (lv : Level) (f : Fn) : target lv f = if severity f ≤ lv.num then some (loggerOf f) else none := by
  cases lv <;> cases f <;> rfl

theorem stops_iff (f : Fn) : f.stops = true ↔ severity f = 0 := by cases f <;> decide

/-- C62: whatever the sequence of calls, it prints exactly the messages whose severity is within the level named by the
last SetLevel, each on the logger of its function; a string that names no level prints none of the levelled
messages. The output is determined by the calls. (Fatal and Panic print always, and end the program.) -/
theorem c62_prints (lv : Level) (ops : List Op) (out : List (Logger × Str)) :
    Prints lv.num ops out ↔ out = run lv ops := by
  constructor
  · intro h
    generalize hn : lv.num = n at h
    induction h generalizing lv with
    | nil => rfl
    | @set n m s ops out h1 h2 ih =>
      exact ih (setLevel s) ((names_iff s m).mp h1).symm
    | @print n f msg ops out h1 h2 h3 ih =>
      have hs : f.stops = false := by
        cases hb : f.stops with
        | false => rfl
        | true => have := (stops_iff f).mp hb; omega
      rw [ih lv hn]
      simp only [run, target_eq, hn, if_pos h2, hs, Bool.false_eq_true, if_false, List.cons_append, List.nil_append]
    | @quiet n f msg ops out h1 h2 ih =>
      have hs : f.stops = false := by
        cases hb : f.stops with
        | false => rfl
        | true => have := (stops_iff f).mp hb; omega
      rw [ih lv hn]
      simp only [run, target_eq, hn, if_neg (show ¬ severity f ≤ n by omega), hs, Bool.false_eq_true, if_false, List.nil_append]
    | @stop n f msg ops h1 =>
      simp only [run, target_eq, h1, Nat.zero_le, if_true, (stops_iff f).mpr h1]
  · rintro rfl
    induction ops generalizing lv with
    | nil => exact .nil
    | cons op ops ih =>
      cases op with
      | setLevel s => exact .set ((names_iff s _).mpr rfl) (ih (setLevel s))
      | print f msg =>
        by_cases h0 : severity f = 0
        · simp only [run, target_eq, h0, Nat.zero_le, if_true, (stops_iff f).mpr h0]
          exact .stop h0
        · have hs : f.stops = false := by
            cases hb : f.stops with
            | false => rfl
            | true => exact absurd ((stops_iff f).mp hb) h0
          by_cases h1 : severity f ≤ lv.num
          · simp only [run, target_eq, if_pos h1, hs, Bool.false_eq_true, if_false, List.cons_append, List.nil_append]
            exact .print (by omega) h1 (ih lv)
          · simp only [run, target_eq, if_neg h1, hs, Bool.false_eq_true, if_false, List.nil_append]
            exact .quiet (by omega) (ih lv)

/-- C62: nothing is printed at any level before SetLevel, or after SetLevel with an unknown name. -/
theorem c62_unknown (lv : Level) (s : Str) (h1 : ¬ Spells (word "trace") s) (h2 : ¬ Spells (word "info") s)
    (h3 : ¬ Spells (word "error") s) (msgs : List (Fn × Str)) (hm : ∀ m ∈ msgs, 0 < severity m.1) :
    run lv (.setLevel s :: msgs.map fun m => .print m.1 m.2) = [] := by
  refine ((c62_prints lv _ []).mp (.set (m := 0) ?_ ?_)).symm
  · exact .inr (.inr (.inr ⟨h1, h2, h3, rfl⟩))
  · clear h1 h2 h3
    induction msgs with
    | nil => exact .nil
    | cons m msgs ih =>
      simp only [List.forall_mem_cons] at hm
      exact .quiet hm.1 (ih hm.2)

example : run .none [.print .error [1], .setLevel [73, 110, 102, 79], .print .errorf [2], .print .trace [3], .print .info [4]] =
    [(.error, [2]), (.info, [4])] := by decide

example : Spells nInfo [0xC4, 0xB0, 78, 102, 111] :=
  .dotted (.upper 78 (by decide) (by decide) (.lower _ (.lower _ .nil)))

example : ¬ Spells nTrace [119] ∧ ¬ Spells nInfo [119] ∧ ¬ Spells nError [119] := by
  rw [spells_iff word_trace, spells_iff word_info, spells_iff word_error]; decide

end Bolt.Logging
