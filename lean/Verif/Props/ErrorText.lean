import Verif.Spec.ErrorText

/-! # The text of an error shows the whole chain (C72) -/

namespace Bolt.ErrorText

theorem InOrder.prefix {ps : List Str} {s : Str} (a : Str) (h : InOrder ps s) : InOrder ps (a ++ s) := by
  cases ps with
  | nil => trivial
  | cons p ps =>
    obtain ⟨x, y, rfl, h⟩ := h
    exact ⟨a ++ x, y, by simp, h⟩

theorem chain_shape (stack : Str) (r : Root) (ms : List Str) : ∃ m w s, chain stack r ms = .error m w s := by
  cases ms with
  | nil => cases r <;> exact ⟨_, _, _, rfl⟩
  | cons m ms =>
    simp only [chain, wrap]
    cases chain stack r ms <;> exact ⟨_, _, _, rfl⟩

theorem chain_text (r : Root) (ms : List Str) : ∀ level, ∃ a, InOrder (ms ++ r.says) a ∧
    ∀ stack, stack ≠ [] → (chain stack r ms).error' level = a ++ stackTrace ++ stack := by
  induction ms with
  | nil =>
    intro level
    cases r with
    | new msg =>
      refine ⟨List.replicate level 9 ++ msg, ⟨List.replicate level 9, [], by simp, trivial⟩, fun stack hs => ?_⟩
      have : stack.length > 0 := List.length_pos_iff.2 hs
      simp only [chain, new, E.error', this, if_true]
      simp
    | wrapNil msg =>
      refine ⟨List.replicate level 9 ++ msg, ⟨List.replicate level 9, [], by simp, trivial⟩, fun stack hs => ?_⟩
      have : stack.length > 0 := List.length_pos_iff.2 hs
      simp only [chain, wrap, E.error', this, if_true]
      simp
    | wrapOther msg typ text =>
      refine ⟨List.replicate level 9 ++ msg ++ (internal ++ typ ++ closing ++ text),
        ⟨List.replicate level 9, internal ++ typ ++ closing ++ text, by simp, internal, closing ++ text, by simp, closing, [], by simp, trivial⟩, fun stack hs => ?_⟩
      have : stack.length > 0 := List.length_pos_iff.2 hs
      simp only [chain, wrap, E.error', this, if_true]
      simp
  | cons m ms ih =>
    intro level
    obtain ⟨a, h1, h2⟩ := ih (level + 1)
    refine ⟨List.replicate level 9 ++ m ++ (newline ++ a), ⟨List.replicate level 9, newline ++ a, by simp, h1.prefix _⟩, fun stack hs => ?_⟩
    have h3 := h2 stack hs
    obtain ⟨m', w', s', e⟩ := chain_shape stack r ms
    simp only [chain, wrap]
    rw [e] at h3 ⊢
    simp only [E.error'] at h3 ⊢
    rw [h3]
    simp

/-- C72: the text of an error shows the messages of its whole chain from the outside in, then type and text of the error of
another package at its root, then the stack; the stack of the place where the chain started, once. -/
theorem c72_text (r : Root) (ms : List Str) : ∃ a, InOrder (ms ++ r.says) a ∧
    ∀ stack, stack ≠ [] → (chain stack r ms).text = a ++ stackTrace ++ stack := chain_text r ms 0

theorem chainAt_shape (stack : Str) (r : Root) (ms : List (Str × Str)) : ∃ m w s, chainAt stack r ms = .error m w s := by
  cases ms with
  | nil => exact chain_shape stack r []
  | cons m ms =>
    simp only [chainAt, wrap]
    cases chainAt stack r ms <;> exact ⟨_, _, _, rfl⟩

theorem chainAt_text (stack : Str) (hs : stack ≠ []) (r : Root) (ms : List (Str × Str)) : ∀ level,
    (chainAt stack r ms).error' level =
      lines level (ms.map Prod.snd ++ [r.msg]) ++ r.foreign ++ txt "\n\n Stack Trace:\n\n" ++ stack := by
  have e1 : newline = txt "\n" := by decide +kernel
  have e2 : internal = txt "\nInternal Error(" := by decide +kernel
  have e3 : closing = txt "):" := by decide +kernel
  have e4 : stackTrace = txt "\n\n Stack Trace:\n\n" := by decide +kernel
  have hl : stack.length > 0 := List.length_pos_iff.2 hs
  induction ms with
  | nil =>
    intro level
    cases r with
    | new msg => simp [chainAt, chain, new, E.error', hl, lines, Root.msg, Root.foreign, e4]
    | wrapNil msg => simp [chainAt, chain, wrap, E.error', hl, lines, Root.msg, Root.foreign, e4]
    | wrapOther msg typ text => simp [chainAt, chain, wrap, E.error', hl, lines, Root.msg, Root.foreign, e2, e3, e4]
  | cons m ms ih =>
    intro level
    obtain ⟨s, m⟩ := m
    have h2 := ih (level + 1)
    obtain ⟨m', w', s', e⟩ := chainAt_shape stack r ms
    have hw : chainAt stack r ((s, m) :: ms) = .error m (chainAt stack r ms) [] := by simp only [chainAt, wrap, e]
    have hm : ∃ x xs, ms.map Prod.snd ++ [r.msg] = x :: xs := by cases ms <;> exact ⟨_, _, rfl⟩
    obtain ⟨x, xs, hx⟩ := hm
    rw [hw]
    rw [e] at h2 ⊢
    have : ∀ l, E.error' l (.error m (.error m' w' s') []) = List.replicate l 9 ++ m ++ (newline ++ (E.error m' w' s').error' (l + 1)) ++ [] := by
      intro l; rw [E.error']; simp
    rw [this, h2, e1]
    simp only [List.map_cons, List.cons_append, hx, lines]
    simp

/-- C72, exactly: every message is on a line of its own, indented by its depth; then the line with type and text of the
error of another package at the root; then the stack of the root, whatever stacks the outer calls of `Wrap` saw. -/
theorem c72_layout (stack : Str) (hs : stack ≠ []) (r : Root) (ms : List (Str × Str)) :
    (chainAt stack r ms).text =
      lines 0 (ms.map Prod.snd ++ [r.msg]) ++ r.foreign ++ txt "\n\n Stack Trace:\n\n" ++ stack := chainAt_text stack hs r ms 0

example : (chainAt (txt "s") (.wrapOther (txt "b") (txt "T") (txt "x")) [(txt "s2", txt "a")]).text =
    txt "a\n\tb\nInternal Error(T):x\n\n Stack Trace:\n\ns" := by decide +kernel

/-- "a" around "b" around the error "x" of type "T". -/
example : (chain [115] (.wrapOther [98] [84] [120]) [[97]]).text =
    [97] ++ newline ++ [9, 98] ++ internal ++ [84] ++ closing ++ [120] ++ (stackTrace ++ [115]) := by decide

end Bolt.ErrorText
