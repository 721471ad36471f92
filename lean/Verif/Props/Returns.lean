import Verif.Props.Panics
import Verif.Proofs.Finite
import Verif.Proofs.Loops

/-! # C67: calls return; C68: what values calls return -/

namespace Bolt

variable {σ : Type}

/-- The bound on nested closes does not matter: a call that ends within one bound does the same within any larger one. -/
theorem c67_bound (P : Peer σ) (n k : Nat) (op : Op) (w : World σ) :
    (∃ w', op.run P (closeN P n) w = .deep w') ∨ op.run P (closeN P n) w = op.run P (closeN P (n + k)) w :=
  le_op (le_closeN P n k) op w

/-- **C67** (the part that holds). Against any peer that sends finitely many messages, at most `rank` of them after each
state, every call in every state ends: with a result or a panic, and nesting at most as many closes as there are messages.
Missing for the full statement: peers that never stop answering, see `c67_false`. -/
theorem c67_returns_partial {P : Peer σ} {rank : σ → Nat} (hP : P.Ranked rank) {w : World σ} {op : Op} (he : op.Exists w)
    {n : Nat} (hn : w.inbox.length + rank w.srv ≤ n) :
    (∀ w', op.run P (closeN P n) w ≠ .deep w') ∧ ∀ k, op.run P (closeN P (n + k)) w = op.run P (closeN P n) w := by
  have h := ends_op hP (ends_closeN hP n) op hn he
  have h1 : ∀ w', op.run P (closeN P n) w ≠ .deep w' := by
    intro w' e
    unfold Halts at h
    rw [e] at h
    exact h
  refine ⟨h1, fun k => ?_⟩
  rcases c67_bound P n k op w with ⟨w', e⟩ | e
  · exact absurd e (h1 w')
  · exact e.symm

/-- `All` ends by itself: its bound is larger than the number of rows to come. -/
theorem c67_all (P : Peer σ) (close : M σ (Option GoErr)) (r k : Nat) {w : World σ} (hr : r < w.rows.length) :
    rowsAll P close r w = allLoop P close r (w.inbox.length + pullMore P w + 2 + k) [] w := all_fuel P close r k hr

/-- **C67 is false** in general: a server that answers everything with FAILURE makes `Close` call itself without end. -/
theorem c67_false : ∃ w, Op.runAll wall (closeN wall 0) [.prepare [65], .stQuery 0 []] wallConn = .ok () w ∧
    ∀ n, ∃ w', Op.close.run wall (closeN wall n) w = .deep w' := c65_false_recursion

/-- A peer with a script is ranked by what is left of it. -/
theorem script_ranked : script.Ranked (fun s => (s.map List.length).sum) := by
  intro s bs
  simp only [script]
  split
  · simp
  · cases s with
    | nil => simp
    | cons x s => simp

/-- An instance: four messages, three of them failures, and the call ends (in a panic, C65) within a nesting of four. -/
example : ∀ w', (Op.query [65] []).run script (closeN script 4)
    (scriptConn [[.val (.failure [])], [], [.val (.failure [])], [.val (.failure [])]]) ≠ .deep w' :=
  (c67_returns_partial (op := .query [65] []) script_ranked trivial (by decide)).1

end Bolt
