import Verif.Spec.Histories

/-!
# Client programs

A program decides on its next call by what the earlier ones returned, unlike the lists of calls of `Histories`.
-/

namespace Bolt
open PackStream

/-- A program using one connection: it is finished, or makes a call and goes on with what the call returned. -/
inductive Prog (α : Type) where
  | done (a : α)
  | call (c : Call KVs) (k : Res → Prog α)

/-- The program on the driver. -/
def Prog.run {σ α : Type} (P : Peer σ) (close : M σ (Option GoErr)) (h : Handles) : Prog α → M σ (α × Handles)
  | .done a => M.pure (a, h)
  | .call c k => do
    let x ← c.run P close h
    (k x.1).run P close x.2

/-- On the abstract session the program finishes with a result and in a session as `Q` says; every call on the way is
deliverable and one for which the abstract session is defined. -/
def Prog.Gives {δ α : Type} (D : DB δ) (Q : α → Sess δ → Prop) : Sess δ → Prog α → Prop
  | s, .done a => Q a s
  | s, .call c k => c.Deliverable s ∧ ∀ m, c.Means m → ∃ s' r, s.step D m = some (s', r) ∧ (k r).Gives D Q s'

end Bolt
