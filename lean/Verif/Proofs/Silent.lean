import Verif.Spec.Wire
import Verif.Spec.Histories
import Verif.Proofs.Steps

/-!
A peer that sends nothing.
-/

namespace Bolt

variable {σ : Type} {P : Peer σ}

/-- Nothing was received since the log was `log0`, and nothing is there. -/
def Deaf (log0 : List Event) (w : World σ) : Prop :=
  w.inbox = [] ∧ ∃ evs, w.log = log0 ++ evs ∧ ∀ v, .recv (.val v) ∉ evs

theorem Deaf.step (hP : P.Silent) {log0 : List Event} {w w' : World σ} (h : Deaf log0 w) (hm : Move P w w') : Deaf log0 w' := by
  obtain ⟨h1, evs, h2, h3⟩ := h
  cases hm with
  | own _ hi _ hl _ _ _ _ _ => exact ⟨by rw [hi]; exact h1, evs, by rw [hl]; exact h2, h3⟩
  | shut => exact ⟨rfl, evs, h2, h3⟩
  | send v =>
    refine ⟨?_, evs ++ [.send v (encodeTo w.chunkSize w.sink v).2], ?_, fun u => by simp [h3]⟩
    · show w.inbox ++ _ = []
      rw [h1]
      simp only [List.nil_append]
      split
      · rfl
      · exact hP _ _
    · show w.log ++ _ = _
      rw [h2, List.append_assoc]
  | recv =>
    have e : nextItem P w = .eof ∨ nextItem P w = .ioerr := by
      unfold nextItem
      rw [h1]
      simp only
      split
      · exact .inr rfl
      · split
        · exact .inl rfl
        · exact .inr rfl
    have e' : (Bolt.recv P w).world.inbox = w.inbox.tail ∧ (Bolt.recv P w).world.log = w.log ++ [.recv (nextItem P w)] := by
      unfold Bolt.recv
      cases nextItem P w <;> exact ⟨rfl, rfl⟩
    refine ⟨by rw [e'.1, h1]; rfl, evs ++ [.recv (nextItem P w)], by rw [e'.2, h2, List.append_assoc], fun u => ?_⟩
    rcases e with e | e <;> rw [e] <;> simp [h3]

theorem Deaf.reach (hP : P.Silent) {n : Nat} {w w' : World σ} (h : Reach P n w w') (hi : w.inbox = []) : w'.inbox = [] :=
  (reach_inv (I := Deaf w.log) (fun h m => h.step hP m) (fun _ h => h) h ⟨hi, [], by simp, by simp⟩).1

theorem Deaf.does (hP : P.Silent) {α : Type} {x : M σ α} (hx : Does P x) {w w' : World σ} {a : α} (h : x w = .ok a w') (hi : w.inbox = [])
    {evs : List Event} (he : w'.log = w.log ++ evs) (v : Val) : .recv (.val v) ∉ evs := by
  have h1 := hx w
  rw [h] at h1
  have steps : ∀ {a b : World σ}, Moves P a b → Deaf w.log a → Deaf w.log b := by
    intro a b hs h0
    induction hs with
    | refl => exact h0
    | tail _ s ih => exact ih.step hP s
  obtain ⟨_, evs', h2, h3⟩ := steps h1 ⟨hi, [], by simp, by simp⟩
  have : evs = evs' := List.append_cancel_left (he.symm.trans h2)
  rw [this]
  exact h3 v

theorem mem_receipts {i : Item} : ∀ {l : List Event}, i ∈ receipts l → .recv i ∈ l
  | .recv j :: l, h => by
    simp only [receipts, List.mem_cons] at h
    rcases h with rfl | h
    · simp
    · exact List.mem_cons_of_mem _ (mem_receipts h)
  | .send _ _ :: l, h => List.mem_cons_of_mem _ (mem_receipts (l := l) h)

end Bolt
