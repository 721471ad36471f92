import Verif.Spec.Programs
import Verif.Props.Session1

/-! # Programs using the driver: C93 -/

namespace Bolt
open PackStream

variable {δ α : Type} {D : DB δ} {close : M (Srv δ) (Option GoErr)}

theorem prog_runs {Q : α → Sess δ → Prop} (p : Prog α) : ∀ {w : World (Srv δ)} {h : Handles} {s : Sess δ}, Rep w h s → p.Gives D Q s →
    ∃ a w' h' s', p.run D.peer close h w = .ok (a, h') w' ∧ Rep w' h' s' ∧ Q a s' := by
  induction p with
  | done a => intro w h s hr hg; exact ⟨a, w, h, s, rfl, hr, hg⟩
  | call c k ih =>
    intro w h s hr hg
    obtain ⟨m, h1, h2⟩ := simulates (D := D) close hr hg.1
    obtain ⟨s1, r, h3, h4⟩ := hg.2 m h1
    obtain ⟨w1, h1', e1, hr1⟩ := h2 s1 r h3
    obtain ⟨a, w2, h2', s2, e2, hr2, hq⟩ := ih r hr1 h4
    exact ⟨a, w2, h2', s2, (mbind_ok e1).trans e2, hr2, hq⟩

/-- C93: every program, whatever it makes its next call depend on, finishes on the driver with the result it has on the abstract
session, if all its calls there are deliverable and defined; nothing it did before is in the way. -/
theorem c93_programs (Q : α → Sess δ → Prop) (p : Prog α) (d : δ) {cs : Nat} (h0 : 0 < cs) (h1 : cs ≤ 65535)
    (hg : p.Gives D Q ⟨d, .idle, false, cs⟩) :
    ∃ a w' h' s', p.run D.peer close .none (freshConn d cs) = .ok (a, h') w' ∧ Q a s' ∧
      (∀ d', s'.opn = .idle → s'.db = d' → Idle w' d') ∧ ((∃ x, s'.opn = .closed x) → w'.closed = true) := by
  obtain ⟨a, w', h', s', e, hr, hq⟩ := prog_runs (D := D) (close := close) p (rep_fresh d h0 h1) hg
  refine ⟨a, w', h', s', e, hq, ?_, ?_⟩
  · rintro _ ho rfl
    obtain ⟨d', o, t, c⟩ := s'
    cases ho
    exact hr.idle
  · rintro ⟨x, ho⟩
    have := hr.body
    rw [ho] at this
    exact this.1

end Bolt
