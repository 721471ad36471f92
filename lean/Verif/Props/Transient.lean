import Verif.Proofs.Transient

/-!
# C75: a stream that fails now and then
-/

namespace Bolt

/-- The encoder over any writer is the encoder of `Verif/Model/Encoder.lean`. -/
theorem c75_same_encoder (cs : Nat) (s : Sink) (v : Val) : encodeVia Sink.write cs s v = encodeTo cs s v := encodeVia_sink cs s v

/-- C75: whichever writes fail, `Encode` writes a prefix of what it writes to a stream that never fails. The first write
that fails is the last one made and `Encode` returns an error. If no write fails, the result is that on a stream that
never fails. -/
theorem c75_transient (fail : Nat → Option Nat) (cs : Nat) (s : Line) (v : Val) :
    (encodeVia (Line.write fail) cs s v).1.out <+: (encodeTo cs ⟨s.out, none⟩ v).1.out ∧
    (∀ i, s.writes ≤ i → i < (encodeVia (Line.write fail) cs s v).1.writes → fail i ≠ none →
      i + 1 = (encodeVia (Line.write fail) cs s v).1.writes ∧ (encodeVia (Line.write fail) cs s v).2 ≠ none) ∧
    ((∀ i, s.writes ≤ i → i < (encodeVia (Line.write fail) cs s v).1.writes → fail i = none) →
      (encodeVia (Line.write fail) cs s v).1.out = (encodeTo cs ⟨s.out, none⟩ v).1.out ∧
      (encodeVia (Line.write fail) cs s v).2 = (encodeTo cs ⟨s.out, none⟩ v).2) := by
  have h := feed_line fail (plan cs v) s
  rw [encodeVia_eq, encodeTo_plan]
  generalize feed (Line.write fail) s (plan cs v) = x at h
  obtain ⟨s', b⟩ := x
  obtain ⟨_, h2, h3, h4⟩ := h
  cases b
  · refine ⟨h2, fun i a1 a2 a3 => ⟨(h3 i a1 a2 a3).1.symm, by simp⟩, fun ha => ?_⟩
    exact absurd (h4 ha).2 (by simp)
  · refine ⟨h2, fun i a1 a2 a3 => ?_, fun ha => ⟨(h4 ha).1, rfl⟩⟩
    exact absurd (h3 i a1 a2 a3).2 (by simp)

/-- C75, the consequence for the caller: when `Encode` returns nil, everything was written. -/
theorem c75_success_is_complete (fail : Nat → Option Nat) (cs : Nat) (s : Line) (v : Val)
    (h : (encodeVia (Line.write fail) cs s v).2 = none) :
    (encodeVia (Line.write fail) cs s v).1.out = (encodeTo cs ⟨s.out, none⟩ v).1.out ∧ (encodeTo cs ⟨s.out, none⟩ v).2 = none := by
  obtain ⟨_, h2, h3⟩ := c75_transient fail cs s v
  have h4 := h3 fun i a1 a2 => by
    cases hf : fail i with
    | none => rfl
    | some k => exact absurd h (h2 i a1 a2 (by simp [hf])).2
  exact ⟨h4.1, by rw [← h4.2]; exact h⟩

/-- Only the second of the three writes of a message fails, after one byte; the third is not made. -/
example :
    (encodeVia (Line.write fun i => if i = 1 then some 1 else none) 16 ⟨[], 0⟩ (.str [97, 98])).1.out = [0, 3, 130] ∧
    (encodeVia (Line.write fun i => if i = 1 then some 1 else none) 16 ⟨[], 0⟩ (.str [97, 98])).1.writes = 2 ∧
    (encodeVia (Line.write fun i => if i = 1 then some 1 else none) 16 ⟨[], 0⟩ (.str [97, 98])).2.isSome = true := by decide

/-- A failure that comes later does not matter. -/
example :
    (encodeVia (Line.write fun i => if i = 3 then some 1 else none) 16 ⟨[], 0⟩ (.str [97, 98])).1.out = [0, 3, 130, 97, 98, 0, 0] ∧
    (encodeVia (Line.write fun i => if i = 3 then some 1 else none) 16 ⟨[], 0⟩ (.str [97, 98])).2.isSome = false := by decide

end Bolt
