import Verif.Spec.Wire
import Verif.Proofs.Steps
import Verif.Proofs.Transient
import Verif.Proofs.Wire
import Verif.Props.Encoding

/-!
The bytes of many calls.
-/

namespace Bolt

variable {σ : Type} {P : Peer σ}

theorem feed_limited : ∀ (l : List Bytes) (out : Bytes) (k : Nat),
    feed Sink.write ⟨out, some k⟩ l = (⟨out ++ l.flatten.take k, some (k - l.flatten.length)⟩, decide (l.flatten.length ≤ k))
  | [], out, k => by simp [feed]
  | p :: l, out, k => by
    simp only [feed, Sink.write]
    by_cases h : p.length ≤ k
    · rw [if_pos h]
      simp only
      rw [feed_limited l]
      simp only [List.flatten_cons, List.length_append, List.append_assoc]
      rw [List.take_append, List.take_of_length_le h, Nat.sub_sub]
      simp only [Prod.mk.injEq, true_and, decide_eq_decide]
      omega
    · rw [if_neg h]
      simp only [List.flatten_cons, List.length_append]
      rw [List.take_append_of_le_length (by omega), Nat.sub_eq_zero_of_le (by omega)]
      simp only [Prod.mk.injEq, true_and]
      symm
      simp only [decide_eq_false_iff_not]
      omega

/-- What a stream that fails after `k` bytes receives. -/
theorem encodeTo_limited (cs : Nat) (out : Bytes) (k : Nat) (v : Val) :
    encodeTo cs ⟨out, some k⟩ v = (⟨out ++ (plan cs v).flatten.take k, some (k - (plan cs v).flatten.length)⟩,
      if (plan cs v).flatten.length ≤ k then (encOps v).err else some streamErr) := by
  rw [← encodeVia_sink, encodeVia_eq, feed_limited]
  by_cases h : (plan cs v).flatten.length ≤ k
  · rw [if_pos h, decide_eq_true h]
  · rw [if_neg h, decide_eq_false h]

/-- The stream has received the first `K` of the bytes. -/
def Sink.At (s : Sink) (out0 wire : Bytes) (lost : Prop) : Prop :=
  (s.budget = none ∧ s.out = out0 ++ wire) ∨
  ∃ K, s.budget = some (K - wire.length) ∧ s.out = out0 ++ wire.take K ∧ (wire.length ≤ K ∨ lost)

theorem Sink.At.mono {s : Sink} {out0 wire : Bytes} {a b : Prop} (h : s.At out0 wire a) (hab : a → b) : s.At out0 wire b := by
  rcases h with h | ⟨K, h1, h2, h3⟩
  · exact .inl h
  · exact .inr ⟨K, h1, h2, h3.imp id hab⟩

theorem Sink.At.send {s : Sink} {out0 wire : Bytes} {lost : Prop} (h : s.At out0 wire lost) {cs : Nat} {v : Val} {b : Bytes}
    (hb : ∀ out, encodeTo cs ⟨out, none⟩ v = (⟨out ++ b, none⟩, none)) :
    (encodeTo cs s v).1.At out0 (wire ++ b) (lost ∨ (encodeTo cs s v).2 ≠ none) := by
  have hp : (plan cs v).flatten = b := by
    have := hb []
    rw [encodeTo_plan] at this
    simpa using congrArg (fun x => x.1.out) this
  rcases h with ⟨h1, h2⟩ | ⟨K, h1, h2, h3⟩
  · obtain ⟨o, bu⟩ := s
    simp only at h1 h2
    subst h1 h2
    rw [hb]
    exact .inl ⟨rfl, by simp⟩
  · obtain ⟨o, bu⟩ := s
    simp only at h1 h2
    subst h1 h2
    rw [encodeTo_limited, hp]
    refine .inr ⟨K, ?_, ?_, ?_⟩
    · simp only [List.length_append, Option.some.injEq]; omega
    · simp only [List.append_assoc]
      rw [List.take_append]
    · rcases h3 with h3 | h3
      · by_cases h4 : b.length ≤ K - wire.length
        · exact .inl (by simp only [List.length_append]; omega)
        · exact .inr (.inr (by simp [h4]))
      · exact .inr (.inl h3)

theorem Sink.At.shut {s : Sink} {out0 wire : Bytes} {lost : Prop} (h : s.At out0 wire lost) :
    ({ s with budget := some 0 } : Sink).At out0 wire lost := by
  rcases h with ⟨_, h2⟩ | ⟨K, _, h2, h3⟩
  · exact .inr ⟨wire.length, by simp, by simpa using h2, .inl (Nat.le_refl _)⟩
  · refine .inr ⟨min K wire.length, ?_, ?_, ?_⟩
    · simp only [Option.some.injEq]; omega
    · rw [h2]
      congr 1
      exact List.take_eq_take_iff.mpr (by omega)
    · rcases h3 with h3 | h3
      · exact .inl (by omega)
      · exact .inr h3

/-- The invariant. -/
def InOrder (lo : Nat) (log0 : List Event) (s0 : Sink) (w : World σ) : Prop :=
  lo ≤ w.chunkSize ∧ w.chunkSize ≤ 65535 ∧ ∃ evs, w.log = log0 ++ evs ∧
    ((∀ v e, .send v e ∈ evs → v.Fits lo) → ∃ wire, StreamOf evs wire ∧ w.sink.At s0.out wire (Lost evs))

theorem InOrder.step {lo : Nat} (hlo : 0 < lo) {log0 : List Event} {s0 : Sink} {w w' : World σ} (h : InOrder lo log0 s0 w) (hm : Move P w w') :
    InOrder lo log0 s0 w' := by
  obtain ⟨h1, h2, evs, h3, h4⟩ := h
  cases hm with
  | own hs _ _ hl _ hc _ _ _ => exact ⟨by rw [hc]; exact h1, by rw [hc]; exact h2, evs, by rw [hl]; exact h3, by rw [hs]; exact h4⟩
  | shut =>
    refine ⟨h1, h2, evs, h3, fun hf => ?_⟩
    obtain ⟨wire, h5, h6⟩ := h4 hf
    exact ⟨wire, h5, h6.shut⟩
  | recv =>
    have e : (Bolt.recv P w).world.sink = w.sink ∧ (Bolt.recv P w).world.chunkSize = w.chunkSize ∧ (Bolt.recv P w).world.log = w.log ++ [.recv (nextItem P w)] := by
      unfold Bolt.recv
      cases nextItem P w <;> exact ⟨rfl, rfl, rfl⟩
    obtain ⟨e1, e2, e3⟩ := e
    refine ⟨by rw [e2]; exact h1, by rw [e2]; exact h2, evs ++ [.recv (nextItem P w)], by rw [e3, h3, List.append_assoc], fun hf => ?_⟩
    obtain ⟨wire, h5, h6⟩ := h4 fun v e hv => hf v e (by simp [hv])
    refine ⟨wire, .recv _ h5, ?_⟩
    rw [e1]
    exact h6.mono fun ⟨v, e, hv, hs⟩ => ⟨v, e, by simp [hv], hs⟩
  | send v =>
    refine ⟨h1, h2, evs ++ [.send v (encodeTo w.chunkSize w.sink v).2], ?_, fun hf => ?_⟩
    · show w.log ++ _ = _
      rw [h3, List.append_assoc]
    obtain ⟨wire, h5, h6⟩ := h4 fun v e hv => hf v e (by simp [hv])
    have hv := hf v (encodeTo w.chunkSize w.sink v).2 (by simp)
    show ∃ wire, StreamOf _ wire ∧ (encodeTo w.chunkSize w.sink v).1.At _ wire _
    rcases hv with ⟨t1, t2, t3, t4⟩ | ⟨t1, t2⟩
    · obtain ⟨q, p, b, g1, g2, g3, g4⟩ := sendable_wire (cs := w.chunkSize) (v := v) ⟨t1, t2, t3, by omega, h2, .inl t4⟩ []
      have hb : ∀ out, encodeTo w.chunkSize ⟨out, none⟩ v = (⟨out ++ b, none⟩, none) := by
        intro out
        rw [encodeTo_plan] at g4 ⊢
        simp only [List.nil_append, Prod.mk.injEq, Sink.mk.injEq, and_true] at g4
        rw [g4.1, g4.2]
      refine ⟨wire ++ b, .send _ h5 ⟨q, p, g1, g2, g3⟩, ?_⟩
      refine (h6.send hb).mono ?_
      rintro (⟨v', e, hv, hs⟩ | hne)
      · exact ⟨v', e, by simp [hv], hs⟩
      · cases he : (encodeTo w.chunkSize w.sink v).2 with
        | none => exact absurd he hne
        | some e => exact ⟨v, e, by simp, t3⟩
    · obtain ⟨e, he⟩ := c09_stream_untouched_partial w.chunkSize w.sink v t1 (by omega)
      rw [he]
      exact ⟨wire, .rejected h5 t1, h6.mono fun ⟨v, e, hv, hs⟩ => ⟨v, e, by simp [hv], hs⟩⟩

end Bolt
