import Verif.Model.Transient
import Verif.Proofs.Framing

/-!
The writes of `Encode` do not depend on the stream: it makes them in a fixed order until one fails.
-/

namespace Bolt

/-- Makes writes until one fails. -/
def feed {ω : Type} (wr : Writer ω) : ω → List Bytes → ω × Bool
  | s, [] => (s, true)
  | s, p :: ps =>
    match wr s p with
    | (s, true) => feed wr s ps
    | (s, false) => (s, false)

/-- The writes of `Encoder.Write` and the buffer left. -/
def planWrite (cs : Nat) (buf p : Bytes) : List Bytes × Bytes :=
  if (buf ++ p).length ≥ cs then ([be 2 cs, (buf ++ p).take cs], (buf ++ p).drop cs) else ([], buf ++ p)

/-- … of many. -/
def planRun (cs : Nat) : Bytes → List Bytes → List Bytes × Bytes
  | buf, [] => ([], buf)
  | buf, p :: ps =>
    ((planWrite cs buf p).1 ++ (planRun cs (planWrite cs buf p).2 ps).1, (planRun cs (planWrite cs buf p).2 ps).2)

/-- … of `flush`. -/
def planFlush (buf : Bytes) : List Bytes :=
  (if buf.length > 0 then [be 2 buf.length, buf] else []) ++ [EndMessage]

/-- … of `Encode`. -/
def plan (cs : Nat) (v : Val) : List Bytes :=
  match (encOps v).err with
  | some _ => (planRun cs [] (encOps v).writes).1
  | none => (planRun cs [] (encOps v).writes).1 ++ planFlush (planRun cs [] (encOps v).writes).2

section
variable {ω : Type} (wr : Writer ω) (cs : Nat)

theorem feed_append : ∀ (l m : List Bytes) (s : ω),
    feed wr s (l ++ m) = match feed wr s l with
      | (s, true) => feed wr s m
      | (s, false) => (s, false)
  | [], m, s => rfl
  | p :: l, m, s => by
    simp only [List.cons_append, feed]
    rcases wr s p with ⟨s', b⟩
    cases b
    · rfl
    · exact feed_append l m s'

theorem viaWrite_eq (buf : Bytes) (s : ω) (p : Bytes) :
    (viaWrite wr cs buf s p).2 = feed wr s (planWrite cs buf p).1 ∧
    ((viaWrite wr cs buf s p).2.2 = true → (viaWrite wr cs buf s p).1 = (planWrite cs buf p).2) := by
  unfold viaWrite planWrite
  by_cases h : (buf ++ p).length ≥ cs
  · simp only [if_pos h, feed]
    rcases wr s (be 2 cs) with ⟨s', b⟩
    cases b
    · simp
    · simp only
      rcases wr s' ((buf ++ p).take cs) with ⟨s'', b⟩
      cases b <;> simp
  · simp only [if_neg h, feed]
    simp

theorem viaRun_eq : ∀ (ps : List Bytes) (buf : Bytes) (s : ω),
    (viaRun wr cs buf s ps).2 = feed wr s (planRun cs buf ps).1 ∧
    ((viaRun wr cs buf s ps).2.2 = true → (viaRun wr cs buf s ps).1 = (planRun cs buf ps).2)
  | [], buf, s => ⟨rfl, fun _ => rfl⟩
  | p :: ps, buf, s => by
    have h := viaWrite_eq wr cs buf s p
    simp only [viaRun, planRun, feed_append]
    rw [← h.1]
    rcases hx : viaWrite wr cs buf s p with ⟨b, s', t⟩
    rw [hx] at h
    cases t
    · simp
    · have hb : b = _ := h.2 rfl
      rw [← hb]
      exact viaRun_eq ps b s'

theorem viaFlush_eq (buf : Bytes) (s : ω) : viaFlush wr buf s = feed wr s (planFlush buf) := by
  have last : ∀ s, feed wr s [EndMessage] = wr s EndMessage := by
    intro s
    simp only [feed]
    rcases wr s EndMessage with ⟨s', b⟩
    cases b <;> rfl
  unfold viaFlush planFlush
  rw [feed_append]
  simp only [last]
  by_cases h : buf.length > 0
  · simp only [if_pos h, feed]
    rcases wr s (be 2 buf.length) with ⟨s', b⟩
    cases b
    · rfl
    · simp only
      rcases wr s' buf with ⟨s'', b⟩
      cases b <;> rfl
  · simp only [if_neg h, feed]

/-- `Encode` makes the planned writes until one fails. -/
theorem encodeVia_eq (s : ω) (v : Val) :
    encodeVia wr cs s v = match feed wr s (plan cs v) with
      | (s, false) => (s, some streamErr)
      | (s, true) => (s, (encOps v).err) := by
  have h := viaRun_eq wr cs (encOps v).writes [] s
  unfold encodeVia plan
  rcases hx : viaRun wr cs [] s (encOps v).writes with ⟨b, s', t⟩
  rw [hx] at h
  cases he : (encOps v).err with
  | some e =>
    simp only [hx, he]
    rw [← h.1]
    cases t <;> rfl
  | none =>
    simp only [hx, he]
    rw [feed_append, ← h.1]
    cases t
    · rfl
    · have hb : b = _ := h.2 rfl
      simp only
      rw [← hb, viaFlush_eq]
      rcases feed wr s' _ with ⟨s'', b⟩
      cases b <;> rfl

end

/-- Over a `Sink` the functions are those of the encoder's model. -/
theorem viaWrite_sink (cs : Nat) (buf : Bytes) (s : Sink) (p : Bytes) :
    viaWrite Sink.write cs buf s p = (((Enc.mk buf s).write cs p).1.buf, ((Enc.mk buf s).write cs p).1.w, ((Enc.mk buf s).write cs p).2) := by
  unfold viaWrite Enc.write
  simp only
  split
  · rcases s.write (be 2 cs) with ⟨s', b⟩
    cases b
    · rfl
    · simp only
  · rfl

theorem viaRun_sink (cs : Nat) : ∀ (ps : List Bytes) (buf : Bytes) (s : Sink),
    viaRun Sink.write cs buf s ps = (((Enc.mk buf s).run cs ps).1.buf, ((Enc.mk buf s).run cs ps).1.w, ((Enc.mk buf s).run cs ps).2)
  | [], _, _ => rfl
  | p :: ps, buf, s => by
    simp only [viaRun, Enc.run, viaWrite_sink]
    rcases (Enc.mk buf s).write cs p with ⟨⟨b, s'⟩, t⟩
    cases t
    · rfl
    · exact viaRun_sink cs ps b s'

theorem viaFlush_sink (buf : Bytes) (s : Sink) :
    viaFlush Sink.write buf s = ((Enc.mk buf s).flush.1.w, (Enc.mk buf s).flush.2) := by
  unfold viaFlush Enc.flush
  by_cases h : buf.length > 0
  · simp only [if_pos h]
    rcases s.write (be 2 buf.length) with ⟨s1, b⟩
    cases b
    · rfl
    · simp only
      rcases s1.write buf with ⟨s2, b⟩
      cases b
      · rfl
      · simp only
        rcases s2.write EndMessage with ⟨s3, b⟩
        cases b <;> rfl
  · simp only [if_neg h]
    rcases s.write EndMessage with ⟨s3, b⟩
    cases b <;> rfl

theorem encodeVia_sink (cs : Nat) (s : Sink) (v : Val) : encodeVia Sink.write cs s v = encodeTo cs s v := by
  unfold encodeVia encodeTo
  simp only [viaRun_sink, viaFlush_sink]
  rcases (Enc.mk [] s).run cs (encOps v).writes with ⟨⟨b, s'⟩, t⟩
  cases t
  · rfl
  · simp only
    cases (encOps v).err with
    | some e => rfl
    | none =>
      simp only
      rcases (Enc.mk b s').flush with ⟨⟨b', s''⟩, t⟩
      cases t <;> rfl

theorem feed_unlimited : ∀ (l : List Bytes) (out : Bytes), feed Sink.write ⟨out, none⟩ l = (⟨out ++ l.flatten, none⟩, true)
  | [], out => by simp [feed]
  | p :: l, out => by
    simp only [feed, Sink.write]
    rw [feed_unlimited l]
    simp

/-- What a stream that never fails receives. -/
theorem encodeTo_plan (cs : Nat) (out : Bytes) (v : Val) :
    encodeTo cs ⟨out, none⟩ v = (⟨out ++ (plan cs v).flatten, none⟩, (encOps v).err) := by
  rw [← encodeVia_sink, encodeVia_eq, feed_unlimited]

/-- The writes made on a line. -/
theorem feed_line (fail : Nat → Option Nat) : ∀ (l : List Bytes) (s : Line),
    s.writes ≤ (feed (Line.write fail) s l).1.writes ∧
    (feed (Line.write fail) s l).1.out <+: s.out ++ l.flatten ∧
    (∀ i, s.writes ≤ i → i < (feed (Line.write fail) s l).1.writes → fail i ≠ none →
      (feed (Line.write fail) s l).1.writes = i + 1 ∧ (feed (Line.write fail) s l).2 = false) ∧
    ((∀ i, s.writes ≤ i → i < (feed (Line.write fail) s l).1.writes → fail i = none) →
      (feed (Line.write fail) s l).1.out = s.out ++ l.flatten ∧ (feed (Line.write fail) s l).2 = true)
  | [], s => by
    refine ⟨Nat.le_refl _, by simp [feed], ?_, ?_⟩
    · intro i h1 h2; exact absurd h2 (by simp only [feed]; omega)
    · intro; simp [feed]
  | p :: l, s => by
    cases hf : fail s.writes with
    | none =>
      have h := feed_line fail l ⟨s.out ++ p, s.writes + 1⟩
      have he : feed (Line.write fail) s (p :: l) = feed (Line.write fail) ⟨s.out ++ p, s.writes + 1⟩ l := by
        simp only [feed, Line.write, hf]
      rw [he]
      obtain ⟨h1, h2, h3, h4⟩ := h
      simp only at h1 h2 h3 h4
      refine ⟨by omega, by simpa using h2, ?_, ?_⟩
      · intro i hi hj hn
        have : i ≠ s.writes := by rintro rfl; exact hn hf
        exact h3 i (by omega) hj hn
      · intro hall
        have := h4 fun i hi hj => hall i (by omega) hj
        simpa using this
    | some k =>
      have he : feed (Line.write fail) s (p :: l) = (⟨s.out ++ p.take k, s.writes + 1⟩, false) := by
        simp only [feed, Line.write, hf]
      rw [he]
      refine ⟨by simp, ?_, ?_, ?_⟩
      · simp only [List.flatten_cons]
        rw [List.prefix_append_right_inj]
        exact (List.take_prefix k p).trans (List.prefix_append _ _)
      · intro i hi hj _
        simp only at hj ⊢
        exact ⟨by omega, trivial⟩
      · intro hall
        have := hall s.writes (Nat.le_refl _) (by simp)
        rw [hf] at this
        cases this

end Bolt
