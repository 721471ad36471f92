import Verif.Model.Reuse
import Verif.Props.Decoding
import Verif.Proofs.Wire

/-!
# C82 and C83: many messages over one Encoder and one Decoder
-/

namespace Bolt
open PackStream

/-- What a new Encoder for each value writes and returns. -/
def eachNew (cs : Nat) (w : Sink) : List Val → Sink × List (Option GoErr)
  | [] => (w, [])
  | v :: vs => ((eachNew cs (encodeTo cs w v).1 vs).1, (encodeTo cs w v).2 :: (eachNew cs (encodeTo cs w v).1 vs).2)

theorem encode_new (cs : Nat) (w : Sink) (v : Val) :
    (((⟨[], w⟩ : Enc).encode cs v).1.w, ((⟨[], w⟩ : Enc).encode cs v).2) = encodeTo cs w v := by
  unfold Enc.encode encodeTo
  simp only
  split
  · next h => simp only [h]
  · next h =>
    simp only [h]
    cases h1 : (encOps v).err with
    | some e => simp only
    | none =>
      simp only
      split
      · next h2 => simp only [h2]
      · next h2 => simp only [h2]

theorem flush_empties {e e' : Enc} (h : e.flush = (e', true)) : e'.buf = [] := by
  unfold Enc.flush at h
  simp only at h
  split at h
  · cases h
  · split at h
    · injection h with h _; rw [← h]
    · cases h

theorem encode_empties {cs : Nat} {e : Enc} {v : Val} (h : (e.encode cs v).2 = none) : (e.encode cs v).1.buf = [] := by
  unfold Enc.encode at h ⊢
  rcases h1 : e.run cs (encOps v).writes with ⟨e1, _ | _⟩
  · simp only [h1] at h; cases h
  · simp only [h1] at h ⊢
    cases h2 : (encOps v).err with
    | some e => rw [h2] at h; cases h
    | none =>
      rw [h2] at h
      simp only at h ⊢
      rcases h3 : e1.flush with ⟨e2, _ | _⟩
      · simp only [h3] at h; cases h
      · exact flush_empties h3

theorem eta_enc {e : Enc} (h : e.buf = []) : e = ⟨[], e.w⟩ := by cases e; cases h; rfl

/-- C82: as long as every call but the last one succeeds, an Encoder writes to any stream what a new Encoder for each
value would write, and returns the same. Missing: calls after one that failed. -/
theorem c82_reuse_partial (cs : Nat) (w : Sink) (vs : List Val) (v : Val)
    (h : ∀ r ∈ ((⟨[], w⟩ : Enc).encodeAll cs vs).2, r = none) :
    (((⟨[], w⟩ : Enc).encodeAll cs (vs ++ [v])).1.w, ((⟨[], w⟩ : Enc).encodeAll cs (vs ++ [v])).2) =
      eachNew cs w (vs ++ [v]) := by
  induction vs generalizing w with
  | nil =>
    simp only [List.nil_append, Enc.encodeAll, eachNew]
    have := encode_new cs w v
    rw [← this]
  | cons u us ih =>
    have h1 := encode_new cs w u
    simp only [Enc.encodeAll, List.mem_cons, forall_eq_or_imp] at h
    have h2 := eta_enc (encode_empties h.1)
    simp only [List.cons_append, Enc.encodeAll, eachNew]
    rw [← h1]
    rw [h2] at h ⊢
    have h3 := ih _ h.2
    simp only at h3 ⊢
    rw [← h3]

/-- C82, what happens otherwise, for every rejected value `u` and every supported value `v` on a stream that does not
fail: the second call succeeds, and what the two calls have written is one message, whose payload is that part of `u`
that was encoded before it was rejected, followed by `v`. -/
theorem c82_leftover {cs : Nat} (hc : 0 < cs) (hc' : cs ≤ 65535) (out : Bytes) {u v : Val} (hu : ¬ u.Supported)
    (hv : v.Supported) (hf : u.footprint + v.footprint ≤ 65535) :
    ∃ wire, ((⟨[], ⟨out, none⟩⟩ : Enc).encodeAll cs [u, v]).1 = ⟨[], ⟨out ++ wire, none⟩⟩ ∧
      (∃ e, ((⟨[], ⟨out, none⟩⟩ : Enc).encodeAll cs [u, v]).2 = [some e, none]) ∧
      Framed (payload u ++ payload v) wire := by
  have hu' : (encOps u).err ≠ none := fun h => hu ((acc u).mp h)
  obtain ⟨e, he⟩ := Option.ne_none_iff_exists'.mp hu'
  have hv' := (acc v).mpr hv
  obtain ⟨c1, b1, r1, l1, f1, t1⟩ := run_unlimited cs (encOps u).writes out []
  obtain ⟨c2, b2, r2, l2, f2, t2⟩ := run_unlimited cs (encOps v).writes (out ++ chunksOf cs c1) b1
  have e1 : (⟨[], ⟨out, none⟩⟩ : Enc).encode cs u = (⟨b1, ⟨out ++ chunksOf cs c1, none⟩⟩, some e) := by
    unfold Enc.encode; simp only [r1, he]
  have e2 : (⟨b1, ⟨out ++ chunksOf cs c1, none⟩⟩ : Enc).encode cs v =
      (⟨[], ⟨out ++ chunksOf cs c1 ++ chunksOf cs c2 ++ tailOf b2, none⟩⟩, none) := by
    unfold Enc.encode; simp only [r2, hv', flush_unlimited]
  have h3 : payload u ++ payload v = (c1 ++ c2).flatten ++ b2 := by
    unfold payload
    rw [List.nil_append] at f1
    rw [f1, List.append_assoc, f2]; simp
  refine ⟨chunksOf cs (c1 ++ c2) ++ tailOf b2, ?_, ⟨e, ?_⟩, ?_⟩
  · simp only [Enc.encodeAll, e1, e2]
    simp [chunksOf]
  · simp only [Enc.encodeAll, e1, e2]
  · rw [h3, framed_iff]
    refine framedBy_chunks hc (by omega) hc' ?_ (tail_framedBy (Nat.le_refl _) ?_)
    · intro c hm
      rcases List.mem_append.mp hm with h | h
      · exact l1 c h
      · exact l2 c h
    · have := payload_footprint u
      have := payload_footprint v
      have h4 := congrArg List.length h3
      simp only [List.length_append] at h4
      omega

set_option maxRecDepth 200000 in
/-- C82 is false: after `Encode([]interface{}{1, make(chan int)})` has failed, `Encode(2)` succeeds and sends a message that
reads as the list `[1, 2]`. -/
theorem c82_false : ∃ e, ((⟨[], ⟨[], none⟩⟩ : Enc).encodeAll 65535 [.list [.int .int 1, .other 0], .int .int 2]).2 = [some e, none] ∧
    (decodeFrom ⟨[((⟨[], ⟨[], none⟩⟩ : Enc).encodeAll 65535 [.list [.int .int 1, .other 0], .int .int 2]).1.w.out], .eof⟩).1 =
      .ok (.list [.int .int64 1, .int .int64 2]) := by
  refine ⟨_, rfl, rfl⟩

/-! ## C83 -/

/-- What a Decode of a stream holding just this message returns. -/
def held (m : Bytes × Bytes) : Except Fault Val :=
  match decodePayload m.1 with
  | .ok (v, _) => .ok v
  | .error f => .error f

theorem held_all (ms : List (Bytes × Bytes)) (hf : ∀ m ∈ ms, Framed m.1 m.2) (rest : Bytes) (r : Source)
    (hne : r.NonEmpty) (hb : r.segs.flatten = (ms.map Prod.snd).flatten ++ rest) :
    (decodeAll ms.length r).1 = ms.map held ∧
    (decodeAll ms.length r).2.segs.flatten = rest ∧ (decodeAll ms.length r).2.NonEmpty ∧
    (decodeAll ms.length r).2.err = r.err := by
  induction ms generalizing r with
  | nil => exact ⟨rfl, (by simpa using hb : r.segs.flatten = rest), hne, rfl⟩
  | cons m ms ih =>
    have hb' : r.segs.flatten = m.2 ++ ((ms.map Prod.snd).flatten ++ rest) := by simpa using hb
    obtain ⟨h1, h2, h3⟩ := c12_one_message (hf m List.mem_cons_self) r hne hb'
    have h4 : (decodeFrom r).2.NonEmpty := by
      rcases decodeFrom_flat r hne with ⟨e, a1, a2, a3⟩ | ⟨_, _, _, _, h, _⟩
      · exfalso
        have := readFlat_framed (err := r.err) (hf m List.mem_cons_self) (f := r.bytes.length + 1)
          (rest := (ms.map Prod.snd).flatten ++ rest) (out := []) (by unfold Source.bytes; rw [hb']; simp only [List.length_append]; omega)
        unfold readOne at a1
        rw [show r.bytes = m.2 ++ ((ms.map Prod.snd).flatten ++ rest) from hb'] at a1 this
        rw [this] at a1
        cases a1
      · exact h
    obtain ⟨h5, h6, h7, h8⟩ := ih (fun m hm => hf m (List.mem_cons_of_mem _ hm)) (decodeFrom r).2 h4 h1
    simp only [List.length_cons, decodeAll, List.map_cons]
    exact ⟨by rw [h5, h3]; rfl, h6, h7, by rw [h8, h2]⟩

theorem held_unmarshal {m : Bytes × Bytes} (h : Framed m.1 m.2) : held m = unmarshal m.2 := by
  have hne : m.2 ≠ [] := by
    intro h'
    have := framed_len h
    rw [h'] at this; simp at this
  obtain ⟨_, _, h1⟩ := c12_one_message (rest := []) h ⟨[m.2], .eof⟩ (by simp [Source.NonEmpty, hne]) (by simp)
  unfold unmarshal
  rw [if_neg hne, h1]
  rfl

/-- C83: a stream of messages, however split: the n-th call of Decode returns what Unmarshal of the n-th message returns,
whatever the other messages are. The messages may be malformed. -/
theorem c83_separate (ws : List Bytes) (hf : ∀ w ∈ ws, ∃ p, Framed p w) (rest : Bytes) (r : Source) (hne : r.NonEmpty)
    (hb : r.segs.flatten = ws.flatten ++ rest) :
    (decodeAll ws.length r).1 = ws.map unmarshal ∧ (decodeAll ws.length r).2.segs.flatten = rest := by
  have : ∃ ms : List (Bytes × Bytes), ms.map Prod.snd = ws ∧ ∀ m ∈ ms, Framed m.1 m.2 := by
    clear hb
    induction ws with
    | nil => exact ⟨[], rfl, by simp⟩
    | cons w ws ih =>
      obtain ⟨p, hp⟩ := hf w List.mem_cons_self
      obtain ⟨ms, h1, h2⟩ := ih (fun w hw => hf w (List.mem_cons_of_mem _ hw))
      refine ⟨(p, w) :: ms, by simp [h1], ?_⟩
      intro m hm
      rcases List.mem_cons.mp hm with rfl | hm
      · exact hp
      · exact h2 m hm
  obtain ⟨ms, rfl, h2⟩ := this
  obtain ⟨h3, h4, _⟩ := held_all ms h2 rest r hne hb
  rw [List.length_map]
  refine ⟨?_, h4⟩
  rw [h3, List.map_map]
  exact List.map_congr_left fun m hm => held_unmarshal (h2 m hm)

/-- A malformed message (a list cut short) between two good ones, split inside the messages. -/
example : (decodeAll 3 ⟨[[0, 1, 1, 0], [0, 0, 2, 0x92], [5, 0, 0, 0, 1, 7, 0, 0]], .eof⟩).1 =
    [[0, 1, 1, 0, 0], [0, 2, 0x92, 5, 0, 0], [0, 1, 7, 0, 0]].map unmarshal := by
  refine (c83_separate [[0, 1, 1, 0, 0], [0, 2, 0x92, 5, 0, 0], [0, 1, 7, 0, 0]] ?_ [] _ (by simp [Source.NonEmpty]) rfl).1
  have fr : ∀ c : Bytes, c ≠ [] → c.length ≤ 65535 → Framed c (be 2 c.length ++ c ++ [0, 0]) := by
    intro c hc hl
    have := tail_framedBy (n := 65535) (Nat.le_refl _) hl
    unfold tailOf at this
    rw [if_pos (List.length_pos_iff.mpr hc)] at this
    exact framed_iff.mpr this
  intro w hw
  simp only [List.mem_cons, List.not_mem_nil, or_false] at hw
  rcases hw with rfl | rfl | rfl
  · exact ⟨_, fr [1] (by simp) (by decide)⟩
  · exact ⟨_, fr [0x92, 5] (by simp) (by decide)⟩
  · exact ⟨_, fr [7] (by simp) (by decide)⟩

/-- What one Encoder writes for values it can frame: their messages one after the other. -/
theorem encodeAll_wires {cs : Nat} (hc : 8 ≤ cs) (hc' : cs ≤ 65535) (vs : List Val)
    (h : ∀ v ∈ vs, v.Supported ∧ v.StringsLe cs) (out : Bytes) :
    ∃ ms : List (Bytes × Bytes), ms.map Prod.fst = vs.map payload ∧ (∀ m ∈ ms, Framed m.1 m.2) ∧
      (⟨[], ⟨out, none⟩⟩ : Enc).encodeAll cs vs = (⟨[], ⟨out ++ (ms.map Prod.snd).flatten, none⟩⟩, vs.map fun _ => none) := by
  induction vs generalizing out with
  | nil => exact ⟨[], rfl, by simp, by simp [Enc.encodeAll]⟩
  | cons v vs ih =>
    obtain ⟨hs, hl⟩ := h v List.mem_cons_self
    obtain ⟨w, h1, _, h2⟩ := c06_c07_framed_partial hc hc' out hs hl
    have h3 := encode_new cs ⟨out, none⟩ v
    rw [h1] at h3
    injection h3 with h3 h4
    have h5 := eta_enc (encode_empties h4)
    rw [h3] at h5
    obtain ⟨ms, h6, h7, h8⟩ := ih (fun v hv => h v (List.mem_cons_of_mem _ hv)) (out ++ w)
    refine ⟨(payload v, w) :: ms, by simp [h6], ?_, ?_⟩
    · intro m hm
      rcases List.mem_cons.mp hm with rfl | hm
      · exact h2
      · exact h7 m hm
    · simp only [Enc.encodeAll, h5, h8, h4]
      simp

/-- C83: values written by one Encoder and read by one Decoder, over a stream that splits the bytes in any way: every
call of Encode succeeds, the calls of Decode return the values in the order they were written, each once, and the next
call of Decode returns the final error of the stream. Missing: as for C04, and strings longer than the chunk size. -/
theorem c83_in_order_partial {cs : Nat} (hc : 8 ≤ cs) (hc' : cs ≤ 65535) (vs : List Val)
    (h : ∀ v ∈ vs, v.Supported ∧ v.StringsLe cs ∧ v.Typed ∧ v.Clean ∧ v.SmallSizes ∧ v.Decodable) (r : Source)
    (hne : r.NonEmpty) (hb : r.segs.flatten = ((⟨[], ⟨[], none⟩⟩ : Enc).encodeAll cs vs).1.w.out) :
    (∀ e ∈ ((⟨[], ⟨[], none⟩⟩ : Enc).encodeAll cs vs).2, e = none) ∧
    (∃ ws, (decodeAll vs.length r).1 = ws.map .ok ∧ ReturnsList vs ws) ∧
    ∃ m, (decodeFrom (decodeAll vs.length r).2).1 = .error (.err (.wrap m (some r.err))) := by
  obtain ⟨ms, h1, h2, h3⟩ := encodeAll_wires hc hc' vs (fun v hv => ⟨(h v hv).1, (h v hv).2.1⟩) []
  have hlen : ms.length = vs.length := by simpa using congrArg List.length h1
  rw [h3] at hb ⊢
  obtain ⟨h4, h5, h6, h7⟩ := held_all ms h2 [] r hne (by simpa using hb)
  rw [hlen] at h4 h5 h6 h7
  refine ⟨by simp, ?_, ?_⟩
  · rw [h4]
    clear h3 h4 h5 h6 h7 hb hlen h2
    induction vs generalizing ms with
    | nil => cases ms with
      | nil => exact ⟨[], rfl, rfl⟩
      | cons _ _ => cases h1
    | cons v vs ih =>
      cases ms with
      | nil => cases h1
      | cons m ms =>
        injection h1 with k1 k2
        obtain ⟨ws, i1, i2⟩ := ih (fun v hv => h v (List.mem_cons_of_mem _ hv)) ms k2
        obtain ⟨hs, _, ht, hcl, hz, hd⟩ := h v List.mem_cons_self
        obtain ⟨p, j1, j2⟩ := enc_packs v (good_half ht hcl hz) ((acc v).mpr hs)
        rw [← payload_eq] at j2
        obtain ⟨w, j3, j4⟩ := ret_of v p (all_and v ht hd) j1
        have j5 := c17_conforming_understood_partial j2 j3 []
        rw [List.append_nil] at j5
        have j6 : held m = .ok w := by unfold held; rw [k1, j5]
        exact ⟨w :: ws, by simp only [List.map_cons, i1, j6], w, ws, j4, i2, rfl⟩
  · have k : readOne r.err [] = .error (.wrap "Couldn't read expected bytes for message length. Read: %d Expected: 2." (some r.err)) := by
      unfold readOne readFlat readFullErr
      simp only [List.length_nil]
      rw [if_pos (by omega)]
      cases r.err <;> rfl
    rcases decodeFrom_flat _ h6 with ⟨e, a1, a2, a3⟩ | ⟨p, rest, a1, _⟩
    · rw [show (decodeAll vs.length r).2.bytes = [] from h5, h7, k] at a1
      injection a1 with a1
      exact ⟨_, by rw [a2, ← a1]⟩
    · rw [show (decodeAll vs.length r).2.bytes = [] from h5, h7, k] at a1
      cases a1

/-- Three values, one of them rejected at the end; everything before it is as with new Encoders. -/
example : (((⟨[], ⟨[], none⟩⟩ : Enc).encodeAll 8 ([sample, sample] ++ [.other 0])).1.w,
    ((⟨[], ⟨[], none⟩⟩ : Enc).encodeAll 8 ([sample, sample] ++ [.other 0])).2) = eachNew 8 ⟨[], none⟩ ([sample, sample] ++ [.other 0]) := by
  refine c82_reuse_partial 8 ⟨[], none⟩ [sample, sample] (.other 0) ?_
  obtain ⟨ms, _, _, h⟩ := encodeAll_wires (cs := 8) (by decide) (by decide) [sample, sample]
    (by simp [sample_supported, sample_strings8]) []
  rw [h]; simp

/-- Two values through an Encoder with chunk size 8, read byte by byte. -/
example : ∃ ws, (decodeAll 2 ⟨((⟨[], ⟨[], none⟩⟩ : Enc).encodeAll 8 [sample, sample]).1.w.out.map fun b => [b], .eof⟩).1 = ws.map .ok ∧
    ReturnsList [sample, sample] ws :=
  (c83_in_order_partial (cs := 8) (by decide) (by decide) [sample, sample]
    (by simp [sample_supported, sample_strings8, sample_typed, sample_clean, sample_small, sample_decodable]) _
    (by simp [Source.NonEmpty]) (by simp [← List.flatMap_def])).2.1

end Bolt
