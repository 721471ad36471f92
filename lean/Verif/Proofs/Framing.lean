import Verif.Proofs.Encode
import Verif.Spec.Footprint

/-! Helper lemmas about the chunking writer. -/

namespace Bolt
open PackStream

/-! ## The specification's frames -/

theorem framed_iff {p w : Bytes} : Framed p w ↔ FramedBy 65535 p w := by
  constructor
  · intro h
    induction h with
    | done => exact .done
    | chunk h1 h2 _ ih =>
      refine .chunk h1 ?_ h2 ih
      have := h2.2 ▸ ofBytes_lt _
      rw [h2.1] at this
      omega
  · intro h
    induction h with
    | done => exact .done
    | chunk h1 _ h2 _ ih => exact .chunk h1 h2 ih

theorem framedBy_mono {n m : Nat} (hnm : n ≤ m) {p w : Bytes} (h : FramedBy n p w) : FramedBy m p w := by
  induction h with
  | done => exact .done
  | chunk h1 h2 h3 _ ih => exact .chunk h1 (Nat.le_trans h2 hnm) h3 ih

theorem framedBy_length {n : Nat} {p w : Bytes} (h : FramedBy n p w) :
    ∃ k, w.length = p.length + 2 + 2 * k ∧ p.length ≤ n * k := by
  induction h with
  | done => exact ⟨0, by simp, by simp⟩
  | chunk h1 h2 h3 _ ih =>
    obtain ⟨k, hk, hl⟩ := ih
    refine ⟨k + 1, ?_, ?_⟩
    · simp only [List.length_append, h3.1, hk]; omega
    · simp only [List.length_append, Nat.mul_add]; omega

/-- Peeling off the first chunk. -/
theorem framedBy_peel {n cs : Nat} (hc : 0 < cs) (hc' : cs < 65536) {p c w : Bytes} (hl : c.length = cs)
    (h : FramedBy n p (be 2 cs ++ c ++ w)) : ∃ p', p = c ++ p' ∧ cs ≤ n ∧ FramedBy n p' w := by
  generalize hx : be 2 cs ++ c ++ w = x at h
  have hu := unsigned_be (w := 2) (n := cs) hc'
  cases h with
  | done =>
    exfalso
    have := congrArg List.length hx
    simp only [List.length_append, be_length, hl, List.length_cons, List.length_nil] at this
    omega
  | @chunk c' hdr p' w' h1 h2 h3 h4 =>
    simp only [List.append_assoc] at hx
    obtain ⟨hh, hx2⟩ := List.append_inj hx (by rw [be_length, h3.1])
    subst hh
    have hcl : c'.length = cs := h3.2.symm.trans hu.2
    obtain ⟨rfl, rfl⟩ := List.append_inj hx2 (by rw [hl, hcl])
    exact ⟨p', rfl, hl ▸ h2, h4⟩

/-- The wire form of full chunks. -/
def chunksOf (cs : Nat) (cks : List Bytes) : Bytes := (cks.map (be 2 cs ++ ·)).flatten

theorem framedBy_chunks {n cs : Nat} (hc : 0 < cs) (hc' : cs < 65536) (hn : cs ≤ n) {cks : List Bytes}
    (hl : ∀ c ∈ cks, c.length = cs) {p w : Bytes} (h : FramedBy n p w) :
    FramedBy n (cks.flatten ++ p) (chunksOf cs cks ++ w) := by
  induction cks with
  | nil => simpa [chunksOf] using h
  | cons c cks ih =>
    have hcl := hl c (by simp)
    have := ih fun c hc => hl c (by simp [hc])
    have := FramedBy.chunk (c := c) (hdr := be 2 cs) (by rintro rfl; simp at hcl; omega) (by omega)
      (hcl ▸ unsigned_be (by omega)) this
    simpa [chunksOf] using this

theorem framedBy_chunks_inv {n cs : Nat} (hc : 0 < cs) (hc' : cs < 65536) {cks : List Bytes}
    (hl : ∀ c ∈ cks, c.length = cs) {p w : Bytes} (h : FramedBy n p (chunksOf cs cks ++ w)) :
    ∃ p', p = cks.flatten ++ p' ∧ FramedBy n p' w := by
  induction cks generalizing p with
  | nil => exact ⟨p, by simp, by simpa [chunksOf] using h⟩
  | cons c cks ih =>
    have h : FramedBy n p (be 2 cs ++ c ++ (chunksOf cs cks ++ w)) := by simpa [chunksOf] using h
    obtain ⟨p', rfl, _, h1⟩ := framedBy_peel hc hc' (hl c (by simp)) h
    obtain ⟨q, rfl, h2⟩ := ih (fun c hc => hl c (by simp [hc])) h1
    exact ⟨q, by simp, h2⟩

/-! ## Running the encoder on a stream that does not fail -/

/-- Number of bytes left in the buffer after the writes. -/
def tailLen (cs : Nat) : Nat → List Bytes → Nat
  | r, [] => r
  | r, p :: ps => tailLen cs (if r + p.length ≥ cs then r + p.length - cs else r + p.length) ps

theorem write_unlimited (out p : Bytes) :
    (Sink.mk out none).write p = (Sink.mk (out ++ p) none, true) := rfl

theorem run_unlimited (cs : Nat) (ps : List Bytes) (out buf : Bytes) :
    ∃ cks buf', (Enc.mk buf ⟨out, none⟩).run cs ps = (⟨buf', ⟨out ++ chunksOf cs cks, none⟩⟩, true) ∧
      (∀ c ∈ cks, c.length = cs) ∧ buf ++ ps.flatten = cks.flatten ++ buf' ∧
      buf'.length = tailLen cs buf.length ps := by
  induction ps generalizing out buf with
  | nil => exact ⟨[], buf, by simp [Enc.run, chunksOf], by simp, by simp, rfl⟩
  | cons p ps ih =>
    by_cases h : (buf ++ p).length ≥ cs
    · obtain ⟨cks, buf', h1, h2, h3, h4⟩ := ih (out ++ be 2 cs ++ (buf ++ p).take cs) ((buf ++ p).drop cs)
      refine ⟨(buf ++ p).take cs :: cks, buf', ?_, ?_, ?_, ?_⟩
      · simp only [Enc.run, Enc.write, if_pos h, write_unlimited, h1]
        simp [chunksOf]
      · intro c hc
        rcases List.mem_cons.mp hc with rfl | hc
        · simp only [List.length_take]; omega
        · exact h2 c hc
      · simp only [List.flatten_cons, List.append_assoc] at h3 ⊢
        rw [← h3, ← List.append_assoc, ← List.append_assoc (List.take _ _), List.take_append_drop]
      · rw [h4, tailLen]
        simp only [List.length_append] at h
        rw [if_pos h]
        simp
    · obtain ⟨cks, buf', h1, h2, h3, h4⟩ := ih out (buf ++ p)
      refine ⟨cks, buf', ?_, h2, by simpa using h3, ?_⟩
      · simp only [Enc.run, Enc.write, if_neg h, h1]
      · rw [h4, tailLen]
        simp only [List.length_append] at h ⊢
        rw [if_neg h]

/-- The wire form of what is left at the end. -/
def tailOf (buf : Bytes) : Bytes := (if buf.length > 0 then be 2 buf.length ++ buf else []) ++ [0, 0]

theorem flush_unlimited (out buf : Bytes) :
    (Enc.mk buf ⟨out, none⟩).flush = (⟨[], ⟨out ++ tailOf buf, none⟩⟩, true) := by
  unfold Enc.flush tailOf
  by_cases h : buf.length > 0
  · simp [h, write_unlimited, EndMessage]
  · simp [h, write_unlimited, EndMessage]

theorem encodeTo_unlimited (cs : Nat) (out : Bytes) (v : Val) :
    ∃ cks buf, (∀ c ∈ cks, c.length = cs) ∧ payload v = cks.flatten ++ buf ∧
      buf.length = tailLen cs 0 (encOps v).writes ∧
      encodeTo cs ⟨out, none⟩ v =
        match (encOps v).err with
        | none => (⟨out ++ (chunksOf cs cks ++ tailOf buf), none⟩, none)
        | some e => (⟨out ++ chunksOf cs cks, none⟩, some e) := by
  obtain ⟨cks, buf, h1, h2, h3, h4⟩ := run_unlimited cs (encOps v).writes out []
  refine ⟨cks, buf, h2, by simpa [payload] using h3, h4, ?_⟩
  unfold encodeTo
  simp only [h1]
  cases (encOps v).err <;> simp [flush_unlimited]

theorem tail_framedBy {n : Nat} {buf : Bytes} (hn : n ≤ 65535) (h : buf.length ≤ n) : FramedBy n buf (tailOf buf) := by
  unfold tailOf
  by_cases hb : buf.length > 0
  · rw [if_pos hb]
    have := FramedBy.chunk (n := n) (c := buf) (hdr := be 2 buf.length) (by rintro rfl; simp at hb) h
      (unsigned_be (by omega)) FramedBy.done
    simpa using this
  · have : buf = [] := by simpa using hb
    subst this
    simpa using FramedBy.done

theorem tail_framedBy_inv {n : Nat} {buf : Bytes} (h : FramedBy n buf (tailOf buf)) : buf.length ≤ n := by
  obtain ⟨k, h1, h2⟩ := framedBy_length h
  unfold tailOf at h1
  by_cases hb : buf.length > 0
  · rw [if_pos hb] at h1
    simp at h1
    have : k = 1 := by omega
    subst this; omega
  · omega

/-- Exact condition under which the output is a framed message with chunks of at most `n` bytes. -/
theorem encodeTo_framedBy {cs n : Nat} (hc : 0 < cs) (hcn : cs ≤ n) (hn : n ≤ 65535) (out : Bytes) (v : Val)
    (he : (encOps v).err = none) :
    ∃ wire, encodeTo cs ⟨out, none⟩ v = (⟨out ++ wire, none⟩, none) ∧
      (FramedBy n (payload v) wire ↔ tailLen cs 0 (encOps v).writes ≤ n) := by
  obtain ⟨cks, buf, h1, h2, h3, h4⟩ := encodeTo_unlimited cs out v
  rw [he] at h4
  refine ⟨_, h4, ?_⟩
  rw [← h3]
  constructor
  · intro h
    obtain ⟨p', hp, h⟩ := framedBy_chunks_inv hc (by omega) h1 h
    rw [h2] at hp
    rw [← List.append_cancel_left hp] at h
    exact tail_framedBy_inv h
  · intro h
    rw [h2]
    exact framedBy_chunks hc (by omega) hcn h1 (tail_framedBy hn h)

theorem tailLen_le (cs : Nat) (r : Nat) (ps : List Bytes) : tailLen cs r ps ≤ r + ps.flatten.length := by
  induction ps generalizing r with
  | nil => simp [tailLen]
  | cons p ps ih =>
    rw [tailLen]
    refine Nat.le_trans (ih _) ?_
    simp only [List.flatten_cons, List.length_append]
    split <;> omega

theorem tailLen_lt {cs : Nat} {r : Nat} (hr : r < cs) {ps : List Bytes} (hp : ∀ p ∈ ps, p.length ≤ cs) :
    tailLen cs r ps < cs := by
  induction ps generalizing r with
  | nil => exact hr
  | cons p ps ih =>
    rw [tailLen]
    have := hp p (by simp)
    refine ih ?_ fun q hq => hp q (by simp [hq])
    split <;> omega

/-- Without a full chunk, nothing is written. -/
theorem run_short {cs : Nat} (ps : List Bytes) (buf : Bytes) (w : Sink)
    (h : buf.length + ps.flatten.length < cs) :
    (Enc.mk buf w).run cs ps = (⟨buf ++ ps.flatten, w⟩, true) := by
  induction ps generalizing buf with
  | nil => simp [Enc.run]
  | cons p ps ih =>
    simp only [List.flatten_cons, List.length_append] at h
    have hw : (Enc.mk buf w).write cs p = (⟨buf ++ p, w⟩, true) := by
      simp only [Enc.write, List.length_append]
      rw [if_neg (by omega)]
    simp only [Enc.run, hw]
    rw [ih _ (by simp only [List.length_append]; omega)]
    simp

/-! ## Sizes of the writes -/

/-- All writes have at most `n` bytes. -/
def WritesLe (n : Nat) (o : Ops) : Prop := ∀ p ∈ o.writes, p.length ≤ n

theorem wle_write {n : Nat} {p : Bytes} (h : p.length ≤ n) : WritesLe n (.write p) := by
  simp [WritesLe, Ops.write, h]

theorem wle_seq {n : Nat} {a b : Ops} (ha : WritesLe n a) (hb : WritesLe n b) : WritesLe n (a.seq b) := by
  unfold Ops.seq
  cases a.err
  · intro p h
    rcases List.mem_append.mp h with h | h
    · exact ha p h
    · exact hb p h
  · exact ha

theorem wle_fail {n : Nat} {e : GoErr} : WritesLe n (.fail e) := by simp [WritesLe, Ops.fail]
theorem wle_done {n : Nat} : WritesLe n .done := by simp [WritesLe, Ops.done]
theorem wle_wrap {n : Nat} {a : Ops} {m : String} (h : WritesLe n a) : WritesLe n (a.wrapErr m) := h

theorem wle_ite {n : Nat} {c : Prop} [Decidable c] {a b : Ops} (ha : WritesLe n a) (hb : WritesLe n b) :
    WritesLe n (if c then a else b) := by split <;> assumption

section
variable {n : Nat} (hn : 8 ≤ n)
include hn

theorem wle_w {w k : Nat} (h : w ≤ 8) : WritesLe n (.write (be w k)) := wle_write (by simp; omega)
theorem wle_ws {w : Nat} {k : Int} (h : w ≤ 8) : WritesLe n (.write (beSigned w k)) :=
  wle_write (by simp [beSigned]; omega)
theorem wle_1 {b : UInt8} : WritesLe n (.write [b]) := wle_write (by simp; omega)

theorem wle_int (v : Int) : WritesLe n (encodeInt v) := by
  unfold encodeInt
  have h1 := fun b => wle_1 hn (b := b)
  have h2 := fun w k h => wle_ws hn (w := w) (k := k) h
  repeat' first
    | refine wle_ite ?_ ?_
    | exact wle_fail
    | exact h2 _ _ (by decide)
    | exact wle_seq (h1 _) (h2 _ _ (by decide))

theorem wle_intKind (k : IntKind) (v : Int) : WritesLe n (encodeIntKind k v) := by
  unfold encodeIntKind
  cases k <;> first | exact wle_int hn _ | exact wle_ite wle_fail (wle_int hn _)

theorem wle_float (b : UInt64) : WritesLe n (encodeFloat b) := wle_seq (wle_1 hn) (wle_w hn (by decide))

theorem wle_slice (k : Nat) : WritesLe n (sliceHeader k) := by
  unfold sliceHeader
  repeat' first
    | refine wle_ite ?_ ?_
    | exact wle_fail
    | exact wle_1 hn
    | exact wle_seq (wle_1 hn) (wle_w hn (by decide))

theorem wle_map (k : Nat) : WritesLe n (mapHeader k) := by
  unfold mapHeader
  repeat' first
    | refine wle_ite ?_ ?_
    | exact wle_fail
    | exact wle_1 hn
    | exact wle_seq (wle_1 hn) (wle_w hn (by decide))

theorem wle_struct (k : Nat) (s : Int) : WritesLe n (structHeader k s) := by
  unfold structHeader
  refine wle_seq ?_ (wle_ws hn (by decide))
  repeat' first
    | refine wle_ite ?_ ?_
    | exact wle_fail
    | exact wle_1 hn
    | exact wle_seq (wle_1 hn) (wle_w hn (by decide))

theorem wle_str {s : Str} (h : s.length ≤ n) : WritesLe n (encodeString s) := by
  unfold encodeString
  have hs : WritesLe n (.write s) := wle_write h
  dsimp only
  repeat' first
    | refine wle_ite ?_ ?_
    | exact wle_fail
    | exact wle_seq (wle_1 hn) hs
    | exact wle_seq (wle_seq (wle_1 hn) (wle_w hn (by decide))) hs

theorem wle_each {α : Type} {f : α → Ops} {l : List α} (h : ∀ x ∈ l, WritesLe n (f x)) : WritesLe n (encodeEach f l) := by
  induction l with
  | nil => exact wle_done
  | cons x l ih => exact wle_seq (h x (by simp)) (ih fun y hy => h y (by simp [hy]))

mutual
theorem wle_enc : (v : Val) → v.StringsLe n → WritesLe n (encOps v)
  | .nil, _ => wle_1 hn
  | .bool b, _ => by simp only [encOps, encodeBool]; exact wle_ite (wle_1 hn) (wle_1 hn)
  | .int k v, _ => wle_intKind hn k v
  | .float32 _, _ => wle_float hn _
  | .float64 _, _ => wle_float hn _
  | .str s, h => by
    simp only [Val.StringsLe, Val.All, Val.ownStrings] at h
    exact wle_str hn (h s (by simp))
  | .list xs, h => by
    simp only [Val.StringsLe, Val.All] at h
    exact wle_seq (wle_slice hn _) (wle_list xs h.2)
  | .typedSlice xs, h => by
    simp only [Val.StringsLe, Val.All] at h
    exact wle_seq (wle_slice hn _) (wle_list xs h.2)
  | .map kvs, h => by
    simp only [Val.StringsLe, Val.All, Val.ownStrings] at h
    exact wle_seq (wle_map hn _) (wle_kvs kvs h.1 h.2)
  | .node id ls ps, h => by
    simp only [Val.StringsLe, Val.All, Val.ownStrings] at h
    exact wle_seq (wle_struct hn _ _) (wle_seq (wle_wrap (wle_intKind hn _ _))
      (wle_seq (wle_wrap (wle_seq (wle_slice hn _) (wle_each hn fun s hs => wle_str hn (h.1 s (by simp [hs])))))
        (wle_wrap (wle_seq (wle_map hn _) (wle_kvs ps (fun s hs => h.1 s (by simp [hs])) h.2)))))
  | .rel id s e t ps, h => by
    simp only [Val.StringsLe, Val.All, Val.ownStrings] at h
    exact wle_seq (wle_struct hn _ _) (wle_seq (wle_wrap (wle_intKind hn _ _))
      (wle_seq (wle_wrap (wle_intKind hn _ _)) (wle_seq (wle_wrap (wle_intKind hn _ _))
      (wle_seq (wle_wrap (wle_str hn (h.1 t (by simp))))
        (wle_wrap (wle_seq (wle_map hn _) (wle_kvs ps (fun s hs => h.1 s (by simp [hs])) h.2)))))))
  | .unbound id t ps, h => by
    simp only [Val.StringsLe, Val.All, Val.ownStrings] at h
    exact wle_seq (wle_struct hn _ _) (wle_seq (wle_wrap (wle_intKind hn _ _))
      (wle_seq (wle_wrap (wle_str hn (h.1 t (by simp))))
        (wle_wrap (wle_seq (wle_map hn _) (wle_kvs ps (fun s hs => h.1 s (by simp [hs])) h.2)))))
  | .path ns rs sq, h => by
    simp only [Val.StringsLe, Val.All] at h
    exact wle_seq (wle_struct hn _ _) (wle_seq (wle_wrap (wle_seq (wle_slice hn _) (wle_list ns h.2.1)))
      (wle_seq (wle_wrap (wle_seq (wle_slice hn _) (wle_list rs h.2.2)))
        (wle_wrap (wle_seq (wle_slice hn _) (wle_each hn fun _ _ => wle_intKind hn _ _)))))
  | .record fs, h => by
    simp only [Val.StringsLe, Val.All] at h
    exact wle_seq (wle_struct hn _ _) (wle_wrap (wle_seq (wle_slice hn _) (wle_list fs h.2)))
  | .success md, h => by
    simp only [Val.StringsLe, Val.All, Val.ownStrings] at h
    exact wle_seq (wle_struct hn _ _) (wle_wrap (wle_seq (wle_map hn _) (wle_kvs md h.1 h.2)))
  | .failure md, h => by
    simp only [Val.StringsLe, Val.All, Val.ownStrings] at h
    exact wle_seq (wle_struct hn _ _) (wle_wrap (wle_seq (wle_map hn _) (wle_kvs md h.1 h.2)))
  | .ignored, _ => wle_struct hn _ _
  | .ackFailure, _ => wle_struct hn _ _
  | .discardAll, _ => wle_struct hn _ _
  | .pullAll, _ => wle_struct hn _ _
  | .reset, _ => wle_struct hn _ _
  | .init c a, h => by
    simp only [Val.StringsLe, Val.All, Val.ownStrings] at h
    exact wle_seq (wle_struct hn _ _) (wle_seq (wle_wrap (wle_str hn (h.1 c (by simp))))
      (wle_wrap (wle_seq (wle_map hn _) (wle_kvs a (fun s hs => h.1 s (by simp [hs])) h.2))))
  | .run c a, h => by
    simp only [Val.StringsLe, Val.All, Val.ownStrings] at h
    exact wle_seq (wle_struct hn _ _) (wle_seq (wle_wrap (wle_str hn (h.1 c (by simp))))
      (wle_wrap (wle_seq (wle_map hn _) (wle_kvs a (fun s hs => h.1 s (by simp [hs])) h.2))))
  | .userStruct sig fs, h => by
    simp only [Val.StringsLe, Val.All] at h
    exact wle_seq (wle_struct hn _ _) (wle_fields fs h.2)
  | .other _, _ => wle_fail

theorem wle_list : (xs : List Val) → Val.AllList (fun v => ∀ s ∈ v.ownStrings, s.length ≤ n) xs →
    WritesLe n (encList xs)
  | [], _ => wle_done
  | x :: xs, h => by
    simp only [Val.AllList] at h
    exact wle_seq (wle_enc x h.1) (wle_list xs h.2)

theorem wle_fields : (xs : List Val) → Val.AllList (fun v => ∀ s ∈ v.ownStrings, s.length ≤ n) xs →
    WritesLe n (encFields xs)
  | [], _ => wle_done
  | x :: xs, h => by
    simp only [Val.AllList] at h
    exact wle_seq (wle_wrap (wle_enc x h.1)) (wle_fields xs h.2)

theorem wle_kvs : (kvs : List (Str × Val)) → (∀ s ∈ keysOf kvs, s.length ≤ n) →
    Val.AllKVs (fun v => ∀ s ∈ v.ownStrings, s.length ≤ n) kvs → WritesLe n (encKVs kvs)
  | [], _, _ => wle_done
  | (k, v) :: rest, hk, h => by
    simp only [Val.AllKVs] at h
    exact wle_seq (wle_str hn (hk k (by simp [keysOf]))) (wle_seq (wle_enc v h.1)
      (wle_kvs rest (fun s hs => hk s (by simp [keysOf] at hs ⊢; exact .inr hs)) h.2))
end
end

/-! ## Size of the payload -/

/-- At most `n` bytes in total. -/
def BytesLe (n : Nat) (o : Ops) : Prop := o.bytes.length ≤ n

theorem ble_seq {n m : Nat} {a b : Ops} (ha : BytesLe n a) (hb : BytesLe m b) : BytesLe (n + m) (a.seq b) := by
  unfold Ops.seq BytesLe Ops.bytes at *
  cases a.err
  · simp only [List.flatten_append, List.length_append]; omega
  · simp only; omega

theorem ble_write (p : Bytes) : BytesLe p.length (.write p) := by simp [BytesLe]
theorem ble_fail {n : Nat} {e : GoErr} : BytesLe n (.fail e) := by simp [BytesLe]
theorem ble_mono {n m : Nat} {a : Ops} (ha : BytesLe n a) (h : n ≤ m) : BytesLe m a := Nat.le_trans ha h
theorem ble_ite {n : Nat} {c : Prop} [Decidable c] {a b : Ops} (ha : BytesLe n a) (hb : BytesLe n b) :
    BytesLe n (if c then a else b) := by split <;> assumption

theorem ble_1w (b : UInt8) (w k : Nat) : BytesLe (1 + w) ((Ops.write [b]).seq (.write (be w k))) :=
  ble_seq (ble_write _) (ble_mono (ble_write _) (by simp))
theorem ble_1s (b : UInt8) (w : Nat) (k : Int) : BytesLe (1 + w) ((Ops.write [b]).seq (.write (beSigned w k))) :=
  ble_seq (ble_write _) (ble_mono (ble_write _) (by simp [beSigned]))

theorem ble_int (v : Int) : BytesLe 9 (encodeInt v) := by
  unfold encodeInt
  repeat' first
    | refine ble_ite ?_ ?_
    | exact ble_fail
    | exact ble_mono (ble_1s _ _ _) (by decide)
    | exact ble_mono (ble_write _) (by simp [beSigned])

theorem ble_intKind (k : IntKind) (v : Int) : BytesLe 9 (encodeIntKind k v) := by
  unfold encodeIntKind
  cases k <;> first | exact ble_int _ | exact ble_ite ble_fail (ble_int _)

theorem ble_slice (k : Nat) : BytesLe 5 (sliceHeader k) := by
  unfold sliceHeader
  repeat' first
    | refine ble_ite ?_ ?_
    | exact ble_fail
    | exact ble_mono (ble_1w _ _ _) (by decide)
    | exact ble_mono (ble_write _) (by simp)

theorem ble_map (k : Nat) : BytesLe 5 (mapHeader k) := by
  unfold mapHeader
  repeat' first
    | refine ble_ite ?_ ?_
    | exact ble_fail
    | exact ble_mono (ble_1w _ _ _) (by decide)
    | exact ble_mono (ble_write _) (by simp)

theorem ble_struct (k : Nat) (s : Int) : BytesLe 6 (structHeader k s) := by
  unfold structHeader
  refine ble_seq (n := 5) (m := 1) ?_ (ble_mono (ble_write _) (by simp [beSigned]))
  repeat' first
    | refine ble_ite ?_ ?_
    | exact ble_fail
    | exact ble_mono (ble_1w _ _ _) (by decide)
    | exact ble_mono (ble_write _) (by simp)

theorem ble_str (s : Str) : BytesLe (5 + s.length) (encodeString s) := by
  unfold encodeString
  dsimp only
  repeat' first
    | refine ble_ite ?_ ?_
    | exact ble_fail
    | exact ble_mono (ble_seq (ble_write [_]) (ble_write s)) (by simp)
    | exact ble_mono (ble_seq (ble_1w _ _ _) (ble_write s)) (by simp)

theorem ble_wrap {n : Nat} {a : Ops} {m : String} (h : BytesLe n a) : BytesLe n (a.wrapErr m) := h

theorem ble_labels (ls : List Str) : BytesLe (ls.map fun l => 5 + l.length).sum (encodeEach encodeString ls) := by
  induction ls with
  | nil => simp [BytesLe, encodeEach]
  | cons l ls ih => exact ble_mono (ble_seq (ble_str l) ih) (by simp)

theorem ble_ints (ls : List Int) : BytesLe (9 * ls.length) (encodeEach (encodeIntKind .int) ls) := by
  induction ls with
  | nil => simp [BytesLe, encodeEach]
  | cons l ls ih => exact ble_mono (ble_seq (ble_intKind _ l) ih) (by simp; omega)

mutual
theorem ble_enc : (v : Val) → BytesLe v.footprint (encOps v)
  | .nil => ble_mono (ble_write _) (by simp [Val.footprint])
  | .bool b => by
    simp only [encOps, encodeBool]
    exact ble_ite (ble_mono (ble_write _) (by simp [Val.footprint])) (ble_mono (ble_write _) (by simp [Val.footprint]))
  | .int k v => ble_intKind k v
  | .float32 _ => ble_1w _ _ _
  | .float64 _ => ble_1w _ _ _
  | .str s => ble_str s
  | .list xs => ble_seq (ble_slice _) (ble_list xs)
  | .typedSlice xs => ble_seq (ble_slice _) (ble_list xs)
  | .map kvs => ble_seq (ble_map _) (ble_kvs kvs)
  | .node id ls ps => ble_mono (ble_seq (ble_struct _ _) (ble_seq (ble_wrap (ble_intKind _ _))
      (ble_seq (ble_wrap (ble_seq (ble_slice _) (ble_labels ls))) (ble_wrap (ble_seq (ble_map _) (ble_kvs ps))))))
      (by simp only [Val.footprint]; omega)
  | .rel id s e t ps => ble_mono (ble_seq (ble_struct _ _) (ble_seq (ble_wrap (ble_intKind _ _))
      (ble_seq (ble_wrap (ble_intKind _ _)) (ble_seq (ble_wrap (ble_intKind _ _))
      (ble_seq (ble_wrap (ble_str t)) (ble_wrap (ble_seq (ble_map _) (ble_kvs ps))))))))
      (by simp only [Val.footprint]; omega)
  | .unbound id t ps => ble_mono (ble_seq (ble_struct _ _) (ble_seq (ble_wrap (ble_intKind _ _))
      (ble_seq (ble_wrap (ble_str t)) (ble_wrap (ble_seq (ble_map _) (ble_kvs ps))))))
      (by simp only [Val.footprint]; omega)
  | .path ns rs sq => ble_mono (ble_seq (ble_struct _ _) (ble_seq (ble_wrap (ble_seq (ble_slice _) (ble_list ns)))
      (ble_seq (ble_wrap (ble_seq (ble_slice _) (ble_list rs))) (ble_wrap (ble_seq (ble_slice _) (ble_ints sq))))))
      (by simp only [Val.footprint]; omega)
  | .record fs => ble_mono (ble_seq (ble_struct _ _) (ble_wrap (ble_seq (ble_slice _) (ble_list fs))))
      (by simp only [Val.footprint]; omega)
  | .success fs => ble_mono (ble_seq (ble_struct _ _) (ble_wrap (ble_seq (ble_map _) (ble_kvs fs))))
      (by simp only [Val.footprint]; omega)
  | .failure fs => ble_mono (ble_seq (ble_struct _ _) (ble_wrap (ble_seq (ble_map _) (ble_kvs fs))))
      (by simp only [Val.footprint]; omega)
  | .ignored => ble_mono (ble_struct _ _) (by simp [Val.footprint])
  | .ackFailure => ble_mono (ble_struct _ _) (by simp [Val.footprint])
  | .discardAll => ble_mono (ble_struct _ _) (by simp [Val.footprint])
  | .pullAll => ble_mono (ble_struct _ _) (by simp [Val.footprint])
  | .reset => ble_mono (ble_struct _ _) (by simp [Val.footprint])
  | .init c a => ble_mono (ble_seq (ble_struct _ _) (ble_seq (ble_wrap (ble_str c)) (ble_wrap (ble_seq (ble_map _) (ble_kvs a)))))
      (by simp only [Val.footprint]; omega)
  | .run c a => ble_mono (ble_seq (ble_struct _ _) (ble_seq (ble_wrap (ble_str c)) (ble_wrap (ble_seq (ble_map _) (ble_kvs a)))))
      (by simp only [Val.footprint]; omega)
  | .userStruct sig fs => ble_seq (ble_struct _ _) (ble_fields fs)
  | .other _ => ble_fail

theorem ble_list : (xs : List Val) → BytesLe (Val.footList xs) (encList xs)
  | [] => by simp [BytesLe, encList]
  | x :: xs => ble_seq (ble_enc x) (ble_list xs)

theorem ble_fields : (xs : List Val) → BytesLe (Val.footList xs) (encFields xs)
  | [] => by simp [BytesLe, encFields]
  | x :: xs => ble_seq (ble_wrap (ble_enc x)) (ble_fields xs)

theorem ble_kvs : (kvs : List (Str × Val)) → BytesLe (Val.footKVs kvs) (encKVs kvs)
  | [] => by simp [BytesLe, encKVs]
  | (k, v) :: rest => ble_mono (ble_seq (ble_str k) (ble_seq (ble_enc v) (ble_kvs rest)))
      (by simp only [Val.footKVs]; omega)
end

theorem payload_footprint (v : Val) : (payload v).length ≤ v.footprint := ble_enc v

/-! ## A stream that fails -/

/-- `w` is a stream that fails after `k` bytes beyond `out₀`, in step with the unlimited stream `u`. -/
def InStep (out₀ : Bytes) (k : Nat) (u w : Sink) : Prop :=
  u.budget = none ∧ w.out = u.out ∧ ∃ j, w.budget = some j ∧ u.out.length + j = out₀.length + k

/-- `w` failed; `u` went on. -/
def Failed (out₀ : Bytes) (k : Nat) (u w : Sink) : Prop :=
  out₀.length + k < u.out.length ∧ w.out = u.out.take (out₀.length + k)

theorem failed_more {out₀ : Bytes} {k : Nat} {u w : Sink} (h : Failed out₀ k u w) (b : Option Nat) (p : Bytes) :
    Failed out₀ k ⟨u.out ++ p, b⟩ w := by
  obtain ⟨h1, h2⟩ := h
  refine ⟨by simp only [List.length_append]; omega, ?_⟩
  rw [h2, List.take_append_of_le_length (by omega)]

theorem write_inStep {out₀ : Bytes} {k : Nat} {u w : Sink} (h : InStep out₀ k u w) (p : Bytes) :
    ((w.write p).2 = true ∧ InStep out₀ k (u.write p).1 (w.write p).1) ∨
    ((w.write p).2 = false ∧ Failed out₀ k (u.write p).1 (w.write p).1) := by
  obtain ⟨uo, ub⟩ := u
  obtain ⟨wo, wb⟩ := w
  obtain ⟨h1, h2, j, h3, h4⟩ := h
  simp only at h1 h2 h3 h4
  subst h1 h2 h3
  by_cases hp : p.length ≤ j
  · left
    simp only [Sink.write, if_pos hp, InStep, true_and]
    exact ⟨_, rfl, by simp only [List.length_append]; omega⟩
  · right
    simp only [Sink.write, if_neg hp, Failed, true_and]
    refine ⟨by simp only [List.length_append]; omega, ?_⟩
    have hx : out₀.length + k = wo.length + j := h4.symm
    rw [hx, List.take_length_add_append]

theorem write_inStep_unl {u : Sink} (h : u.budget = none) (p : Bytes) :
    u.write p = (⟨u.out ++ p, none⟩, true) := by
  obtain ⟨uo, ub⟩ := u
  simp only at h; subst h; rfl

theorem encWrite_inStep {out₀ : Bytes} {k : Nat} {u w : Sink} (h : InStep out₀ k u w) (cs : Nat) (buf p : Bytes) :
    (((Enc.mk buf w).write cs p).2 = true ∧
      ((Enc.mk buf w).write cs p).1.buf = ((Enc.mk buf u).write cs p).1.buf ∧
      InStep out₀ k ((Enc.mk buf u).write cs p).1.w ((Enc.mk buf w).write cs p).1.w) ∨
    (((Enc.mk buf w).write cs p).2 = false ∧
      Failed out₀ k ((Enc.mk buf u).write cs p).1.w ((Enc.mk buf w).write cs p).1.w) := by
  have hu := h.1
  by_cases hb : (buf ++ p).length ≥ cs
  · simp only [Enc.write, if_pos hb]
    rcases write_inStep h (be 2 cs) with ⟨h1, h2⟩ | ⟨h1, h2⟩
    · rw [write_inStep_unl hu] at h2 ⊢
      generalize w.write (be 2 cs) = x at h1 h2 ⊢
      obtain ⟨w', b⟩ := x
      try simp only at h1 h2
      subst h1
      rcases write_inStep h2 ((buf ++ p).take cs) with ⟨h3, h4⟩ | ⟨h3, h4⟩
      · exact .inl ⟨h3, rfl, h4⟩
      · exact .inr ⟨h3, h4⟩
    · rw [write_inStep_unl hu] at h2 ⊢
      generalize w.write (be 2 cs) = x at h1 h2 ⊢
      obtain ⟨w', b⟩ := x
      try simp only at h1 h2
      subst h1
      exact .inr ⟨rfl, failed_more h2 _ _⟩
  · simp only [Enc.write, if_neg hb]
    exact .inl ⟨trivial, trivial, h⟩

theorem unl_of_inStep {out₀ : Bytes} {k : Nat} {u w : Sink} (h : InStep out₀ k u w) : u = ⟨u.out, none⟩ := by
  obtain ⟨uo, ub⟩ := u
  have := h.1
  try simp only at this
  subst this; rfl

theorem failed_run {out₀ : Bytes} {k : Nat} {out : Bytes} {w : Sink} (h : Failed out₀ k ⟨out, none⟩ w) (cs : Nat)
    (buf : Bytes) (ps : List Bytes) : Failed out₀ k ((Enc.mk buf ⟨out, none⟩).run cs ps).1.w w := by
  obtain ⟨cks, buf', h1, _⟩ := run_unlimited cs ps out buf
  rw [h1]
  exact failed_more h _ _

theorem encWrite_unlimited (cs : Nat) (out buf p : Bytes) :
    ∃ out' buf', (Enc.mk buf ⟨out, none⟩).write cs p = (⟨buf', ⟨out', none⟩⟩, true) := by
  by_cases hb : (buf ++ p).length ≥ cs
  · simp only [Enc.write, if_pos hb, write_unlimited]; exact ⟨_, _, rfl⟩
  · simp only [Enc.write, if_neg hb]; exact ⟨_, _, rfl⟩

theorem run_inStep {out₀ : Bytes} {k : Nat} (cs : Nat) (ps : List Bytes) {u w : Sink} (h : InStep out₀ k u w)
    (buf : Bytes) :
    (((Enc.mk buf w).run cs ps).2 = true ∧
      ((Enc.mk buf w).run cs ps).1.buf = ((Enc.mk buf u).run cs ps).1.buf ∧
      InStep out₀ k ((Enc.mk buf u).run cs ps).1.w ((Enc.mk buf w).run cs ps).1.w) ∨
    (((Enc.mk buf w).run cs ps).2 = false ∧
      Failed out₀ k ((Enc.mk buf u).run cs ps).1.w ((Enc.mk buf w).run cs ps).1.w) := by
  induction ps generalizing u w buf with
  | nil => exact .inl ⟨rfl, rfl, h⟩
  | cons p ps ih =>
    have hs := encWrite_inStep h cs buf p
    rw [unl_of_inStep h] at hs ⊢
    obtain ⟨out', buf', hu⟩ := encWrite_unlimited cs u.out buf p
    simp only [Enc.run, hu] at hs ⊢
    rcases hs with ⟨h1, h2, h3⟩ | ⟨h1, h2⟩
    · rcases hx : (Enc.mk buf w).write cs p with ⟨⟨b, w'⟩, t⟩
      rw [hx] at h1 h2 h3
      try simp only at h1 h2 h3
      subst h1 h2
      exact ih h3 _
    · rcases hx : (Enc.mk buf w).write cs p with ⟨⟨b, w'⟩, t⟩
      rw [hx] at h1 h2
      try simp only at h1 h2
      subst h1
      exact .inr ⟨rfl, failed_run h2 cs buf' ps⟩

theorem flush_inStep {out₀ : Bytes} {k : Nat} {u w : Sink} (h : InStep out₀ k u w) (buf : Bytes) :
    ((Enc.mk buf w).flush.2 = true ∧ InStep out₀ k (Enc.mk buf u).flush.1.w (Enc.mk buf w).flush.1.w) ∨
    ((Enc.mk buf w).flush.2 = false ∧ Failed out₀ k (Enc.mk buf u).flush.1.w (Enc.mk buf w).flush.1.w) := by
  have hend : ∀ {u w : Sink}, InStep out₀ k u w →
      ((match w.write EndMessage with
        | (w, true) => ((⟨[], w⟩ : Enc), true)
        | (w, false) => (⟨buf, w⟩, false)).2 = true ∧ InStep out₀ k ⟨u.out ++ EndMessage, none⟩
          (match w.write EndMessage with
        | (w, true) => ((⟨[], w⟩ : Enc), true)
        | (w, false) => (⟨buf, w⟩, false)).1.w) ∨
      ((match w.write EndMessage with
        | (w, true) => ((⟨[], w⟩ : Enc), true)
        | (w, false) => (⟨buf, w⟩, false)).2 = false ∧ Failed out₀ k ⟨u.out ++ EndMessage, none⟩
          (match w.write EndMessage with
        | (w, true) => ((⟨[], w⟩ : Enc), true)
        | (w, false) => (⟨buf, w⟩, false)).1.w) := by
    intro u w h
    rcases write_inStep h EndMessage with ⟨h1, h2⟩ | ⟨h1, h2⟩
    all_goals
      rw [write_inStep_unl h.1] at h2
      generalize w.write EndMessage = x at h1 h2 ⊢
      obtain ⟨w', b⟩ := x
      (try simp only at h1 h2)
      subst h1
    · exact .inl ⟨rfl, h2⟩
    · exact .inr ⟨rfl, h2⟩
  by_cases hb : buf.length > 0
  · simp only [Enc.flush, if_pos hb, write_inStep_unl h.1, write_unlimited]
    rcases write_inStep h (be 2 buf.length) with ⟨h1, h2⟩ | ⟨h1, h2⟩
    · rw [write_inStep_unl h.1] at h2
      generalize w.write (be 2 buf.length) = x at h1 h2 ⊢
      obtain ⟨w', b⟩ := x
      try simp only at h1 h2
      subst h1
      rcases write_inStep h2 buf with ⟨h3, h4⟩ | ⟨h3, h4⟩
      · simp only
        generalize w'.write buf = x at h3 h4 ⊢
        obtain ⟨w'', b⟩ := x
        try simp only at h3 h4
        subst h3
        exact hend h4
      · simp only
        generalize w'.write buf = x at h3 h4 ⊢
        obtain ⟨w'', b⟩ := x
        try simp only at h3 h4
        subst h3
        exact .inr ⟨rfl, failed_more h4 _ _⟩
    · rw [write_inStep_unl h.1] at h2
      generalize w.write (be 2 buf.length) = x at h1 h2 ⊢
      obtain ⟨w', b⟩ := x
      try simp only at h1 h2
      subst h1
      exact .inr ⟨rfl, failed_more (failed_more h2 none _) _ _⟩
  · simp only [Enc.flush, if_neg hb, write_inStep_unl h.1]
    exact hend h

/-- Encoding to a stream that fails after `k` bytes, compared with encoding to one that does not fail. -/
theorem encodeTo_inStep (cs k : Nat) (out : Bytes) (v : Val) :
    ∃ full, (encodeTo cs ⟨out, none⟩ v).1.out = out ++ full ∧
      (encodeTo cs ⟨out, some k⟩ v).1.out = out ++ full.take k ∧
      ((encodeTo cs ⟨out, some k⟩ v).2 = none ↔ (encodeTo cs ⟨out, none⟩ v).2 = none ∧ full.length ≤ k) := by
  have hstep : InStep out k ⟨out, none⟩ ⟨out, some k⟩ := ⟨rfl, rfl, k, rfl, rfl⟩
  have hok : ∀ {u w : Sink} {full : Bytes}, InStep out k u w → u.out = out ++ full →
      w.out = out ++ full.take k ∧ full.length ≤ k := by
    rintro ⟨uo, ub⟩ ⟨wo, wb⟩ full ⟨h1, h2, j, h3, h4⟩ h5
    simp only at h2 h4 h5
    subst h2 h5
    simp only [List.length_append] at h4
    exact ⟨by rw [List.take_of_length_le (by omega)], by omega⟩
  have hko : ∀ {u w : Sink} {full : Bytes}, Failed out k u w → u.out = out ++ full →
      w.out = out ++ full.take k ∧ ¬ full.length ≤ k := by
    rintro ⟨uo, ub⟩ ⟨wo, wb⟩ full ⟨h1, h2⟩ h5
    simp only at h1 h2 h5
    subst h2 h5
    simp only [List.length_append] at h1
    exact ⟨by rw [List.take_length_add_append], by omega⟩
  obtain ⟨cks, buf, hr, -, -, -⟩ := run_unlimited cs (encOps v).writes out []
  have hrun := run_inStep cs (encOps v).writes hstep []
  rw [hr] at hrun
  simp only [encodeTo, hr]
  rcases hrun with ⟨h1, h2, h3⟩ | ⟨h1, h2⟩
  · rcases hx : (Enc.mk [] ⟨out, some k⟩).run cs (encOps v).writes with ⟨⟨b, w'⟩, t⟩
    rw [hx] at h1 h2 h3
    try simp only at h1 h2 h3
    subst h1 h2
    cases he : (encOps v).err with
    | some e =>
      have := hok h3 rfl
      exact ⟨_, rfl, this.1, by simp⟩
    | none =>
      have hf := flush_inStep h3 b
      simp only [flush_unlimited] at hf ⊢
      rcases hf with ⟨h4, h5⟩ | ⟨h4, h5⟩
      · rcases hx : (Enc.mk b w').flush with ⟨⟨b', w''⟩, t⟩
        rw [hx] at h4 h5
        try simp only at h4 h5
        subst h4
        have := hok h5 (List.append_assoc _ _ _)
        exact ⟨_, List.append_assoc _ _ _, this.1, by simpa using this.2⟩
      · rcases hx : (Enc.mk b w').flush with ⟨⟨b', w''⟩, t⟩
        rw [hx] at h4 h5
        try simp only at h4 h5
        subst h4
        have := hko h5 (List.append_assoc _ _ _)
        exact ⟨_, List.append_assoc _ _ _, this.1, by simpa using this.2⟩
  · rcases hx : (Enc.mk [] ⟨out, some k⟩).run cs (encOps v).writes with ⟨⟨b, w'⟩, t⟩
    rw [hx] at h1 h2
    try simp only at h1 h2
    subst h1
    cases he : (encOps v).err with
    | some e =>
      have := hko h2 rfl
      exact ⟨_, rfl, this.1, by simp⟩
    | none =>
      simp only [flush_unlimited]
      have h3 := failed_more h2 none (tailOf buf)
      have := hko h3 (List.append_assoc _ _ _)
      exact ⟨_, List.append_assoc _ _ _, this.1, by simpa using this.2⟩

end Bolt
