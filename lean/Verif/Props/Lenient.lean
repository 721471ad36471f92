import Verif.Proofs.Lenient
import Verif.Props.Decoding

/-!
# C80: what is not PackStream is rejected

`Reads` (Spec/Lenient) is PackStream with three relaxations. `c80_accepts_partial` shows that Decode returns a value exactly for
the streams that begin with a framed payload of `Reads`, `c80_strict_partial` that a value free of the relaxed constructs was
encoded as PackStream says, and `c80_false` that each relaxation, and the bytes left over, do occur.
-/

namespace Bolt
open PackStream Lenient

/-- Whatever bytes are read as one message are a framed message. -/
theorem readFlat_inv {err : GoErr} {f : Nat} {b out p rest : Bytes} (h : readFlat err f b out = .ok (p, rest)) :
    ∃ q w, Framed q w ∧ b = w ++ rest ∧ p = out ++ q := by
  induction f generalizing b out with
  | zero => cases h
  | succ f ih =>
    simp only [readFlat] at h
    by_cases h2 : b.length < 2
    · rw [if_pos h2] at h; cases h
    rw [if_neg h2] at h
    have hl : (b.take 2).length = 2 := by simp; omega
    by_cases hz : beNat (b.take 2) = 0
    · rw [if_pos hz] at h
      cases h
      refine ⟨[], [0, 0], .done, ?_, by simp⟩
      have e : b.take 2 = [0, 0] := by
        match b.take 2, hl, hz with
        | [x, y], _, hz =>
          rw [beNat_eq] at hz
          simp only [ofBytes, List.length_cons, List.length_nil] at hz
          have hx : x.toNat = 0 := by omega
          have hy : y.toNat = 0 := by omega
          rw [show x = 0 from UInt8.toNat_inj.mp hx, show y = 0 from UInt8.toNat_inj.mp hy]
      rw [← e, List.take_append_drop]
    rw [if_neg hz] at h
    by_cases hs : (b.drop 2).length < beNat (b.take 2)
    · rw [if_pos hs] at h; cases h
    rw [if_neg hs] at h
    obtain ⟨q, w, hq, hb, hp⟩ := ih h
    have hc : ((b.drop 2).take (beNat (b.take 2))).length = beNat (b.take 2) := by
      rw [List.length_take]; omega
    refine ⟨_, _, Framed.chunk (c := (b.drop 2).take (beNat (b.take 2))) (hdr := b.take 2) ?_ ⟨hl, ?_⟩ hq, ?_, ?_⟩
    · intro hn; rw [hn] at hc; exact hz hc.symm
    · rw [hc, beNat_eq]
    · rw [List.append_assoc, List.append_assoc, ← hb, List.take_append_drop, List.take_append_drop]
    · rw [hp, List.append_assoc]

/-- C80, exactly: Decode returns `v` if and only if the stream begins with a framed message whose payload begins with an encoding
of `v` in the sense of `Reads`, however the stream is split into reads. -/
theorem c80_accepts_partial (r : Source) (hne : r.NonEmpty) (v : Val) :
    (decodeFrom r).1 = .ok v ↔
      ∃ payload w rest p left, Framed payload w ∧ r.segs.flatten = w ++ rest ∧ Reads p payload left ∧ ofPS p = some v := by
  constructor
  · intro h
    rcases decodeFrom_flat r hne with ⟨e, _, a2, _⟩ | ⟨q, rest, a1, _, _, _, a3⟩
    · rw [a2] at h; cases h
    · obtain ⟨q', w, hq, hb, hp⟩ := readFlat_inv a1
      rw [List.nil_append] at hp
      subst hp
      rw [a3] at h
      cases hd : decodePayload q with
      | error f => rw [hd] at h; cases h
      | ok a =>
        obtain ⟨v', left⟩ := a
        rw [hd] at h
        cases h
        obtain ⟨p, h1, h2⟩ := decodePayload_iff.mp hd
        exact ⟨q, w, rest, p, left, hq, hb, h1, h2⟩
  · rintro ⟨payload, w, rest, p, left, hf, hb, h1, h2⟩
    rw [(c12_one_message hf r hne hb).2.2, decodePayload_iff.mpr ⟨p, h1, h2⟩]

/-- A SUCCESS message in two reads: the theorem says what its payload was. -/
example : ∃ payload w rest p left, Framed payload w ∧ [0x00, 0x03, 0xB1, 0x70, 0xA0, 0x00, 0x00, 0x07] = w ++ rest ∧
    Reads p payload left ∧ ofPS p = some (.success []) :=
  (c80_accepts_partial ⟨[[0x00, 0x03, 0xB1], [0x70, 0xA0, 0x00, 0x00, 0x07]], .eof⟩ (by simp [Source.NonEmpty]) _).mp rfl

/-! ## Without the relaxed constructs -/

mutual
/-- Neither structures nor empty maps. -/
def plain : PS → Bool
  | .list xs => plainList xs
  | .map kvs => !kvs.isEmpty && plainKVs kvs
  | .struct _ _ => false
  | _ => true

def plainList : List PS → Bool
  | [] => true
  | x :: xs => plain x && plainList xs

def plainKVs : List (Bytes × PS) → Bool
  | [] => true
  | (_, x) :: xs => plain x && plainKVs xs
end

mutual
/-- The last thing encoded is a string. -/
def endsStr : PS → Bool
  | .str _ => true
  | .list xs => endsStrList xs
  | .map kvs => endsStrKVs kvs
  | .struct _ fs => endsStrList fs
  | _ => false

def endsStrList : List PS → Bool
  | [] => false
  | [x] => endsStr x
  | _ :: y :: xs => endsStrList (y :: xs)

def endsStrKVs : List (Bytes × PS) → Bool
  | [] => false
  | [(_, x)] => endsStr x
  | _ :: y :: xs => endsStrKVs (y :: xs)
end

theorem hdr_full {k : Kind} {n : Nat} {h : Bytes} (hh : Hdr halfRange k n h) : Hdr fullRange k n h := by
  rcases hh with h1 | ⟨w, m, bs, h1, h2, h3, h4⟩
  · exact .inl h1
  · refine .inr ⟨w, m, bs, h1, h2, ?_, h4⟩
    unfold halfRange at h3
    unfold fullRange
    omega

mutual
theorem packs_of_reads : (p : PS) → (b r : Bytes) → Reads p b r → plain p = true → r ≠ [] ∨ endsStr p = false →
    ∃ a, Packs fullRange p a ∧ b = a ++ r
  | .null, b, r, h, _, _ => by simp only [Reads] at h; exact h
  | .bool _, b, r, h, _, _ => by simp only [Reads] at h; exact h
  | .int _, b, r, h, _, _ => by simp only [Reads] at h; exact h
  | .float _, b, r, h, _, _ => by simp only [Reads] at h; exact h
  | .str s, b, r, h, _, he => by
    simp only [Reads] at h
    obtain ⟨n, hd, h1, rfl, h2 | h2⟩ := h
    · subst h2
      exact ⟨hd ++ s, ⟨hd, hdr_full h1, rfl⟩, rfl⟩
    · rcases he with he | he
      · exact absurd h2.2 he
      · simp [endsStr] at he
  | .list xs, b, r, h, hp, he => by
    simp only [Reads] at h
    obtain ⟨hd, c, h1, rfl, h2⟩ := h
    simp only [plain] at hp
    simp only [endsStr] at he
    obtain ⟨a, h3, rfl⟩ := packsList_of_reads xs c r h2 hp he
    exact ⟨hd ++ a, ⟨hd, a, hdr_full h1, h3, rfl⟩, by simp⟩
  | .map kvs, b, r, h, hp, he => by
    simp only [Reads] at h
    simp only [plain, Bool.and_eq_true, Bool.not_eq_true', List.isEmpty_eq_false_iff] at hp
    simp only [endsStr] at he
    rcases h with ⟨hd, c, h1, rfl, h2⟩ | ⟨h1, _⟩
    · obtain ⟨a, h3, rfl⟩ := packsKVs_of_reads kvs c r h2 hp.2 he
      exact ⟨hd ++ a, ⟨hd, a, hdr_full h1, h3, rfl⟩, by simp⟩
    · exact absurd h1 hp.1
  | .struct _ _, _, _, _, hp, _ => by simp [plain] at hp

theorem packsList_of_reads : (ps : List PS) → (b r : Bytes) → ReadsList ps b r → plainList ps = true → r ≠ [] ∨ endsStrList ps = false →
    ∃ a, PacksList fullRange ps a ∧ b = a ++ r
  | [], b, r, h, _, _ => by simp only [ReadsList] at h; exact ⟨[], rfl, h⟩
  | [p], b, r, h, hp, he => by
    simp only [ReadsList] at h
    obtain ⟨c, h1, rfl⟩ := h
    simp only [plainList, Bool.and_true] at hp
    simp only [endsStrList] at he
    obtain ⟨a, h2, rfl⟩ := packs_of_reads p b c h1 hp he
    exact ⟨a, ⟨a, [], h2, rfl, by simp⟩, rfl⟩
  | p :: q :: ps, b, r, h, hp, he => by
    rw [ReadsList] at h
    obtain ⟨c, h1, h2⟩ := h
    rw [plainList, Bool.and_eq_true] at hp
    simp only [endsStrList] at he
    have hc : c ≠ [] := by
      rw [ReadsList] at h2
      obtain ⟨d, h3, _⟩ := h2
      have := reads_lt q c d h3
      intro hn; subst hn; simp at this
    obtain ⟨a, h4, rfl⟩ := packs_of_reads p b c h1 hp.1 (.inl hc)
    obtain ⟨a', h5, rfl⟩ := packsList_of_reads (q :: ps) c r h2 hp.2 he
    exact ⟨a ++ a', ⟨a, a', h4, h5, rfl⟩, by simp⟩

theorem packsKVs_of_reads : (ps : List (Bytes × PS)) → (b r : Bytes) → ReadsKVs ps b r → plainKVs ps = true →
    r ≠ [] ∨ endsStrKVs ps = false → ∃ a, PacksKVs fullRange ps a ∧ b = a ++ r
  | [], b, r, h, _, _ => by simp only [ReadsKVs] at h; exact ⟨[], rfl, h⟩
  | (k, p) :: ps, b, r, h, hp, he => by
    rw [ReadsKVs] at h
    obtain ⟨c, d, h1, h2, h3⟩ := h
    rw [plainKVs, Bool.and_eq_true] at hp
    have hc : c ≠ [] := by
      have := reads_lt p c d h2
      intro hn; subst hn; simp at this
    have hd : d ≠ [] ∨ endsStr p = false := by
      match ps, h3, he with
      | [], h3, he => simp only [ReadsKVs] at h3; subst h3; simpa only [endsStrKVs] using he
      | (k', q) :: ps', h3, _ =>
        rw [ReadsKVs] at h3
        obtain ⟨c', d', h4, _, _⟩ := h3
        have := reads_lt (.str k') d c' h4
        exact .inl (by intro hn; subst hn; simp at this)
    have he' : r ≠ [] ∨ endsStrKVs ps = false := by
      match ps, he with
      | [], _ => exact .inr (by simp only [endsStrKVs])
      | _ :: _, he => simpa only [endsStrKVs] using he
    obtain ⟨ak, ⟨hk, h5, rfl⟩, rfl⟩ := packs_of_reads (.str k) b c h1 rfl (.inl hc)
    obtain ⟨a, h6, rfl⟩ := packs_of_reads p c d h2 hp.1 hd
    obtain ⟨a', h7, rfl⟩ := packsKVs_of_reads ps d r h3 hp.2 he'
    exact ⟨hk ++ k ++ a ++ a', ⟨hk, a, a', h5, h6, h7, rfl⟩, by simp⟩
end

/-- C80 for scalars, lists and non-empty maps: the value returned is that of a `p` whose encoding, by the rules of PackStream, is
exactly the bytes consumed, unless the payload ended with a string. -/
theorem c80_strict_partial {b r : Bytes} {v : Val} (h : decodePayload b = .ok (v, r)) :
    ∃ p, ofPS p = some v ∧ (plain p = true → r ≠ [] ∨ endsStr p = false → ∃ a, Packs fullRange p a ∧ b = a ++ r) := by
  obtain ⟨p, h1, h2⟩ := decodePayload_iff.mp h
  exact ⟨p, h2, packs_of_reads p b r h1⟩

set_option maxRecDepth 100000 in
/-- The list [1, "a", 2] with one byte after it. -/
example : decodePayload [0x93, 0x01, 0x81, 0x61, 0x02, 0xFF] = .ok (.list [.int .int64 1, .str [0x61], .int .int64 2], [0xFF]) ∧
    plain (.list [.int 1, .str [0x61], .int 2]) = true ∧ endsStr (.list [.int 1, .str [0x61], .int 2]) = false := ⟨rfl, rfl, rfl⟩

/-! ## The relaxations occur -/

theorem hdr_head {lim : Nat → Nat} {k : Kind} {n : Nat} {h c t : Bytes} {x : UInt8} (hh : Hdr lim k n h) (e : x :: t = h ++ c) :
    (n < 16 ∧ x.toNat = k.tiny + n ∧ c = t) ∨ (∃ w bs, k.marker w = some x ∧ Unsigned w n bs ∧ t = bs ++ c) := by
  rcases hh with ⟨h1, rfl⟩ | ⟨w, m, bs, h1, h2, _, rfl⟩
  · simp only [List.cons_append, List.nil_append, List.cons.injEq] at e
    obtain ⟨rfl, rfl⟩ := e
    refine .inl ⟨h1, ?_, rfl⟩
    have : k.tiny ≤ 0xB0 := by cases k <;> decide
    rw [UInt8.toNat_ofNat']
    omega
  · simp only [List.cons_append, List.cons.injEq] at e
    obtain ⟨rfl, rfl⟩ := e
    exact .inr ⟨w, bs, h1, h2, rfl⟩

theorem marker_cases {k : Kind} {w : Nat} {m : UInt8} (h : k.marker w = some m) :
    (k = .str ∧ m.toNat / 4 = 52) ∨ (k = .list ∧ m.toNat / 4 = 53) ∨ (k = .map ∧ m.toNat / 4 = 54) ∨ (k = .struct ∧ m.toNat / 4 = 55) := by
  unfold Kind.marker at h
  split at h <;> cases h <;> simp

theorem map_marker {w : Nat} (h : Kind.map.marker w = some 0xD8) : w = 1 := by
  unfold Kind.marker at h
  split at h <;> simp_all

theorem packs_ne (p : PS) : ¬ Packs fullRange p [] := by
  have hk : ∀ {k : Kind} {n : Nat} {h c : Bytes}, Hdr fullRange k n h → [] ≠ h ++ c := by
    intro k n h c h1 h2
    have := hdr_ne h1
    have := congrArg List.length h2
    simp only [List.length_append, List.length_nil] at this
    omega
  intro h
  cases p with
  | null => simp [Packs] at h
  | bool x => simp [Packs] at h
  | int v => simp [Packs, Signed] at h
  | float f => simp [Packs] at h
  | str s => simp only [Packs] at h; obtain ⟨_, h1, h2⟩ := h; exact hk h1 h2
  | list xs => simp only [Packs] at h; obtain ⟨_, _, h1, _, h2⟩ := h; exact hk h1 h2
  | map xs => simp only [Packs] at h; obtain ⟨_, _, h1, _, h2⟩ := h; exact hk h1 h2
  | struct sig xs => simp only [Packs] at h; obtain ⟨_, _, h1, _, h2⟩ := h; exact hk h1 h2

/-- A string announced as three bytes of which two are there. -/
theorem cut_not_packs (p : PS) : ¬ Packs fullRange p [0x83, 0x61, 0x62] := by
  intro h
  cases p with
  | null => simp [Packs] at h
  | bool x => cases x <;> simp [Packs] at h
  | int v => simp [Packs, Signed] at h
  | float f => simp [Packs] at h
  | str s =>
    simp only [Packs] at h
    obtain ⟨hd, h1, h2⟩ := h
    rcases hdr_head h1 h2 with ⟨_, h3, rfl⟩ | ⟨w, bs, h3, _⟩
    · simp [Kind.tiny] at h3
    · rcases marker_cases h3 with h4 | h4 | h4 | h4 <;> simp at h4
  | list xs =>
    simp only [Packs] at h
    obtain ⟨hd, c, h1, _, h2⟩ := h
    rcases hdr_head h1 h2 with ⟨_, h3, rfl⟩ | ⟨w, bs, h3, _⟩
    · simp [Kind.tiny] at h3; omega
    · rcases marker_cases h3 with h4 | h4 | h4 | h4 <;> simp at h4
  | map xs =>
    simp only [Packs] at h
    obtain ⟨hd, c, h1, _, h2⟩ := h
    rcases hdr_head h1 h2 with ⟨_, h3, rfl⟩ | ⟨w, bs, h3, _⟩
    · simp [Kind.tiny] at h3; omega
    · rcases marker_cases h3 with h4 | h4 | h4 | h4 <;> simp at h4
  | struct sig xs =>
    simp only [Packs] at h
    obtain ⟨hd, c, h1, _, h2⟩ := h
    rcases hdr_head h1 h2 with ⟨_, h3, _⟩ | ⟨w, bs, h3, _⟩
    · simp [Kind.tiny] at h3; omega
    · rcases marker_cases h3 with h4 | h4 | h4 | h4 <;> simp at h4

/-- IGNORED announced with one field and sent with none. -/
theorem fields_not_packs (p : PS) : ¬ Packs fullRange p [0xB1, 0x7E] := by
  intro h
  cases p with
  | null => simp [Packs] at h
  | bool x => cases x <;> simp [Packs] at h
  | int v => simp [Packs, Signed] at h
  | float f => simp [Packs] at h
  | str s =>
    simp only [Packs] at h
    obtain ⟨hd, h1, h2⟩ := h
    rcases hdr_head h1 h2 with ⟨_, h3, rfl⟩ | ⟨w, bs, h3, _⟩
    · simp [Kind.tiny] at h3
    · rcases marker_cases h3 with h4 | h4 | h4 | h4 <;> simp at h4
  | list xs =>
    simp only [Packs] at h
    obtain ⟨hd, c, h1, _, h2⟩ := h
    rcases hdr_head h1 h2 with ⟨_, h3, rfl⟩ | ⟨w, bs, h3, _⟩
    · simp [Kind.tiny] at h3; omega
    · rcases marker_cases h3 with h4 | h4 | h4 | h4 <;> simp at h4
  | map xs =>
    simp only [Packs] at h
    obtain ⟨hd, c, h1, _, h2⟩ := h
    rcases hdr_head h1 h2 with ⟨_, h3, rfl⟩ | ⟨w, bs, h3, _⟩
    · simp [Kind.tiny] at h3; omega
    · rcases marker_cases h3 with h4 | h4 | h4 | h4 <;> simp at h4
  | struct sig xs =>
    simp only [Packs] at h
    obtain ⟨hd, c, h1, h5, h2⟩ := h
    rcases hdr_head h1 h2 with ⟨_, h3, h6⟩ | ⟨w, bs, h3, _⟩
    · simp only [List.cons.injEq] at h6
      obtain ⟨_, rfl⟩ := h6
      match xs, h3, h5 with
      | [], h3, _ => simp [Kind.tiny] at h3
      | x :: xs, _, h5 =>
        simp only [PacksList] at h5
        obtain ⟨a, b, h7, _, h8⟩ := h5
        obtain ⟨rfl, rfl⟩ := List.append_eq_nil_iff.mp h8.symm
        exact packs_ne _ h7
    · rcases marker_cases h3 with h4 | h4 | h4 | h4 <;> simp at h4

/-- A map announced with 128 entries and sent with none. -/
theorem map_not_packs (p : PS) : ¬ Packs fullRange p [0xD8, 0x80] := by
  intro h
  cases p with
  | null => simp [Packs] at h
  | bool x => cases x <;> simp [Packs] at h
  | int v => simp [Packs, Signed] at h
  | float f => simp [Packs] at h
  | str s =>
    simp only [Packs] at h
    obtain ⟨hd, h1, h2⟩ := h
    rcases hdr_head h1 h2 with ⟨_, h3, rfl⟩ | ⟨w, bs, h3, _⟩
    · simp [Kind.tiny] at h3
    · rcases marker_cases h3 with h4 | h4 | h4 | h4 <;> simp at h4
  | list xs =>
    simp only [Packs] at h
    obtain ⟨hd, c, h1, _, h2⟩ := h
    rcases hdr_head h1 h2 with ⟨_, h3, rfl⟩ | ⟨w, bs, h3, _⟩
    · simp [Kind.tiny] at h3; omega
    · rcases marker_cases h3 with h4 | h4 | h4 | h4 <;> simp at h4
  | struct sig xs =>
    simp only [Packs] at h
    obtain ⟨hd, c, h1, _, h2⟩ := h
    rcases hdr_head h1 h2 with ⟨_, h3, _⟩ | ⟨w, bs, h3, _⟩
    · simp [Kind.tiny] at h3; omega
    · rcases marker_cases h3 with h4 | h4 | h4 | h4 <;> simp at h4
  | map xs =>
    simp only [Packs] at h
    obtain ⟨hd, c, h1, h5, h2⟩ := h
    rcases hdr_head h1 h2 with ⟨_, h3, rfl⟩ | ⟨w, bs, h3, h6, h7⟩
    · simp [Kind.tiny] at h3; omega
    · obtain rfl := map_marker h3
      match bs, h6 with
      | [x], h6 =>
        simp only [List.cons_append, List.nil_append, List.cons.injEq] at h7
        obtain ⟨rfl, rfl⟩ := h7
        match xs, h5, h6 with
        | [], _, h6 => simp [Unsigned, ofBytes] at h6
        | (k, v) :: xs, h5, _ =>
          simp only [PacksKVs] at h5
          obtain ⟨h, a, b, h7, _, _, h8⟩ := h5
          have h9 := hdr_ne h7
          have := congrArg List.length h8
          simp only [List.length_append, List.length_nil] at this
          omega

set_option maxRecDepth 100000 in
/-- C80 does not hold as stated: a string cut off by the end of the payload, a structure without the fields it announces, a map
announced with 128 entries and sent with none, and bytes after the value are all accepted. -/
theorem c80_false :
    (decodePayload [0x83, 0x61, 0x62] = .ok (.str [0x61, 0x62], []) ∧ ∀ p, ¬ Packs fullRange p [0x83, 0x61, 0x62]) ∧
    (decodePayload [0xB1, 0x7E] = .ok (.ignored, []) ∧ ∀ p, ¬ Packs fullRange p [0xB1, 0x7E]) ∧
    (decodePayload [0xD8, 0x80] = .ok (.map [], []) ∧ ∀ p, ¬ Packs fullRange p [0xD8, 0x80]) ∧
    (decodePayload [0xC0, 0xDE] = .ok (.nil, [0xDE]) ∧
      (decodeFrom ⟨[[0x00, 0x02, 0xC0, 0xDE, 0x00, 0x00]], .eof⟩).1 = .ok .nil) :=
  ⟨⟨rfl, cut_not_packs⟩, ⟨rfl, fields_not_packs⟩, ⟨rfl, map_not_packs⟩, ⟨rfl, rfl⟩⟩

end Bolt
