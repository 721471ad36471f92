import Verif.Proofs.EncodeMin

/-! Unique readability of PackStream, by a reference parser used only in proofs. -/

namespace Bolt
open PackStream

/-- Split off `n` bytes. -/
def takeN (n : Nat) (bs : Bytes) : Option (Bytes × Bytes) :=
  if bs.length < n then none else some (bs.take n, bs.drop n)

theorem takeN_append {a : Bytes} (r : Bytes) {n : Nat} (h : a.length = n) : takeN n (a ++ r) = some (a, r) := by
  subst h
  simp [takeN]

def rdList (rd : Bytes → Option (PS × Bytes)) : Nat → Bytes → Option (List PS × Bytes)
  | 0, bs => some ([], bs)
  | n + 1, bs => (rd bs).bind fun (x, bs) => (rdList rd n bs).map fun (xs, bs) => (x :: xs, bs)

def rdKVs (rd : Bytes → Option (PS × Bytes)) : Nat → Bytes → Option (List (Bytes × PS) × Bytes)
  | 0, bs => some ([], bs)
  | n + 1, bs => (rd bs).bind fun (k, bs) =>
    match k with
    | .str k => (rd bs).bind fun (x, bs) => (rdKVs rd n bs).map fun (xs, bs) => ((k, x) :: xs, bs)
    | _ => none

def rdBody (rd : Bytes → Option (PS × Bytes)) (k : Kind) (n : Nat) (bs : Bytes) : Option (PS × Bytes) :=
  match k with
  | .str => (takeN n bs).map fun (s, bs) => (.str s, bs)
  | .list => (rdList rd n bs).map fun (xs, bs) => (.list xs, bs)
  | .map => (rdKVs rd n bs).map fun (xs, bs) => (.map xs, bs)
  | .struct =>
    match bs with
    | [] => none
    | sig :: bs => (rdList rd n bs).map fun (xs, bs) => (.struct sig xs, bs)

def rdInt (w : Nat) (bs : Bytes) : Option (PS × Bytes) :=
  (takeN w bs).map fun (a, bs) =>
    (.int (if ofBytes a < 256 ^ w / 2 then ofBytes a else (ofBytes a : Int) - (256 ^ w : Nat)), bs)

def rdSized (rd : Bytes → Option (PS × Bytes)) (k : Kind) (w : Nat) (bs : Bytes) : Option (PS × Bytes) :=
  (takeN w bs).bind fun (a, bs) => rdBody rd k (ofBytes a) bs

def rdMarker (rd : Bytes → Option (PS × Bytes)) (x : Nat) (bs : Bytes) : Option (PS × Bytes) :=
  if x < 0x80 then some (.int x, bs)
  else if x < 0x90 then rdBody rd .str (x - 0x80) bs
  else if x < 0xA0 then rdBody rd .list (x - 0x90) bs
  else if x < 0xB0 then rdBody rd .map (x - 0xA0) bs
  else if x < 0xC0 then rdBody rd .struct (x - 0xB0) bs
  else if x = 0xC0 then some (.null, bs)
  else if x = 0xC1 then (takeN 8 bs).map fun (a, bs) => (.float (UInt64.ofNat (ofBytes a)), bs)
  else if x = 0xC2 then some (.bool false, bs)
  else if x = 0xC3 then some (.bool true, bs)
  else if x = 0xC8 then rdInt 1 bs
  else if x = 0xC9 then rdInt 2 bs
  else if x = 0xCA then rdInt 4 bs
  else if x = 0xCB then rdInt 8 bs
  else if x = 0xD0 then rdSized rd .str 1 bs
  else if x = 0xD1 then rdSized rd .str 2 bs
  else if x = 0xD2 then rdSized rd .str 4 bs
  else if x = 0xD4 then rdSized rd .list 1 bs
  else if x = 0xD5 then rdSized rd .list 2 bs
  else if x = 0xD6 then rdSized rd .list 4 bs
  else if x = 0xD8 then rdSized rd .map 1 bs
  else if x = 0xD9 then rdSized rd .map 2 bs
  else if x = 0xDA then rdSized rd .map 4 bs
  else if x = 0xDC then rdSized rd .struct 1 bs
  else if x = 0xDD then rdSized rd .struct 2 bs
  else if x < 0xF0 then none
  else some (.int ((x : Int) - 256), bs)

def rd : Nat → Bytes → Option (PS × Bytes)
  | 0, _ => none
  | _ + 1, [] => none
  | f + 1, m :: bs => rdMarker (rd f) m.toNat bs

theorem rd_hdr {lim : Nat → Nat} {k : Kind} {n : Nat} {h : Bytes} (hh : Hdr lim k n h) (f : Nat) (r : Bytes) :
    rd (f + 1) (h ++ r) = rdBody (rd f) k n r := by
  rcases hh with ⟨h1, rfl⟩ | ⟨w, m, bs, h1, ⟨h2, h3⟩, _, rfl⟩
  · have hx : (UInt8.ofNat (k.tiny + n)).toNat = k.tiny + n := by
      rw [UInt8.toNat_ofNat']
      cases k <;> simp only [Kind.tiny] <;> omega
    simp only [List.singleton_append, rd, hx]
    cases k <;> simp only [Kind.tiny] <;> unfold rdMarker
    · rw [if_neg (by omega), if_pos (by omega)]; rw [Nat.add_sub_cancel_left]
    · rw [if_neg (by omega), if_neg (by omega), if_pos (by omega)]; rw [Nat.add_sub_cancel_left]
    · rw [if_neg (by omega), if_neg (by omega), if_neg (by omega), if_pos (by omega)]; rw [Nat.add_sub_cancel_left]
    · rw [if_neg (by omega), if_neg (by omega), if_neg (by omega), if_neg (by omega), if_pos (by omega)]
      rw [Nat.add_sub_cancel_left]
  · simp only [List.cons_append, rd]
    unfold Kind.marker at h1
    split at h1 <;> simp only [Option.some.injEq, reduceCtorEq] at h1 <;> subst h1 <;>
      simp [rdMarker, rdSized, takeN_append r h2, h3]

theorem rdInt_eq {w : Nat} {v : Int} {a : Bytes} (h : Signed w v a) (hw : 0 < w) (r : Bytes) :
    rdInt w (a ++ r) = some (.int v, r) := by
  obtain ⟨hl, h1, h2, h3⟩ := h
  have hb := ofBytes_lt a
  rw [hl] at hb
  have he : 256 ^ w % 2 = 0 := by
    cases w with
    | zero => omega
    | succ n => rw [Nat.pow_succ]; omega
  simp only [rdInt, takeN_append r hl, Option.map_some, Option.some.injEq, Prod.mk.injEq, and_true, PS.int.injEq]
  generalize 256 ^ w = M at *
  split at h3 <;> split <;> omega

theorem hdr_pos {lim : Nat → Nat} {k : Kind} {n : Nat} {h : Bytes} (hh : Hdr lim k n h) : 0 < h.length := by
  have := hdr_cases hh
  omega

mutual
theorem rd_packs {lim : Nat → Nat} : (p : PS) → (a r : Bytes) → (f : Nat) → Packs lim p a → a.length ≤ f →
    rd f (a ++ r) = some (p, r)
  | .null, a, r, f, h, hf => by
    simp only [Packs] at h; subst h
    obtain ⟨f, rfl⟩ : ∃ g, f = g + 1 := ⟨f - 1, by simp at hf; omega⟩
    simp [rd, rdMarker]
  | .bool b, a, r, f, h, hf => by
    simp only [Packs] at h; subst h
    obtain ⟨f, rfl⟩ : ∃ g, f = g + 1 := ⟨f - 1, by simp at hf; omega⟩
    cases b <;> simp [rd, rdMarker]
  | .int v, a, r, f, h, hf => by
    simp only [Packs] at h
    have hpos : 0 < f := by
      rcases h with ⟨_, _, h⟩ | ⟨_, rfl, _⟩ | ⟨_, rfl, _⟩ | ⟨_, rfl, _⟩ | ⟨_, rfl, _⟩
      · have := h.1; omega
      all_goals (simp only [List.length_cons] at hf; omega)
    obtain ⟨f, rfl⟩ : ∃ g, f = g + 1 := ⟨f - 1, by omega⟩
    rcases h with ⟨h1, h2, h⟩ | ⟨_, rfl, h⟩ | ⟨_, rfl, h⟩ | ⟨_, rfl, h⟩ | ⟨_, rfl, h⟩
    · obtain ⟨hl, h3, h4, h5⟩ := h
      match a, hl with
      | [m], _ =>
        simp only [ofBytes, List.length_nil, Nat.pow_zero, Nat.mul_one, Nat.add_zero] at h5
        simp only [List.singleton_append, rd]
        have hm := m.toNat_lt
        generalize m.toNat = x at *
        unfold rdMarker
        split at h5
        · iterate 25 rw [if_neg (by omega)]
          simp only [Option.some.injEq, Prod.mk.injEq, PS.int.injEq, and_true]
          omega
        · rw [if_pos (by omega)]
          simp only [Option.some.injEq, Prod.mk.injEq, PS.int.injEq, and_true]
          omega
    · simp [rd, rdMarker, rdInt_eq h]
    · simp [rd, rdMarker, rdInt_eq h]
    · simp [rd, rdMarker, rdInt_eq h]
    · simp [rd, rdMarker, rdInt_eq h]
  | .float d, a, r, f, h, hf => by
    simp only [Packs] at h
    obtain ⟨b, rfl, h1, h2⟩ := h
    obtain ⟨f, rfl⟩ : ∃ g, f = g + 1 := ⟨f - 1, by simp at hf; omega⟩
    simp [rd, rdMarker, takeN_append r h1, h2]
  | .str s, a, r, f, h, hf => by
    simp only [Packs] at h
    obtain ⟨hd, h1, rfl⟩ := h
    have := hdr_pos h1
    obtain ⟨f, rfl⟩ : ∃ g, f = g + 1 := ⟨f - 1, by simp at hf; omega⟩
    rw [List.append_assoc, rd_hdr h1]
    simp [rdBody, takeN_append r]
  | .list xs, a, r, f, h, hf => by
    simp only [Packs] at h
    obtain ⟨hd, body, h1, h2, rfl⟩ := h
    have := hdr_pos h1
    obtain ⟨f, rfl⟩ : ∃ g, f = g + 1 := ⟨f - 1, by simp at hf; omega⟩
    rw [List.append_assoc, rd_hdr h1]
    simp only [rdBody]
    rw [rdList_packs xs body r f h2 (by simp at hf; omega)]
    rfl
  | .map kvs, a, r, f, h, hf => by
    simp only [Packs] at h
    obtain ⟨hd, body, h1, h2, rfl⟩ := h
    have := hdr_pos h1
    obtain ⟨f, rfl⟩ : ∃ g, f = g + 1 := ⟨f - 1, by simp at hf; omega⟩
    rw [List.append_assoc, rd_hdr h1]
    simp only [rdBody]
    rw [rdKVs_packs kvs body r f h2 (by simp at hf; omega)]
    rfl
  | .struct sig fs, a, r, f, h, hf => by
    simp only [Packs] at h
    obtain ⟨hd, body, h1, h2, rfl⟩ := h
    have := hdr_pos h1
    obtain ⟨f, rfl⟩ : ∃ g, f = g + 1 := ⟨f - 1, by simp at hf; omega⟩
    rw [List.append_assoc, rd_hdr h1]
    simp only [rdBody, List.cons_append]
    rw [rdList_packs fs body r f h2 (by simp at hf; omega)]
    rfl

theorem rdList_packs {lim : Nat → Nat} : (ps : List PS) → (a r : Bytes) → (f : Nat) → PacksList lim ps a →
    a.length ≤ f → rdList (rd f) ps.length (a ++ r) = some (ps, r)
  | [], a, r, f, h, _ => by simp only [PacksList] at h; subst h; simp [rdList]
  | p :: ps, a, r, f, h, hf => by
    simp only [PacksList] at h
    obtain ⟨b, c, h1, h2, rfl⟩ := h
    simp only [List.length_append] at hf
    simp only [List.length_cons, rdList, List.append_assoc]
    rw [rd_packs p b (c ++ r) f h1 (by omega), Option.bind_some,
      rdList_packs ps c r f h2 (by omega)]
    rfl

theorem rdKVs_packs {lim : Nat → Nat} : (ps : List (Bytes × PS)) → (a r : Bytes) → (f : Nat) →
    PacksKVs lim ps a → a.length ≤ f → rdKVs (rd f) ps.length (a ++ r) = some (ps, r)
  | [], a, r, f, h, _ => by simp only [PacksKVs] at h; subst h; simp [rdKVs]
  | (k, p) :: ps, a, r, f, h, hf => by
    simp only [PacksKVs] at h
    obtain ⟨hd, b, c, h0, h1, h2, rfl⟩ := h
    simp only [List.length_append] at hf
    simp only [List.length_cons, rdKVs, List.append_assoc]
    have := hdr_pos h0
    obtain ⟨f, rfl⟩ : ∃ g, f = g + 1 := ⟨f - 1, by omega⟩
    rw [rd_hdr h0]
    simp only [rdBody, takeN_append (b ++ (c ++ r)) rfl, Option.map_some, Option.bind_some]
    rw [rd_packs p b (c ++ r) (f + 1) h1 (by omega), Option.bind_some,
      rdKVs_packs ps c r (f + 1) h2 (by omega)]
    rfl
end

/-- Two encodings at the same position of a stream are the same bytes and the same value. -/
theorem packs_unique {lim lim' : Nat → Nat} {p q : PS} {a b r s : Bytes} (ha : Packs lim p a)
    (hb : Packs lim' q b) (h : a ++ r = b ++ s) : p = q ∧ a = b ∧ r = s := by
  have h1 := rd_packs p a r (a.length + b.length) ha (by omega)
  have h2 := rd_packs q b s (a.length + b.length) hb (by omega)
  rw [h, h2] at h1
  simp only [Option.some.injEq, Prod.mk.injEq] at h1
  obtain ⟨rfl, rfl⟩ := h1
  exact ⟨rfl, List.append_cancel_right h, rfl⟩

end Bolt
