import Verif.Proofs.Unique
import Verif.Spec.Histories

/-!
The server of `Spec/Server.lean` can be executed: the reference parser finds exactly the encodings that
`Packs` describes, so `received`, defined by choice, is a function one can compute.
-/

namespace Bolt
open PackStream

theorem takeN_some {n : Nat} {bs a r : Bytes} (h : takeN n bs = some (a, r)) : bs = a ++ r ∧ a.length = n := by
  unfold takeN at h
  split at h
  · cases h
  · cases h
    exact ⟨(List.take_append_drop n bs).symm, by rw [List.length_take]; omega⟩

/-- `rd` only finds encodings. -/
def RdSound (rd : Bytes → Option (PS × Bytes)) : Prop :=
  ∀ bs p r, rd bs = some (p, r) → ∃ a, bs = a ++ r ∧ Packs fullRange p a

theorem rdList_sound {rd : Bytes → Option (PS × Bytes)} (hs : RdSound rd) : ∀ (n : Nat) (bs : Bytes) (xs : List PS) (r : Bytes),
    rdList rd n bs = some (xs, r) → xs.length = n ∧ ∃ a, bs = a ++ r ∧ PacksList fullRange xs a
  | 0, bs, xs, r, h => by cases h; exact ⟨rfl, [], rfl, by simp [PacksList]⟩
  | n + 1, bs, xs, r, h => by
    simp only [rdList, Option.bind_eq_some_iff, Option.map_eq_some_iff, Prod.exists, Prod.mk.injEq] at h
    obtain ⟨x, bs1, h1, xs', r', h2, rfl, rfl⟩ := h
    obtain ⟨a, rfl, ha⟩ := hs _ _ _ h1
    obtain ⟨hl, b, rfl, hb⟩ := rdList_sound hs n _ _ _ h2
    exact ⟨by simp [hl], a ++ b, by simp, a, b, ha, hb, rfl⟩

theorem packs_str {s a : Bytes} (h : Packs fullRange (.str s) a) : ∃ h, Hdr fullRange .str s.length h ∧ a = h ++ s := h

theorem rdKVs_sound {rd : Bytes → Option (PS × Bytes)} (hs : RdSound rd) : ∀ (n : Nat) (bs : Bytes) (xs : List (Bytes × PS)) (r : Bytes),
    rdKVs rd n bs = some (xs, r) → xs.length = n ∧ ∃ a, bs = a ++ r ∧ PacksKVs fullRange xs a
  | 0, bs, xs, r, h => by cases h; exact ⟨rfl, [], rfl, by simp [PacksKVs]⟩
  | n + 1, bs, xs, r, h => by
    simp only [rdKVs, Option.bind_eq_some_iff, Prod.exists] at h
    obtain ⟨k, bs1, h1, h2⟩ := h
    cases k with
    | str k =>
      simp only [Option.bind_eq_some_iff, Option.map_eq_some_iff, Prod.exists, Prod.mk.injEq] at h2
      obtain ⟨x, bs2, h2, xs', r', h3, rfl, rfl⟩ := h2
      obtain ⟨a, rfl, ha⟩ := hs _ _ _ h1
      obtain ⟨b, rfl, hb⟩ := hs _ _ _ h2
      obtain ⟨hl, c, rfl, hc⟩ := rdKVs_sound hs n _ _ _ h3
      obtain ⟨hd, hh, rfl⟩ := packs_str ha
      exact ⟨by simp [hl], hd ++ k ++ b ++ c, by simp, hd, b, c, hh, hb, hc, rfl⟩
    | _ => cases h2

theorem rdBody_sound {rd : Bytes → Option (PS × Bytes)} (hs : RdSound rd) {k : Kind} {n : Nat} {hd bs r : Bytes} {p : PS}
    (hh : Hdr fullRange k n hd) (h : rdBody rd k n bs = some (p, r)) : ∃ a, hd ++ bs = a ++ r ∧ Packs fullRange p a := by
  cases k with
  | str =>
    simp only [rdBody, Option.map_eq_some_iff, Prod.exists, Prod.mk.injEq] at h
    obtain ⟨s, r', h1, rfl, rfl⟩ := h
    obtain ⟨rfl, rfl⟩ := takeN_some h1
    exact ⟨hd ++ s, by simp, hd, hh, rfl⟩
  | list =>
    simp only [rdBody, Option.map_eq_some_iff, Prod.exists, Prod.mk.injEq] at h
    obtain ⟨s, r', h1, rfl, rfl⟩ := h
    obtain ⟨rfl, a, rfl, ha⟩ := rdList_sound hs _ _ _ _ h1
    exact ⟨hd ++ a, by simp, hd, a, hh, ha, rfl⟩
  | map =>
    simp only [rdBody, Option.map_eq_some_iff, Prod.exists, Prod.mk.injEq] at h
    obtain ⟨s, r', h1, rfl, rfl⟩ := h
    obtain ⟨rfl, a, rfl, ha⟩ := rdKVs_sound hs _ _ _ _ h1
    exact ⟨hd ++ a, by simp, hd, a, hh, ha, rfl⟩
  | struct =>
    cases bs with
    | nil => cases h
    | cons sig bs =>
      simp only [rdBody, Option.map_eq_some_iff, Prod.exists, Prod.mk.injEq] at h
      obtain ⟨s, r', h1, rfl, rfl⟩ := h
      obtain ⟨rfl, a, rfl, ha⟩ := rdList_sound hs _ _ _ _ h1
      exact ⟨hd ++ sig :: a, by simp, hd, a, hh, ha, rfl⟩

theorem rdInt_sound {w : Nat} (hw : 0 < w) {bs r : Bytes} {p : PS} (h : rdInt w bs = some (p, r)) : ∃ a v, bs = a ++ r ∧ p = .int v ∧ Signed w v a := by
  simp only [rdInt, Option.map_eq_some_iff, Prod.exists, Prod.mk.injEq] at h
  obtain ⟨a, r', h1, rfl, rfl⟩ := h
  obtain ⟨rfl, hl⟩ := takeN_some h1
  refine ⟨a, _, rfl, rfl, hl, ?_⟩
  have hb := ofBytes_lt a
  rw [hl] at hb
  have he : 256 ^ w % 2 = 0 := by
    cases w with
    | zero => omega
    | succ n => rw [Nat.pow_succ]; omega
  generalize 256 ^ w = M at *
  split <;> (split <;> omega)

theorem rdSized_sound {rd : Bytes → Option (PS × Bytes)} (hs : RdSound rd) {k : Kind} {w : Nat} {m : UInt8} (hm : k.marker w = some m)
    {bs r : Bytes} {p : PS} (h : rdSized rd k w bs = some (p, r)) : ∃ a, m :: bs = a ++ r ∧ Packs fullRange p a := by
  simp only [rdSized, Option.bind_eq_some_iff, Prod.exists] at h
  obtain ⟨a, bs', h1, h2⟩ := h
  obtain ⟨rfl, hl⟩ := takeN_some h1
  have hb := ofBytes_lt a
  rw [hl] at hb
  exact rdBody_sound hs (hd := m :: a) (.inr ⟨w, m, a, hm, ⟨hl, rfl⟩, hb, rfl⟩) h2

theorem tiny_sound {rd : Bytes → Option (PS × Bytes)} (hs : RdSound rd) {k : Kind} {m : UInt8} (h0 : k.tiny ≤ m.toNat) (h1 : m.toNat < k.tiny + 16)
    {bs r : Bytes} {p : PS} (h : rdBody rd k (m.toNat - k.tiny) bs = some (p, r)) : ∃ a, m :: bs = a ++ r ∧ Packs fullRange p a := by
  refine rdBody_sound hs (hd := [m]) (.inl ⟨by omega, ?_⟩) h
  rw [Nat.add_sub_cancel' h0, UInt8.ofNat_toNat]

theorem ite_split {α : Type} {c : Prop} [Decidable c] {a b x : α} (h : (if c then a else b) = x) : c ∧ a = x ∨ ¬c ∧ b = x := by
  by_cases hc : c
  · rw [if_pos hc] at h; exact .inl ⟨hc, h⟩
  · rw [if_neg hc] at h; exact .inr ⟨hc, h⟩

theorem rdMarker_sound {rd : Bytes → Option (PS × Bytes)} (hs : RdSound rd) {m : UInt8} {bs r : Bytes} {p : PS}
    (h : rdMarker rd m.toNat bs = some (p, r)) : ∃ a, m :: bs = a ++ r ∧ Packs fullRange p a := by
  have hmark : ∀ x : UInt8, m.toNat = x.toNat → m = x := fun x hx => UInt8.toNat_inj.mp hx
  have hlt : m.toNat < 256 := m.toNat_lt
  unfold rdMarker at h
  rcases ite_split h with ⟨hx, h⟩ | ⟨hx, h⟩
  · cases h
    exact ⟨[m], rfl, .inl ⟨by omega, by omega, rfl, by omega, by simp; omega, by simp [ofBytes]; omega⟩⟩
  rcases ite_split h with ⟨hx, h⟩ | ⟨hx, h⟩
  · exact tiny_sound hs (k := .str) (by simp only [Kind.tiny]; omega) (by simp only [Kind.tiny]; omega) h
  rcases ite_split h with ⟨hx, h⟩ | ⟨hx, h⟩
  · exact tiny_sound hs (k := .list) (by simp only [Kind.tiny]; omega) (by simp only [Kind.tiny]; omega) h
  rcases ite_split h with ⟨hx, h⟩ | ⟨hx, h⟩
  · exact tiny_sound hs (k := .map) (by simp only [Kind.tiny]; omega) (by simp only [Kind.tiny]; omega) h
  rcases ite_split h with ⟨hx, h⟩ | ⟨hx, h⟩
  · exact tiny_sound hs (k := .struct) (by simp only [Kind.tiny]; omega) (by simp only [Kind.tiny]; omega) h
  rcases ite_split h with ⟨hx, h⟩ | ⟨hx, h⟩
  · cases h; obtain rfl := hmark 0xC0 hx; exact ⟨[0xC0], rfl, by simp [Packs]⟩
  rcases ite_split h with ⟨hx, h⟩ | ⟨hx, h⟩
  · obtain rfl := hmark 0xC1 hx
    obtain ⟨⟨a, r'⟩, h1, h2⟩ := Option.map_eq_some_iff.mp h
    cases h2
    obtain ⟨rfl, hl⟩ := takeN_some h1
    have hb := ofBytes_lt a
    rw [hl] at hb
    refine ⟨0xC1 :: a, rfl, a, rfl, hl, ?_⟩
    rw [UInt64.toNat_ofNat', Nat.mod_eq_of_lt (by simpa using hb)]
  rcases ite_split h with ⟨hx, h⟩ | ⟨hx, h⟩
  · cases h; obtain rfl := hmark 0xC2 hx; exact ⟨[0xC2], rfl, by simp [Packs]⟩
  rcases ite_split h with ⟨hx, h⟩ | ⟨hx, h⟩
  · cases h; obtain rfl := hmark 0xC3 hx; exact ⟨[0xC3], rfl, by simp [Packs]⟩
  rcases ite_split h with ⟨hx, h⟩ | ⟨hx, h⟩
  · obtain rfl := hmark 0xC8 hx
    obtain ⟨a, v, rfl, rfl, hv⟩ := rdInt_sound (by omega) h
    exact ⟨_ :: a, rfl, .inr (.inl ⟨a, rfl, hv⟩)⟩
  rcases ite_split h with ⟨hx, h⟩ | ⟨hx, h⟩
  · obtain rfl := hmark 0xC9 hx
    obtain ⟨a, v, rfl, rfl, hv⟩ := rdInt_sound (by omega) h
    exact ⟨_ :: a, rfl, .inr (.inr (.inl ⟨a, rfl, hv⟩))⟩
  rcases ite_split h with ⟨hx, h⟩ | ⟨hx, h⟩
  · obtain rfl := hmark 0xCA hx
    obtain ⟨a, v, rfl, rfl, hv⟩ := rdInt_sound (by omega) h
    exact ⟨_ :: a, rfl, .inr (.inr (.inr (.inl ⟨a, rfl, hv⟩)))⟩
  rcases ite_split h with ⟨hx, h⟩ | ⟨hx, h⟩
  · obtain rfl := hmark 0xCB hx
    obtain ⟨a, v, rfl, rfl, hv⟩ := rdInt_sound (by omega) h
    exact ⟨_ :: a, rfl, .inr (.inr (.inr (.inr ⟨a, rfl, hv⟩)))⟩
  iterate 11
    rcases ite_split h with ⟨hx, h⟩ | ⟨hx, h⟩
    · first
        | (obtain rfl := hmark 0xD0 hx; exact rdSized_sound hs (k := .str) (w := 1) rfl h)
        | (obtain rfl := hmark 0xD1 hx; exact rdSized_sound hs (k := .str) (w := 2) rfl h)
        | (obtain rfl := hmark 0xD2 hx; exact rdSized_sound hs (k := .str) (w := 4) rfl h)
        | (obtain rfl := hmark 0xD4 hx; exact rdSized_sound hs (k := .list) (w := 1) rfl h)
        | (obtain rfl := hmark 0xD5 hx; exact rdSized_sound hs (k := .list) (w := 2) rfl h)
        | (obtain rfl := hmark 0xD6 hx; exact rdSized_sound hs (k := .list) (w := 4) rfl h)
        | (obtain rfl := hmark 0xD8 hx; exact rdSized_sound hs (k := .map) (w := 1) rfl h)
        | (obtain rfl := hmark 0xD9 hx; exact rdSized_sound hs (k := .map) (w := 2) rfl h)
        | (obtain rfl := hmark 0xDA hx; exact rdSized_sound hs (k := .map) (w := 4) rfl h)
        | (obtain rfl := hmark 0xDC hx; exact rdSized_sound hs (k := .struct) (w := 1) rfl h)
        | (obtain rfl := hmark 0xDD hx; exact rdSized_sound hs (k := .struct) (w := 2) rfl h)
  rcases ite_split h with ⟨hx, h⟩ | ⟨hx, h⟩
  · cases h
  · cases h
    refine ⟨[m], rfl, .inl ⟨by omega, by omega, rfl, by simp; omega, by simp; omega, ?_⟩⟩
    rw [if_pos (by omega)]
    simp [ofBytes]

theorem rd_sound : ∀ f, RdSound (rd f)
  | 0, _, _, _, h => by cases h
  | f + 1, [], _, _, h => by cases h
  | f + 1, m :: bs, _, _, h => rdMarker_sound (rd_sound f) h

/-- The request in a payload, computed. -/
def readReq (p : Bytes) : Req :=
  match rd p.length p with
  | some (q, []) => PS.req q
  | _ => .invalid

theorem received_eq (p : Bytes) : received p = readReq p := by
  unfold received readReq
  split
  · rename_i h
    have h1 := rd_packs _ _ [] p.length h.choose_spec (Nat.le_refl _)
    rw [List.append_nil] at h1
    rw [h1]
  · rename_i h
    split
    · rename_i q hq
      obtain ⟨a, ha, hp⟩ := rd_sound _ _ _ _ hq
      rw [List.append_nil] at ha
      exact absurd ⟨q, ha ▸ hp⟩ h
    · rfl

/-- `DB.absorb`, computed. -/
def DB.absorbs {δ : Type} (D : DB δ) : Nat → δ → Mode → Bytes → Srv δ × List Val
  | 0, d, m, bs => (⟨d, m, bs⟩, [])
  | f + 1, d, m, bs =>
    match deframe bs.length bs with
    | none => (⟨d, m, bs⟩, [])
    | some (p, rest) =>
      let h := D.handle d m (readReq p)
      let t := D.absorbs f h.1 h.2.1 rest
      (t.1, h.2.2 ++ t.2)

theorem absorb_eq {δ : Type} (D : DB δ) : ∀ (f : Nat) (d : δ) (m : Mode) (bs : Bytes), D.absorb f d m bs = D.absorbs f d m bs
  | 0, _, _, _ => rfl
  | f + 1, d, m, bs => by
    unfold DB.absorb DB.absorbs
    cases deframe bs.length bs with
    | none => rfl
    | some x => simp only [received_eq, absorb_eq D f]

/-- `DB.peer`, computed. -/
def DB.server {δ : Type} (D : DB δ) : Peer (Srv δ) where
  react s bs :=
    let r := D.absorbs (s.pending ++ bs).length s.db s.mode (s.pending ++ bs)
    (r.1, r.2.map .val)
  ended s := match s.mode with | .gone => true | _ => false

theorem peer_eq {δ : Type} (D : DB δ) : D.peer = D.server := by
  unfold DB.peer DB.server
  simp only [absorb_eq]
  rfl

/-! A digest of results, to compare results of histories by evaluation. -/

/-- The values the example databases use, as numbers. -/
def Val.digest : Val → List _root_.Int
  | .nil => [0]
  | .bool b => [1, if b then 1 else 0]
  | .int _ v => [2, v]
  | .str s => 3 :: s.map fun x => (x.toNat : _root_.Int)
  | _ => [4]

def kvsDigest (l : KVs) : List _root_.Int := l.flatMap fun x => (x.1.map fun b => (b.toNat : _root_.Int)) ++ x.2.digest

def Res.digest : Res → List _root_.Int
  | .localError => [0]
  | .failure md => 1 :: kvsDigest md
  | .done => [2]
  | .summary md => 3 :: kvsDigest md
  | .summaries mds => 4 :: mds.flatMap kvsDigest
  | .rows h => 5 :: kvsDigest h
  | .row fs => 6 :: fs.flatMap Val.digest
  | .eof md => 7 :: kvsDigest md
  | .data rs h md => 8 :: rs.flatten.flatMap Val.digest ++ kvsDigest h ++ kvsDigest md
  | .all rs md => 9 :: rs.flatten.flatMap Val.digest ++ kvsDigest md
  | .next h md => 10 :: kvsDigest h ++ kvsDigest md
  | .pipeEnd => [11]

end Bolt
