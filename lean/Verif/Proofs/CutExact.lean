import Verif.Proofs.RoundExact
import Verif.Spec.Shorten

/-! # Cut payloads that are accepted (auxiliary lemmas for C16) -/

namespace Bolt
open PackStream Lenient

theorem reads_nil (p : PS) (r : Bytes) : ¬ Reads p [] r := by
  have hk : ∀ {lim : Nat → Nat} {k : Kind} {n : Nat} {h c : Bytes}, Hdr lim k n h → [] ≠ h ++ c := by
    intro lim k n h c h1 h2
    rcases h1 with ⟨_, rfl⟩ | ⟨_, _, _, _, _, _, rfl⟩ <;> simp at h2
  intro h
  cases p with
  | str s => simp only [Reads] at h; obtain ⟨_, _, h1, h2, _⟩ := h; exact hk h1 (by rw [List.append_assoc] at h2; exact h2)
  | list xs => simp only [Reads] at h; obtain ⟨_, _, h1, h2, _⟩ := h; exact hk h1 h2
  | map kvs =>
    simp only [Reads] at h
    rcases h with ⟨_, _, h1, h2, _⟩ | ⟨_, _, _, _, _, _, _, _, h2⟩
    · exact hk h1 h2
    · simp at h2
  | struct sig fs => simp only [Reads] at h; obtain ⟨_, _, _, h1, h2, _⟩ := h; exact hk h1 h2
  | _ =>
    simp only [Reads] at h
    obtain ⟨a, h1, h2⟩ := h
    obtain ⟨rfl, _⟩ := List.append_eq_nil_iff.mp h2.symm
    exact packs_ne _ h1

/-- Nothing is read from part of a header. -/
theorem reads_part {k : Kind} {n n' : Nat} {h h' pre s c : Bytes} {lim lim' : Nat → Nat} (h1 : Hdr lim k n h) (h2 : Hdr lim' k n' h')
    (e1 : h = pre ++ s) (hs : s ≠ []) (e2 : pre = h' ++ c) : False := by
  have e : h ++ [] = h' ++ (c ++ s) := by rw [List.append_nil, e1, e2, List.append_assoc]
  have := (hdr_unique h1 h2 e).2.2
  have h3 := List.append_eq_nil_iff.mp this.symm
  exact hs h3.2

/-! ## The first byte says what follows -/

/-- The kind of value a first byte announces, `none` for values without size. -/
def announced (n : Nat) : Option Kind :=
  if n / 16 = 8 ∨ n / 4 = 52 then some .str
  else if n / 16 = 9 ∨ n / 4 = 53 then some .list
  else if n / 16 = 10 ∨ n / 4 = 54 then some .map
  else if n / 16 = 11 ∨ n / 4 = 55 then some .struct
  else none

/-- The kind of a value. -/
def kindOf : PS → Option Kind
  | .str _ => some .str
  | .list _ => some .list
  | .map _ => some .map
  | .struct .. => some .struct
  | _ => none

theorem hdr_announced {lim : Nat → Nat} {k : Kind} {n : Nat} {h c t : Bytes} {x : UInt8} (hh : Hdr lim k n h) (e : x :: t = h ++ c) :
    announced x.toNat = some k := by
  have hb := x.toNat_lt
  rcases hdr_head hh e with ⟨h1, h2, _⟩ | ⟨w, bs, h1, _⟩
  · cases k <;> simp only [Kind.tiny] at h2 <;> unfold announced <;> simp only [h2] <;> (repeat' split) <;> first | rfl | omega
  · rcases marker_cases h1 with ⟨rfl, h2⟩ | ⟨rfl, h2⟩ | ⟨rfl, h2⟩ | ⟨rfl, h2⟩ <;> unfold announced <;>
      (repeat' split) <;> first | rfl | omega

theorem plain_announced {p : PS} {a t r : Bytes} {x : UInt8} (hk : kindOf p = none) (hp : Packs fullRange p a) (e : x :: t = a ++ r) :
    announced x.toNat = none := by
  cases p with
  | null => simp only [Packs] at hp; subst hp; simp only [List.cons_append, List.cons.injEq] at e; rw [e.1]; rfl
  | bool b => simp only [Packs] at hp; subst hp; simp only [List.cons_append, List.cons.injEq] at e; rw [e.1]; cases b <;> rfl
  | float d => simp only [Packs] at hp; obtain ⟨_, rfl, _⟩ := hp; simp only [List.cons_append, List.cons.injEq] at e; rw [e.1]; rfl
  | int n =>
    simp only [Packs] at hp
    rcases hp with ⟨h1, h2, h⟩ | ⟨_, rfl, h⟩ | ⟨_, rfl, h⟩ | ⟨_, rfl, h⟩ | ⟨_, rfl, h⟩
    · obtain ⟨hl, h⟩ := h
      match a, hl with
      | [y], _ =>
        simp only [List.cons_append, List.cons.injEq] at e
        obtain ⟨rfl, _⟩ := e
        have hb := x.toNat_lt
        have h3 : x.toNat < 128 ∨ 240 ≤ x.toNat := by
          simp [ofBytes] at h
          omega
        unfold announced
        (repeat' split) <;> first | rfl | omega
    all_goals simp only [List.cons_append, List.cons.injEq] at e; rw [e.1]; rfl
  | str s => cases hk
  | list l => cases hk
  | map m => cases hk
  | struct s f => cases hk

theorem reads_announced {p : PS} {t r : Bytes} {x : UInt8} (h : Reads p (x :: t) r) : announced x.toNat = kindOf p := by
  cases p with
  | str s => simp only [Reads] at h; obtain ⟨_, _, h1, h2, _⟩ := h; rw [List.append_assoc] at h2; exact hdr_announced h1 h2
  | list xs => simp only [Reads] at h; obtain ⟨_, _, h1, h2, _⟩ := h; exact hdr_announced h1 h2
  | map kvs =>
    simp only [Reads] at h
    rcases h with ⟨_, _, h1, h2, _⟩ | ⟨_, w, n, m, bs, h1, h3, _, h2⟩
    · exact hdr_announced h1 h2
    · have hu : Hdr fullRange .map n (m :: bs) := .inr ⟨w, m, bs, h1, h3, by rw [← h3.2, ← h3.1]; exact ofBytes_lt bs, rfl⟩
      exact hdr_announced hu h2
  | struct sig fs => simp only [Reads] at h; obtain ⟨_, _, _, h1, h2, _⟩ := h; exact hdr_announced h1 h2
  | _ =>
    simp only [Reads] at h
    obtain ⟨a, h1, h2⟩ := h
    exact plain_announced rfl h1 h2

theorem reads_kind {lim : Nat → Nat} {k : Kind} {n : Nat} {h c r : Bytes} {p : PS} (hh : Hdr lim k n h) (hr : Reads p (h ++ c) r) :
    kindOf p = some k := by
  cases e : h ++ c with
  | nil => rw [e] at hr; exact absurd hr (reads_nil _ _)
  | cons x t =>
    rw [e] at hr
    rw [← reads_announced hr]
    exact hdr_announced hh e.symm

theorem list_head {lim : Nat → Nat} {n : Nat} {h c r : Bytes} {q : PS} (hh : Hdr lim .list n h) (hr : Reads q (h ++ c) r) :
    ∃ qs, q = .list qs := by
  have := reads_kind hh hr
  cases q <;> simp [kindOf] at this ⊢
theorem map_head {lim : Nat → Nat} {n : Nat} {h c r : Bytes} {q : PS} (hh : Hdr lim .map n h) (hr : Reads q (h ++ c) r) :
    ∃ qs, q = .map qs := by
  have := reads_kind hh hr
  cases q <;> simp [kindOf] at this ⊢
theorem struct_head {lim : Nat → Nat} {n : Nat} {h c r : Bytes} {q : PS} (hh : Hdr lim .struct n h) (hr : Reads q (h ++ c) r) :
    ∃ sg gs, q = .struct sg gs := by
  have := reads_kind hh hr
  cases q <;> simp [kindOf] at this ⊢

theorem hdr_not_big {k : Kind} {n w n' : Nat} {m : UInt8} {bs h a b : Bytes} (h1 : Hdr halfRange k n h) (h2 : k.marker w = some m)
    (h3 : Unsigned w n' bs) (h4 : halfRange w ≤ n') (e : h ++ a = m :: bs ++ b) : False := by
  have hu : Hdr fullRange k n' (m :: bs) := .inr ⟨w, m, bs, h2, h3, by rw [← h3.2, ← h3.1]; exact ofBytes_lt bs, rfl⟩
  obtain ⟨rfl, rfl, _⟩ := hdr_unique h1 hu e
  rcases h1 with ⟨h5, h6⟩ | ⟨w', m', bs', h5, h6, h7, h8⟩
  · simp only [List.cons.injEq] at h6
    exact tiny_not_marker h5 h2 h6.1.symm
  · simp only [List.cons.injEq] at h8
    obtain ⟨rfl, rfl⟩ := h8
    have := marker_inj h2 h5
    subst this
    omega

theorem structOf_length {sig : UInt8} {xs ys : List Val} {v w : Val} (h1 : structOf sig xs = some v) (h2 : structOf sig ys = some w) :
    xs.length = ys.length := by
  unfold structOf at h1 h2
  by_cases h : sig = 0x4E
  · rw [if_pos h] at h1 h2
    split at h1 <;> [skip; cases h1]
    split at h2 <;> [skip; cases h2]
    rfl
  rw [if_neg h] at h1 h2
  by_cases h : sig = 0x52
  · rw [if_pos h] at h1 h2
    split at h1 <;> [skip; cases h1]
    split at h2 <;> [skip; cases h2]
    rfl
  rw [if_neg h] at h1 h2
  by_cases h : sig = 0x72
  · rw [if_pos h] at h1 h2
    split at h1 <;> [skip; cases h1]
    split at h2 <;> [skip; cases h2]
    rfl
  rw [if_neg h] at h1 h2
  by_cases h : sig = 0x50
  · rw [if_pos h] at h1 h2
    split at h1 <;> [skip; cases h1]
    split at h2 <;> [skip; cases h2]
    rfl
  rw [if_neg h] at h1 h2
  by_cases h : sig = 0x71
  · rw [if_pos h] at h1 h2
    split at h1 <;> [skip; cases h1]
    split at h2 <;> [skip; cases h2]
    rfl
  rw [if_neg h] at h1 h2
  by_cases h : sig = 0x70
  · rw [if_pos h] at h1 h2
    split at h1 <;> [skip; cases h1]
    split at h2 <;> [skip; cases h2]
    rfl
  rw [if_neg h] at h1 h2
  by_cases h : sig = 0x7F
  · rw [if_pos h] at h1 h2
    split at h1 <;> [skip; cases h1]
    split at h2 <;> [skip; cases h2]
    rfl
  rw [if_neg h] at h1 h2
  by_cases hx : xs = []
  · by_cases hy : ys = []
    · rw [hx, hy]
    · rw [if_neg (by simpa using hy)] at h2; cases h2
  · rw [if_neg (by simpa using hx)] at h1; cases h1

theorem singleton_cut {x : UInt8} {pre suf : Bytes} (h : [x] = pre ++ suf) (hs : suf ≠ []) : pre = [] := by
  cases pre with
  | nil => rfl
  | cons y pre => simp only [List.cons_append, List.cons.injEq] at h; have := List.append_eq_nil_iff.mp h.2.symm; exact absurd this.2 hs

/-- A value without header, cut: nothing can be read from the part. -/
theorem plain_cut {p q : PS} {pre suf r : Bytes} {v w : Val} (hp : Packs halfRange p (pre ++ suf)) (hv : ofPS p = some v) (hs : suf ≠ [])
    (he : p.endsInString = false) (hr : Reads q pre r) (hw : ofPS q = some w) : False := by
  obtain ⟨e, h⟩ := (c16_cut_payload_partial hp hv hs).1 he
  rw [decodePayload_iff.mpr ⟨q, hr, hw⟩] at h
  cases h

mutual
/-- If anything can be read from a proper part, only bytes of the final string are missing. -/
theorem cut_read : (p : PS) → (pre suf r : Bytes) → (q : PS) → (v w : Val) → Packs halfRange p (pre ++ suf) → suf ≠ [] → ofPS p = some v →
    Reads q pre r → ofPS q = some w → suf.length ≤ p.lastText.length ∧ r = []
  | .null, pre, suf, r, q, v, w, hp, hs, hv, hr, hw => (plain_cut hp hv hs rfl hr hw).elim
  | .bool _, pre, suf, r, q, v, w, hp, hs, hv, hr, hw => (plain_cut hp hv hs rfl hr hw).elim
  | .int _, pre, suf, r, q, v, w, hp, hs, hv, hr, hw => (plain_cut hp hv hs rfl hr hw).elim
  | .float _, pre, suf, r, q, v, w, hp, hs, hv, hr, hw => (plain_cut hp hv hs rfl hr hw).elim
  | .str s, pre, suf, r, q, v, w, hp, hs, hv, hr, hw => by
    have hd := decodePayload_iff.mpr ⟨q, hr, hw⟩
    have hc := (c16_cut_payload_partial hp hv hs).2
    simp only [Packs] at hp
    obtain ⟨h, h1, h2⟩ := hp
    rcases cut_append h2.symm hs with ⟨pre', rfl, h3⟩ | ⟨s', hs', h3⟩
    · refine ⟨?_, ?_⟩
      · simp only [PS.lastText, h3, List.length_append]; omega
      · rw [hd] at hc
        rcases hc with ⟨e, hc⟩ | ⟨v', hc⟩ <;> cases hc
        rfl
    · exfalso
      obtain ⟨e, he⟩ := hdr_cut h1 h3 hs' (f := pre.length + 1) (by omega)
      have : decodePayload pre = .error (.err e) := he
      rw [hd] at this; cases this
  | .list ps, pre, suf, r, q, v, w, hp, hs, hv, hr, hw => by
    simp only [ofPS, Option.map_eq_some_iff] at hv; obtain ⟨ys, hv, rfl⟩ := hv
    simp only [Packs] at hp
    obtain ⟨h, body, h1, h2, h3⟩ := hp
    rcases cut_append h3.symm hs with ⟨pre', rfl, rfl⟩ | ⟨s', hs', h4⟩
    · obtain ⟨qs, rfl⟩ : ∃ qs, q = .list qs := list_head h1 hr
      simp only [ofPS, Option.map_eq_some_iff] at hw; obtain ⟨ws, hw, rfl⟩ := hw
      simp only [Reads] at hr
      obtain ⟨h', c, h5, h6, h7⟩ := hr
      obtain ⟨h8, rfl, rfl⟩ := hdr_unique h1 h5 h6
      exact cut_readList ps pre' suf r qs ys ws h2 hs hv h7 hw h8
    · exfalso
      obtain ⟨e, he⟩ := hdr_cut h1 h4 hs' (f := pre.length + 1) (by omega)
      have hd := decodePayload_iff.mpr ⟨q, hr, hw⟩
      have : decodePayload pre = .error (.err e) := he
      rw [hd] at this; cases this
  | .map ps, pre, suf, r, q, v, w, hp, hs, hv, hr, hw => by
    simp only [ofPS, Option.map_eq_some_iff] at hv; obtain ⟨ys, hv, rfl⟩ := hv
    simp only [Packs] at hp
    obtain ⟨h, body, h1, h2, h3⟩ := hp
    rcases cut_append h3.symm hs with ⟨pre', rfl, rfl⟩ | ⟨s', hs', h4⟩
    · obtain ⟨qs, rfl⟩ : ∃ qs, q = .map qs := map_head h1 hr
      simp only [ofPS, Option.map_eq_some_iff] at hw; obtain ⟨ws, hw, rfl⟩ := hw
      simp only [Reads] at hr
      rcases hr with ⟨h', c, h5, h6, h7⟩ | ⟨_, w, n, m, bs, h5, h6, h7, h8⟩
      · obtain ⟨h8, rfl, rfl⟩ := hdr_unique h1 h5 h6
        exact cut_readKVs ps pre' suf r qs ys ws h2 hs hv h7 hw h8
      · exact (hdr_not_big h1 h5 h6 h7 h8).elim
    · exfalso
      obtain ⟨e, he⟩ := hdr_cut h1 h4 hs' (f := pre.length + 1) (by omega)
      have hd := decodePayload_iff.mpr ⟨q, hr, hw⟩
      have : decodePayload pre = .error (.err e) := he
      rw [hd] at this; cases this
  | .struct sig fs, pre, suf, r, q, v, w, hp, hs, hv, hr, hw => by
    have hd := decodePayload_iff.mpr ⟨q, hr, hw⟩
    simp only [ofPS, Option.bind_eq_some_iff] at hv; obtain ⟨xs, hv, hx⟩ := hv
    simp only [Packs] at hp
    obtain ⟨h, body, h1, h2, h3⟩ := hp
    rcases cut_append h3.symm hs with ⟨pre', rfl, h4⟩ | ⟨s', hs', h4⟩
    · obtain ⟨sg, gs, rfl⟩ : ∃ sg gs, q = .struct sg gs := struct_head h1 hr
      simp only [ofPS, Option.bind_eq_some_iff] at hw; obtain ⟨ws, hw, hy⟩ := hw
      simp only [Reads] at hr
      obtain ⟨n, h', c, h5, h6, h7⟩ := hr
      obtain ⟨_, rfl, rfl⟩ := hdr_unique h1 h5 h6
      simp only [List.cons_append, List.cons.injEq] at h4
      obtain ⟨rfl, rfl⟩ := h4
      have hl := structOf_length hx hy
      rw [ofPSList_length hv, ofPSList_length hw] at hl
      exact cut_readList fs c suf r gs xs ws h2 hs hv h7 hw hl
    · exfalso
      obtain ⟨e, he⟩ := hdr_cut h1 h4 hs' (f := pre.length + 1) (by omega)
      have : decodePayload pre = .error (.err e) := he
      rw [hd] at this; cases this

theorem cut_readList : (ps : List PS) → (pre suf r : Bytes) → (qs : List PS) → (ys ws : List Val) → PacksList halfRange ps (pre ++ suf) →
    suf ≠ [] → ofPSList ps = some ys → ReadsList qs pre r → ofPSList qs = some ws → ps.length = qs.length →
    suf.length ≤ (PS.lastTextList ps).length ∧ r = []
  | [], pre, suf, r, qs, ys, ws, hp, hs, _, _, _, _ => by
    simp only [PacksList] at hp
    exact absurd (List.append_eq_nil_iff.mp hp).2 hs
  | p :: ps, pre, suf, r, [], ys, ws, hp, hs, hv, hr, hw, hl => by simp at hl
  | p :: ps, pre, suf, r, q :: qs, ys, ws, hp, hs, hv, hr, hw, hl => by
    simp only [ofPSList, Option.bind_eq_some_iff, Option.map_eq_some_iff] at hv hw
    obtain ⟨y, hv, zs, hv', rfl⟩ := hv
    obtain ⟨x, hw, xs, hw', rfl⟩ := hw
    simp only [PacksList] at hp
    obtain ⟨b, c, h1, h2, h3⟩ := hp
    simp only [ReadsList] at hr
    obtain ⟨d, h4, h5⟩ := hr
    simp only [List.length_cons, Nat.add_right_cancel_iff] at hl
    rcases cut_append h3.symm hs with ⟨pre', rfl, rfl⟩ | ⟨s', hs', rfl⟩
    · obtain ⟨_, rfl⟩ := reads_det h1 hv h4 hw
      have := cut_readList ps d suf r qs zs xs h2 hs hv' h5 hw' hl
      cases ps with
      | nil => simp only [PS.lastTextList, List.length_nil] at this; exact absurd (List.length_eq_zero_iff.mp (by omega)) hs
      | cons p' ps => simpa only [PS.lastTextList] using this
    · obtain ⟨h6, rfl⟩ := cut_read p pre s' d q y x h1 hs' hv h4 hw
      cases qs with
      | cons q' qs => simp only [ReadsList] at h5; obtain ⟨_, h5, _⟩ := h5; exact absurd h5 (reads_nil _ _)
      | nil =>
        cases ps with
        | cons p' ps => simp at hl
        | nil =>
          simp only [PacksList] at h2; subst h2
          simp only [ReadsList] at h5
          rw [List.append_nil, List.append_cancel_left_eq] at h3
          subst h3
          exact ⟨by simpa only [PS.lastTextList] using h6, h5.symm⟩

theorem cut_readKVs : (ps : List (Bytes × PS)) → (pre suf r : Bytes) → (qs : List (Bytes × PS)) → (ys ws : List (Str × Val)) →
    PacksKVs halfRange ps (pre ++ suf) → suf ≠ [] → ofPSKVs ps = some ys → ReadsKVs qs pre r → ofPSKVs qs = some ws →
    ps.length = qs.length → suf.length ≤ (PS.lastTextKVs ps).length ∧ r = []
  | [], pre, suf, r, qs, ys, ws, hp, hs, _, _, _, _ => by
    simp only [PacksKVs] at hp
    exact absurd (List.append_eq_nil_iff.mp hp).2 hs
  | p :: ps, pre, suf, r, [], ys, ws, hp, hs, hv, hr, hw, hl => by simp at hl
  | (k, p) :: ps, pre, suf, r, (k', q) :: qs, ys, ws, hp, hs, hv, hr, hw, hl => by
    simp only [ofPSKVs, Option.bind_eq_some_iff, Option.map_eq_some_iff] at hv hw
    obtain ⟨y, hv, zs, hv', rfl⟩ := hv
    obtain ⟨x, hw, xs, hw', rfl⟩ := hw
    simp only [PacksKVs] at hp
    obtain ⟨h, b, c, h0, h1, h2, h3⟩ := hp
    simp only [ReadsKVs] at hr
    obtain ⟨d, e, hk, h4, h5⟩ := hr
    simp only [List.length_cons, Nat.add_right_cancel_iff] at hl
    have hk1 : Packs halfRange (.str k) (h ++ k) := by simp only [Packs]; exact ⟨h, h0, rfl⟩
    rw [show h ++ k ++ b ++ c = (h ++ k) ++ (b ++ c) by simp] at h3
    rcases cut_append h3.symm hs with ⟨pre1, rfl, h6⟩ | ⟨s', hs', h6⟩
    · obtain ⟨_, rfl⟩ := reads_det (v := .str k) (w := .str k') hk1 rfl hk rfl
      rcases cut_append h6 hs with ⟨pre', rfl, rfl⟩ | ⟨s', hs', rfl⟩
      · obtain ⟨_, rfl⟩ := reads_det h1 hv h4 hw
        have := cut_readKVs ps e suf r qs zs xs h2 hs hv' h5 hw' hl
        cases ps with
        | nil => simp only [PS.lastTextKVs, List.length_nil] at this; exact absurd (List.length_eq_zero_iff.mp (by omega)) hs
        | cons p' ps => simpa only [PS.lastTextKVs] using this
      · obtain ⟨h7, rfl⟩ := cut_read p d s' e q y x h1 hs' hv h4 hw
        cases qs with
        | cons q' qs => obtain ⟨_, _⟩ := q'; simp only [ReadsKVs] at h5; obtain ⟨_, _, h5, _⟩ := h5; exact absurd h5 (reads_nil _ _)
        | nil =>
          cases ps with
          | cons p' ps => simp at hl
          | nil =>
            simp only [PacksKVs] at h2; subst h2
            simp only [ReadsKVs] at h5
            rw [List.append_nil, List.append_cancel_left_eq] at h6
            subst h6
            exact ⟨by simpa only [PS.lastTextKVs] using h7, h5.symm⟩
    · rw [h6] at hk1
      obtain ⟨_, rfl⟩ := cut_read (.str k) pre s' d (.str k') (.str k) (.str k') hk1 hs' rfl hk rfl
      exact absurd h4 (reads_nil _ _)
end

/-! ## The shortened value is read -/

theorem reads_hdr_str {s : Bytes} {h t : Bytes} (hh : Hdr halfRange .str s.length h) : Reads (.str s) (h ++ s ++ t) t := by
  simp only [Reads]; exact ⟨s.length, h, hh, rfl, .inl rfl⟩

mutual
/-- An encoding is read as its value. -/
theorem packs_read : (p : PS) → (a r : Bytes) → Packs halfRange p a → Reads p (a ++ r) r
  | .null, a, r, h => by simp only [Reads]; exact ⟨a, h, rfl⟩
  | .bool _, a, r, h => by simp only [Reads]; exact ⟨a, h, rfl⟩
  | .int _, a, r, h => by simp only [Reads]; exact ⟨a, by simpa only [Packs] using h, rfl⟩
  | .float _, a, r, h => by simp only [Reads]; exact ⟨a, by simpa only [Packs] using h, rfl⟩
  | .str s, a, r, h => by simp only [Packs] at h; obtain ⟨hd, h1, rfl⟩ := h; exact reads_hdr_str h1
  | .list ps, a, r, h => by
    simp only [Packs] at h; obtain ⟨hd, b, h1, h2, rfl⟩ := h
    simp only [Reads]; exact ⟨hd, b ++ r, h1, by simp, packs_readList ps b r h2⟩
  | .map ps, a, r, h => by
    simp only [Packs] at h; obtain ⟨hd, b, h1, h2, rfl⟩ := h
    simp only [Reads]; exact .inl ⟨hd, b ++ r, h1, by simp, packs_readKVs ps b r h2⟩
  | .struct sig fs, a, r, h => by
    simp only [Packs] at h; obtain ⟨hd, b, h1, h2, rfl⟩ := h
    simp only [Reads]; exact ⟨_, hd, b ++ r, hdr_full h1, by simp, packs_readList fs b r h2⟩

theorem packs_readList : (ps : List PS) → (a r : Bytes) → PacksList halfRange ps a → ReadsList ps (a ++ r) r
  | [], a, r, h => by simp only [PacksList] at h; subst h; simp [ReadsList]
  | p :: ps, a, r, h => by
    simp only [PacksList] at h; obtain ⟨b, c, h1, h2, rfl⟩ := h
    simp only [ReadsList]
    exact ⟨c ++ r, by rw [List.append_assoc]; exact packs_read p b (c ++ r) h1, packs_readList ps c r h2⟩

theorem packs_readKVs : (ps : List (Bytes × PS)) → (a r : Bytes) → PacksKVs halfRange ps a → ReadsKVs ps (a ++ r) r
  | [], a, r, h => by simp only [PacksKVs] at h; subst h; simp [ReadsKVs]
  | (k, p) :: ps, a, r, h => by
    simp only [PacksKVs] at h; obtain ⟨hd, b, c, h0, h1, h2, rfl⟩ := h
    simp only [ReadsKVs]
    exact ⟨b ++ (c ++ r), c ++ r, by simpa using reads_hdr_str (t := b ++ (c ++ r)) h0, packs_read p b (c ++ r) h1, packs_readKVs ps c r h2⟩
end

theorem shortenList_length (n : Nat) : (ps : List PS) → (PS.shortenList n ps).length = ps.length
  | [] => rfl
  | [_] => rfl
  | _ :: p :: ps => by simp [PS.shortenList, shortenList_length n (p :: ps)]

theorem shortenKVs_length (n : Nat) : (ps : List (Bytes × PS)) → (PS.shortenKVs n ps).length = ps.length
  | [] => rfl
  | [_] => rfl
  | _ :: p :: ps => by simp [PS.shortenKVs, shortenKVs_length n (p :: ps)]

/-- Cut off from the end of a list of bytes. -/
theorem cut_off {b pre suf : Bytes} {m : Nat} {x : Bytes} (e : x ++ b = pre ++ suf) (hm : suf.length ≤ m) (hb : m ≤ b.length) :
    ∃ pre', pre = x ++ pre' ∧ b = pre' ++ suf := by
  rcases List.append_eq_append_iff.mp e with ⟨c, h1, h2⟩ | ⟨c, h1, h2⟩
  · exact ⟨c, h1, h2⟩
  · have h3 := congrArg List.length h2
    rw [List.length_append] at h3
    have : c = [] := List.length_eq_zero_iff.mp (by omega)
    subst this
    exact ⟨[], by simpa using h1.symm, by simpa using h2.symm⟩

mutual
theorem lastText_le : (p : PS) → (a : Bytes) → Packs halfRange p a → p.lastText.length ≤ a.length
  | .null, a, h => by simp [PS.lastText]
  | .bool _, a, h => by simp [PS.lastText]
  | .int _, a, h => by simp [PS.lastText]
  | .float _, a, h => by simp [PS.lastText]
  | .str s, a, h => by simp only [Packs] at h; obtain ⟨_, _, rfl⟩ := h; simp [PS.lastText]
  | .list ps, a, h => by
    simp only [Packs] at h; obtain ⟨_, b, _, h2, rfl⟩ := h
    have := lastTextList_le ps b h2
    simp only [PS.lastText, List.length_append]; omega
  | .map ps, a, h => by
    simp only [Packs] at h; obtain ⟨_, b, _, h2, rfl⟩ := h
    have := lastTextKVs_le ps b h2
    simp only [PS.lastText, List.length_append]; omega
  | .struct _ ps, a, h => by
    simp only [Packs] at h; obtain ⟨_, b, _, h2, rfl⟩ := h
    have := lastTextList_le ps b h2
    simp only [PS.lastText, List.length_append, List.length_cons]; omega

theorem lastTextList_le : (ps : List PS) → (a : Bytes) → PacksList halfRange ps a → (PS.lastTextList ps).length ≤ a.length
  | [], a, h => by simp [PS.lastTextList]
  | [p], a, h => by
    rw [PacksList] at h; obtain ⟨b, c, h1, _, rfl⟩ := h
    have := lastText_le p b h1
    simp only [PS.lastTextList, List.length_append]; omega
  | _ :: p :: ps, a, h => by
    rw [PacksList] at h; obtain ⟨b, c, _, h2, rfl⟩ := h
    have := lastTextList_le (p :: ps) c h2
    simp only [PS.lastTextList, List.length_append]; omega

theorem lastTextKVs_le : (ps : List (Bytes × PS)) → (a : Bytes) → PacksKVs halfRange ps a → (PS.lastTextKVs ps).length ≤ a.length
  | [], a, h => by simp [PS.lastTextKVs]
  | [(_, p)], a, h => by
    rw [PacksKVs] at h; obtain ⟨_, b, c, _, h1, _, rfl⟩ := h
    have := lastText_le p b h1
    simp only [PS.lastTextKVs, List.length_append]; omega
  | (_, _) :: p :: ps, a, h => by
    rw [PacksKVs] at h; obtain ⟨_, b, c, _, _, h2, rfl⟩ := h
    have := lastTextKVs_le (p :: ps) c h2
    simp only [PS.lastTextKVs, List.length_append]; omega
end

mutual
/-- An encoding with bytes of the final string missing is read as the shortened value. -/
theorem shorten_read : (p : PS) → (pre suf : Bytes) → Packs halfRange p (pre ++ suf) → suf ≠ [] → suf.length ≤ p.lastText.length →
    Reads (p.shorten suf.length) pre []
  | .null, pre, suf, _, hs, hl => absurd (List.length_eq_zero_iff.mp (by simpa [PS.lastText] using hl)) hs
  | .bool _, pre, suf, _, hs, hl => absurd (List.length_eq_zero_iff.mp (by simpa [PS.lastText] using hl)) hs
  | .int _, pre, suf, _, hs, hl => absurd (List.length_eq_zero_iff.mp (by simpa [PS.lastText] using hl)) hs
  | .float _, pre, suf, _, hs, hl => absurd (List.length_eq_zero_iff.mp (by simpa [PS.lastText] using hl)) hs
  | .str s, pre, suf, h, hs, hl => by
    simp only [Packs] at h; obtain ⟨hd, h1, h2⟩ := h
    simp only [PS.lastText] at hl
    obtain ⟨pre', rfl, rfl⟩ := cut_off h2.symm hl (Nat.le_refl _)
    have : (pre' ++ suf).take ((pre' ++ suf).length - suf.length) = pre' := by simp
    simp only [PS.shorten, this, Reads]
    exact ⟨_, hd, h1, by simp, .inr ⟨by have := List.length_pos_iff.mpr hs; simp only [List.length_append]; omega, by trivial⟩⟩
  | .list ps, pre, suf, h, hs, hl => by
    simp only [Packs] at h; obtain ⟨hd, b, h1, h2, h3⟩ := h
    simp only [PS.lastText] at hl
    obtain ⟨pre', rfl, rfl⟩ := cut_off h3.symm hl (lastTextList_le ps b h2)
    simp only [PS.shorten, Reads, shortenList_length]
    exact ⟨hd, pre', h1, rfl, shortenList_read ps pre' suf h2 hs hl⟩
  | .map ps, pre, suf, h, hs, hl => by
    simp only [Packs] at h; obtain ⟨hd, b, h1, h2, h3⟩ := h
    simp only [PS.lastText] at hl
    obtain ⟨pre', rfl, rfl⟩ := cut_off h3.symm hl (lastTextKVs_le ps b h2)
    simp only [PS.shorten, Reads, shortenKVs_length]
    exact .inl ⟨hd, pre', h1, rfl, shortenKVs_read ps pre' suf h2 hs hl⟩
  | .struct sig ps, pre, suf, h, hs, hl => by
    simp only [Packs] at h; obtain ⟨hd, b, h1, h2, h3⟩ := h
    simp only [PS.lastText] at hl
    rw [show hd ++ sig :: b = (hd ++ [sig]) ++ b by simp] at h3
    obtain ⟨pre', rfl, rfl⟩ := cut_off h3.symm hl (lastTextList_le ps b h2)
    simp only [PS.shorten, Reads]
    exact ⟨_, hd, pre', hdr_full h1, by simp, shortenList_read ps pre' suf h2 hs hl⟩

theorem shortenList_read : (ps : List PS) → (pre suf : Bytes) → PacksList halfRange ps (pre ++ suf) → suf ≠ [] →
    suf.length ≤ (PS.lastTextList ps).length → ReadsList (PS.shortenList suf.length ps) pre []
  | [], pre, suf, _, hs, hl => absurd (List.length_eq_zero_iff.mp (by simpa [PS.lastTextList] using hl)) hs
  | [p], pre, suf, h, hs, hl => by
    simp only [PacksList] at h; obtain ⟨b, c, h1, rfl, h3⟩ := h
    rw [List.append_nil] at h3; subst h3
    simp only [PS.shortenList, ReadsList]
    simp only [PS.lastTextList] at hl
    exact ⟨[], shorten_read p pre suf h1 hs hl, rfl⟩
  | p :: p' :: ps, pre, suf, h, hs, hl => by
    rw [PacksList] at h; obtain ⟨b, c, h1, h2, h3⟩ := h
    simp only [PS.lastTextList] at hl
    obtain ⟨pre', rfl, rfl⟩ := cut_off h3.symm hl (lastTextList_le (p' :: ps) c h2)
    rw [PS.shortenList, ReadsList]
    exact ⟨pre', packs_read p b pre' h1, shortenList_read (p' :: ps) pre' suf h2 hs hl⟩

theorem shortenKVs_read : (ps : List (Bytes × PS)) → (pre suf : Bytes) → PacksKVs halfRange ps (pre ++ suf) → suf ≠ [] →
    suf.length ≤ (PS.lastTextKVs ps).length → ReadsKVs (PS.shortenKVs suf.length ps) pre []
  | [], pre, suf, _, hs, hl => absurd (List.length_eq_zero_iff.mp (by simpa [PS.lastTextKVs] using hl)) hs
  | [(k, p)], pre, suf, h, hs, hl => by
    simp only [PacksKVs] at h; obtain ⟨hd, b, c, h0, h1, rfl, h3⟩ := h
    rw [List.append_nil] at h3
    simp only [PS.lastTextKVs] at hl
    obtain ⟨pre', rfl, rfl⟩ := cut_off h3.symm hl (lastText_le p b h1)
    simp only [PS.shortenKVs, ReadsKVs]
    exact ⟨pre', [], reads_hdr_str h0, shorten_read p pre' suf h1 hs hl, rfl⟩
  | (k, p) :: p' :: ps, pre, suf, h, hs, hl => by
    rw [PacksKVs] at h; obtain ⟨hd, b, c, h0, h1, h2, h3⟩ := h
    simp only [PS.lastTextKVs] at hl
    obtain ⟨pre', rfl, rfl⟩ := cut_off h3.symm hl (lastTextKVs_le (p' :: ps) c h2)
    rw [PS.shortenKVs, ReadsKVs]
    exact ⟨b ++ pre', pre', by simpa using reads_hdr_str (t := b ++ pre') h0, packs_read p b pre' h1, shortenKVs_read (p' :: ps) pre' suf h2 hs hl⟩
end

/-! ## The shortened value has a Go value -/

/-- Still a list, still a map. -/
def SameShape (v w : Val) : Prop :=
  (∀ xs, v = .list xs → ∃ ys, w = .list ys) ∧ (∀ m, v = .map m → ∃ m', w = .map m')

theorem entity_shape {v w : Val} (h : Entity v) : SameShape v w :=
  ⟨fun xs e => by subst e; exact h.elim, fun m e => by subst e; exact h.elim⟩

/-- Fields of which the last has been replaced. -/
theorem structOf_last {sig : UInt8} {zs : List Val} {z z' : Val} {v : Val} (h : structOf sig (zs ++ [z]) = some v) (hz : SameShape z z')
    (hp : sig ≠ 0x50) : ∃ w, structOf sig (zs ++ [z']) = some w := by
  have hf := structOf_fields h
  have hl : ∀ {ys : List Val} {y : Val}, zs ++ [z] = ys ++ [y] → zs = ys ∧ z = y := by
    intro ys y e
    obtain ⟨h1, h2⟩ := List.append_inj' e rfl
    simp only [List.cons.injEq, and_true] at h2
    exact ⟨h1, h2⟩
  cases v <;> simp only [FieldsOf] at hf
  case node id ls m =>
    obtain ⟨rfl, rfl⟩ := hl (ys := [.int .int64 id, .list (ls.map .str)]) hf
    obtain ⟨m', rfl⟩ := hz.2 _ rfl
    by_cases h1 : sig = 0x4E
    · subst h1; exact ⟨.node id ls m', by simp [structOf, allStr_map]⟩
    · simp [structOf, h1] at h
  case rel id s e t m =>
    obtain ⟨rfl, rfl⟩ := hl (ys := [.int .int64 id, .int .int64 s, .int .int64 e, .str t]) hf
    obtain ⟨m', rfl⟩ := hz.2 _ rfl
    by_cases h1 : sig = 0x52
    · subst h1; exact ⟨.rel id s e t m', by simp [structOf]⟩
    · simp [structOf, h1] at h
  case unbound id t m =>
    obtain ⟨rfl, rfl⟩ := hl (ys := [.int .int64 id, .str t]) hf
    obtain ⟨m', rfl⟩ := hz.2 _ rfl
    by_cases h1 : sig = 0x72
    · subst h1; exact ⟨.unbound id t m', by simp [structOf]⟩
    · simp [structOf, h1] at h
  case path ns rs sq =>
    obtain ⟨rfl, rfl⟩ := hl (ys := [.list ns, .list rs]) hf
    simp [structOf, hp] at h
  case record fs =>
    obtain ⟨rfl, rfl⟩ := hl (ys := []) hf
    obtain ⟨m', rfl⟩ := hz.1 _ rfl
    by_cases h1 : sig = 0x71
    · subst h1; exact ⟨.record m', by simp [structOf]⟩
    · simp [structOf, h1] at h
  case success m =>
    obtain ⟨rfl, rfl⟩ := hl (ys := []) hf
    obtain ⟨m', rfl⟩ := hz.2 _ rfl
    by_cases h1 : sig = 0x70
    · subst h1; exact ⟨.success m', by simp [structOf]⟩
    · by_cases h2 : sig = 0x7F
      · subst h2; exact ⟨.failure m', by simp [structOf]⟩
      · simp [structOf, h1, h2] at h
  case failure m =>
    obtain ⟨rfl, rfl⟩ := hl (ys := []) hf
    obtain ⟨m', rfl⟩ := hz.2 _ rfl
    by_cases h1 : sig = 0x70
    · subst h1; exact ⟨.success m', by simp [structOf]⟩
    · by_cases h2 : sig = 0x7F
      · subst h2; exact ⟨.failure m', by simp [structOf]⟩
      · simp [structOf, h1, h2] at h
  all_goals exact absurd hf (by simp)

mutual
/-- `endsInString` says whether there is such a string. -/
theorem ends_lastText : (p : PS) → p.endsInString = !p.lastText.isEmpty
  | .null => rfl
  | .bool _ => rfl
  | .int _ => rfl
  | .float _ => rfl
  | .str _ => rfl
  | .list ps => by simp only [PS.endsInString, PS.lastText]; exact ends_lastTextList ps
  | .map ps => by simp only [PS.endsInString, PS.lastText]; exact ends_lastTextKVs ps
  | .struct _ ps => by simp only [PS.endsInString, PS.lastText]; exact ends_lastTextList ps

theorem ends_lastTextList : (ps : List PS) → PS.endsList ps = !(PS.lastTextList ps).isEmpty
  | [] => rfl
  | [p] => by simp only [PS.endsList, PS.lastTextList, List.isEmpty_nil, if_true]; exact ends_lastText p
  | _ :: p :: ps => by
    rw [PS.endsList, PS.lastTextList]; simp only [List.isEmpty_cons, Bool.false_eq_true, if_false]; exact ends_lastTextList (p :: ps)

theorem ends_lastTextKVs : (ps : List (Bytes × PS)) → PS.endsKVs ps = !(PS.lastTextKVs ps).isEmpty
  | [] => rfl
  | [(_, p)] => by simp only [PS.endsKVs, PS.lastTextKVs, List.isEmpty_nil, if_true]; exact ends_lastText p
  | (_, _) :: p :: ps => by
    rw [PS.endsKVs, PS.lastTextKVs]; simp only [List.isEmpty_cons, Bool.false_eq_true, if_false]; exact ends_lastTextKVs (p :: ps)
end

/-- A path ends with numbers. -/
theorem path_no_text {fs : List PS} {xs : List Val} {v : Val} (h : ofPSList fs = some xs) (hv : structOf 0x50 xs = some v) :
    PS.lastTextList fs = [] := by
  obtain ⟨ns, rs, sq, rfl⟩ : ∃ (ns rs : List Val) (sq : List _root_.Int), xs = [.list ns, .list rs, .list (sq.map (.int .int64))] := by
    have hf := structOf_fields hv
    simp only [structOf] at hv
    simp only [show ¬ ((0x50 : UInt8) = 0x4E) by decide, show ¬ ((0x50 : UInt8) = 0x52) by decide, show ¬ ((0x50 : UInt8) = 0x72) by decide,
      if_false, if_true] at hv
    split at hv <;> [skip; cases hv]
    split at hv <;> [skip; cases hv]
    simp only [Option.map_eq_some_iff] at hv
    obtain ⟨sq, _, rfl⟩ := hv
    exact ⟨_, _, sq, hf⟩
  obtain ⟨p1, fs, rfl, _, h⟩ := ofPSList_cons h
  obtain ⟨p2, fs, rfl, _, h⟩ := ofPSList_cons h
  obtain ⟨p3, fs, rfl, h3, h⟩ := ofPSList_cons h
  have := ofPSList_length h
  cases fs with
  | cons _ _ => simp at this
  | nil =>
    obtain ⟨ps, rfl, h4⟩ := ofPS_list h3
    have he := ends_ints h4 (allInt_map sq)
    rw [ends_lastTextList] at he
    simpa [PS.lastTextList, PS.lastText] using he

mutual
theorem shorten_val : (p : PS) → (n : Nat) → (v : Val) → ofPS p = some v → 0 < n → n ≤ p.lastText.length →
    ∃ w, ofPS (p.shorten n) = some w ∧ SameShape v w
  | .null, n, v, _, h0, hl => by simp only [PS.lastText, List.length_nil] at hl; omega
  | .bool _, n, v, _, h0, hl => by simp only [PS.lastText, List.length_nil] at hl; omega
  | .int _, n, v, _, h0, hl => by simp only [PS.lastText, List.length_nil] at hl; omega
  | .float _, n, v, _, h0, hl => by simp only [PS.lastText, List.length_nil] at hl; omega
  | .str s, n, v, h, h0, hl => by
    simp only [ofPS, Option.some.injEq] at h; subst h
    exact ⟨_, rfl, ⟨fun _ e => (by cases e), fun _ e => by cases e⟩⟩
  | .list ps, n, v, h, h0, hl => by
    simp only [ofPS, Option.map_eq_some_iff] at h; obtain ⟨xs, h, rfl⟩ := h
    obtain ⟨zs, z, z', _, h2, _⟩ := shorten_vals ps n xs h h0 hl
    exact ⟨.list (zs ++ [z']), by simp [PS.shorten, ofPS, h2], ⟨fun _ _ => ⟨_, rfl⟩, fun _ e => by cases e⟩⟩
  | .map ps, n, v, h, h0, hl => by
    simp only [ofPS, Option.map_eq_some_iff] at h; obtain ⟨xs, h, rfl⟩ := h
    obtain ⟨ys, h2⟩ := shorten_kvs ps n xs h h0 hl
    exact ⟨.map (lastWins ys), by simp [PS.shorten, ofPS, h2], ⟨fun _ e => (by cases e), fun _ _ => ⟨_, rfl⟩⟩⟩
  | .struct sig fs, n, v, h, h0, hl => by
    simp only [ofPS, Option.bind_eq_some_iff] at h; obtain ⟨xs, h, hv⟩ := h
    obtain ⟨zs, z, z', rfl, h2, h3⟩ := shorten_vals fs n xs h h0 hl
    have hp : sig ≠ 0x50 := by
      rintro rfl
      simp only [PS.lastText, path_no_text h hv, List.length_nil] at hl
      omega
    obtain ⟨w, hw⟩ := structOf_last hv h3 hp
    exact ⟨w, by simp [PS.shorten, ofPS, h2, hw], entity_shape (structOf_entity hv)⟩

theorem shorten_vals : (ps : List PS) → (n : Nat) → (xs : List Val) → ofPSList ps = some xs → 0 < n → n ≤ (PS.lastTextList ps).length →
    ∃ zs z z', xs = zs ++ [z] ∧ ofPSList (PS.shortenList n ps) = some (zs ++ [z']) ∧ SameShape z z'
  | [], n, xs, _, h0, hl => by simp only [PS.lastTextList, List.length_nil] at hl; omega
  | [p], n, xs, h, h0, hl => by
    simp only [ofPSList, Option.bind_eq_some_iff, Option.map_eq_some_iff, Option.some.injEq] at h
    obtain ⟨y, h, _, rfl, rfl⟩ := h
    simp only [PS.lastTextList] at hl
    obtain ⟨w, h1, h2⟩ := shorten_val p n y h h0 hl
    exact ⟨[], y, w, rfl, by simp [PS.shortenList, ofPSList, h1], h2⟩
  | p :: p' :: ps, n, xs, h, h0, hl => by
    rw [ofPSList] at h
    simp only [Option.bind_eq_some_iff, Option.map_eq_some_iff] at h
    obtain ⟨y, h, ys, h', rfl⟩ := h
    simp only [PS.lastTextList] at hl
    obtain ⟨zs, z, z', rfl, h2, h3⟩ := shorten_vals (p' :: ps) n ys h' h0 hl
    exact ⟨y :: zs, z, z', rfl, by rw [PS.shortenList, ofPSList]; simp [h, h2], h3⟩

theorem shorten_kvs : (ps : List (Bytes × PS)) → (n : Nat) → (xs : List (Str × Val)) → ofPSKVs ps = some xs → 0 < n →
    n ≤ (PS.lastTextKVs ps).length → ∃ ys, ofPSKVs (PS.shortenKVs n ps) = some ys
  | [], n, xs, _, h0, hl => by simp only [PS.lastTextKVs, List.length_nil] at hl; omega
  | [(k, p)], n, xs, h, h0, hl => by
    simp only [ofPSKVs, Option.bind_eq_some_iff, Option.map_eq_some_iff, Option.some.injEq] at h
    obtain ⟨y, h, _, rfl, rfl⟩ := h
    simp only [PS.lastTextKVs] at hl
    obtain ⟨w, h1, h2⟩ := shorten_val p n y h h0 hl
    exact ⟨[(k, w)], by simp [PS.shortenKVs, ofPSKVs, h1]⟩
  | (k, p) :: p' :: ps, n, xs, h, h0, hl => by
    rw [ofPSKVs] at h
    simp only [Option.bind_eq_some_iff, Option.map_eq_some_iff] at h
    obtain ⟨y, h, ys, h', rfl⟩ := h
    simp only [PS.lastTextKVs] at hl
    obtain ⟨zs, h2⟩ := shorten_kvs (p' :: ps) n ys h' h0 hl
    exact ⟨(k, y) :: zs, by rw [PS.shortenKVs, ofPSKVs]; simp [h, h2]⟩
end

end Bolt
