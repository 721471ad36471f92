import Verif.Spec.Lenient
import Verif.Proofs.Decode
import Verif.Proofs.Sane

/-! The decoder accepts exactly the payloads of `Reads`. -/

namespace Bolt.Lenient
open PackStream

variable {dec : Dec Val}

/-- What the computation returns was read from the payload. -/
def Expl (x : Dec Val) : Prop := ∀ b v r, x b = .ok (v, r) → ∃ p, Reads p b r ∧ ofPS p = some v

theorem bind_ok {α β : Type} {x : Dec α} {f : α → Dec β} {b r : Bytes} {y : β} (h : (x >>= f) b = .ok (y, r)) :
    ∃ a b', x b = .ok (a, b') ∧ f a b' = .ok (y, r) := by
  rw [Dec.bind_eq] at h
  cases hx : x b with
  | error e => rw [hx] at h; cases h
  | ok p => obtain ⟨a, b'⟩ := p; rw [hx] at h; exact ⟨a, b', rfl, h⟩

theorem pure_ok {α : Type} {a y : α} {b r : Bytes} (h : (Dec.pure a : Dec α) b = .ok (y, r)) : a = y ∧ b = r := by
  cases h; exact ⟨rfl, rfl⟩

theorem readRaw_ok {w : Nat} {b a r : Bytes} (h : readRaw w b = .ok (a, r)) : b = a ++ r ∧ a.length = w := by
  unfold readRaw at h
  split at h
  · cases h; simp; omega
  · split at h <;> cases h

theorem readSize_ok {w : Nat} {msg : String} {b r : Bytes} {n : Int} (h : readSize w msg b = .ok (n, r)) :
    ∃ a, b = a ++ r ∧ a.length = w ∧ n = signedOf w a := by
  unfold readSize at h
  cases hx : readRaw w b with
  | error e => rw [hx] at h; cases e <;> cases h
  | ok p =>
    obtain ⟨a, b'⟩ := p
    rw [hx] at h
    cases h
    exact ⟨a, (readRaw_ok hx).1, (readRaw_ok hx).2, rfl⟩

/-- A size field that is not negative is the unsigned number, below half of the range. -/
theorem size_field {w : Nat} (hw : 0 < w) {a : Bytes} (ha : a.length = w) :
    (0 ≤ signedOf w a → ∃ n : Nat, signedOf w a = n ∧ Unsigned w n a ∧ n < halfRange w) ∧
    (signedOf w a < 0 → ∃ n, Unsigned w n a ∧ halfRange w ≤ n) := by
  have hv : beNat a < 256 ^ w := by rw [beNat_eq, ← ha]; exact ofBytes_lt a
  have hM : (256 ^ w) % 2 = 0 := by
    obtain ⟨k, rfl⟩ : ∃ k, w = k + 1 := ⟨w - 1, by omega⟩
    rw [Nat.pow_succ]; omega
  unfold signedOf wrapSigned halfRange Unsigned
  rw [← beNat_eq]
  generalize 256 ^ w = M at *
  have h1 : ((beNat a : Nat) : Int) % (M : Int) = beNat a := Int.emod_eq_of_lt (by omega) (by omega)
  simp only [h1]
  constructor
  · intro h
    refine ⟨beNat a, ?_, ⟨ha, rfl⟩, ?_⟩
    · split
      · rfl
      · rename_i h2; rw [if_neg h2] at h; omega
    · split at h <;> omega
  · intro h
    refine ⟨beNat a, ⟨ha, rfl⟩, ?_⟩
    split at h <;> omega

theorem readInt_expl {w : Nat} (hw : 0 < w) {b r : Bytes} {v : Val} (h : readInt w b = .ok (v, r)) :
    ∃ n a, Signed w n a ∧ b = a ++ r ∧ v = .int .int64 n := by
  obtain ⟨a, b', h1, h2⟩ := bind_ok h
  obtain ⟨rfl, rfl⟩ := pure_ok h2
  obtain ⟨h3, h4⟩ := readRaw_ok h1
  exact ⟨_, a, signed_signedOf h4 hw, h3, rfl⟩

theorem next_expl {n : Nat} {h b r : Bytes} {v : Val} (hh : Hdr halfRange .str n h) (hn : next n b = .ok (v, r)) :
    ∃ p, Reads p (h ++ b) r ∧ ofPS p = some v := by
  unfold next at hn
  rw [if_neg (by omega)] at hn
  cases hn
  refine ⟨.str (b.take n), ?_, rfl⟩
  simp only [Reads]
  refine ⟨n, h, hh, by simp, ?_⟩
  simp only [List.length_take, Int.toNat_natCast]
  by_cases hb : n ≤ b.length
  · left; omega
  · right
    exact ⟨by omega, by rw [List.drop_eq_nil_iff]; omega⟩

theorem items_expl (H : Expl dec) : ∀ (n : Nat) (b : Bytes) (xs : List Val) (r : Bytes), decodeItems dec n b = .ok (xs, r) →
    ∃ ps, ReadsList ps b r ∧ ofPSList ps = some xs ∧ ps.length = n
  | 0, b, xs, r, h => by
    obtain ⟨rfl, rfl⟩ := pure_ok h
    exact ⟨[], by simp [ReadsList], rfl, rfl⟩
  | n + 1, b, xs, r, h => by
    obtain ⟨x, b1, h1, h2⟩ := bind_ok h
    obtain ⟨ys, b2, h3, h4⟩ := bind_ok h2
    obtain ⟨rfl, rfl⟩ := pure_ok h4
    obtain ⟨p, h5, h6⟩ := H _ _ _ h1
    obtain ⟨ps, h7, h8, rfl⟩ := items_expl H n _ _ _ h3
    exact ⟨p :: ps, by simp only [ReadsList]; exact ⟨_, h5, h7⟩, by simp [ofPSList, h6, h8], rfl⟩

theorem structOf_str {sig : UInt8} {xs : List Val} {s : Str} : structOf sig xs ≠ some (.str s) := by
  intro h
  unfold structOf at h
  by_cases h1 : sig = 0x4E
  · rw [if_pos h1] at h; split at h <;> simp at h
  rw [if_neg h1] at h
  by_cases h1 : sig = 0x52
  · rw [if_pos h1] at h; split at h <;> simp at h
  rw [if_neg h1] at h
  by_cases h1 : sig = 0x72
  · rw [if_pos h1] at h; split at h <;> simp at h
  rw [if_neg h1] at h
  by_cases h1 : sig = 0x50
  · rw [if_pos h1] at h; split at h <;> simp at h
  rw [if_neg h1] at h
  by_cases h1 : sig = 0x71
  · rw [if_pos h1] at h; split at h <;> simp at h
  rw [if_neg h1] at h
  by_cases h1 : sig = 0x70
  · rw [if_pos h1] at h; split at h <;> simp at h
  rw [if_neg h1] at h
  by_cases h1 : sig = 0x7F
  · rw [if_pos h1] at h; split at h <;> simp at h
  rw [if_neg h1] at h
  repeat' split at h
  all_goals simp at h

theorem ofPS_str {p : PS} {s : Str} (h : ofPS p = some (.str s)) : p = .str s := by
  cases p with
  | str t => simpa [ofPS] using h
  | struct sig fs =>
    simp only [ofPS, Option.bind_eq_some_iff] at h
    obtain ⟨xs, _, h⟩ := h
    exact absurd h structOf_str
  | _ => simp [ofPS] at h

theorem asKey_ok {v : Val} {b r : Bytes} {k : Str} (h : asKey v b = .ok (k, r)) : v = .str k ∧ b = r := by
  cases v <;> first | (cases h; exact ⟨rfl, rfl⟩) | cases h

theorem entries_expl (H : Expl dec) : ∀ (n : Nat) (m : KVs) (b : Bytes) (m' : KVs) (r : Bytes), decodeEntries dec n m b = .ok (m', r) →
    ∃ ps xs, ReadsKVs ps b r ∧ ofPSKVs ps = some xs ∧ ps.length = n ∧ m' = insertAll m xs
  | 0, m, b, m', r, h => by
    obtain ⟨rfl, rfl⟩ := pure_ok h
    exact ⟨[], [], by simp [ReadsKVs], rfl, rfl, rfl⟩
  | n + 1, m, b, m', r, h => by
    obtain ⟨k, b1, h1, h2⟩ := bind_ok h
    obtain ⟨v, b2, h3, h4⟩ := bind_ok h2
    obtain ⟨s, b3, h5, h6⟩ := bind_ok h4
    obtain ⟨rfl, rfl⟩ := asKey_ok h5
    obtain ⟨p, h7, h8⟩ := H _ _ _ h1
    obtain rfl := ofPS_str h8
    obtain ⟨p', h9, h10⟩ := H _ _ _ h3
    obtain ⟨ps, xs, h11, h12, rfl, h13⟩ := entries_expl H n _ _ _ _ h6
    exact ⟨(s, p') :: ps, (s, v) :: xs, by simp only [ReadsKVs]; exact ⟨_, _, h7, h9, h11⟩, by simp [ofPSKVs, h10, h12], rfl, by rw [h13]; rfl⟩

theorem slice_expl (H : Expl dec) {n : Nat} {h b r : Bytes} {v : Val} (hh : Hdr halfRange .list n h) (hn : decodeSlice dec n b = .ok (v, r)) :
    ∃ p, Reads p (h ++ b) r ∧ ofPS p = some v := by
  unfold decodeSlice at hn
  rw [if_neg (by omega)] at hn
  obtain ⟨xs, b1, h1, h2⟩ := bind_ok hn
  obtain ⟨rfl, rfl⟩ := pure_ok h2
  obtain ⟨ps, h3, h4, h5⟩ := items_expl H _ _ _ _ h1
  refine ⟨.list ps, ?_, by simp [ofPS, h4]⟩
  simp only [Reads]
  exact ⟨h, b, by rw [h5]; exact hh, rfl, h3⟩

theorem map_expl (H : Expl dec) {n : Nat} {h b r : Bytes} {v : Val} (hh : Hdr halfRange .map n h) (hn : decodeMap dec n b = .ok (v, r)) :
    ∃ p, Reads p (h ++ b) r ∧ ofPS p = some v := by
  obtain ⟨xs, b1, h1, h2⟩ := bind_ok hn
  obtain ⟨rfl, rfl⟩ := pure_ok h2
  obtain ⟨ps, ys, h3, h4, h5, rfl⟩ := entries_expl H _ _ _ _ _ h1
  refine ⟨.map ps, ?_, by simp [ofPS, h4, insertAll_eq]⟩
  simp only [Reads]
  exact .inl ⟨h, b, by rw [h5]; exact hh, rfl, h3⟩

theorem mapNeg_expl {n : Int} {m : UInt8} {a b r : Bytes} {w k : Nat} {v : Val} (hn : n < 0) (hm : Kind.map.marker w = some m) (ha : Unsigned w k a) (hk : halfRange w ≤ k)
    (h : decodeMap dec n b = .ok (v, r)) : ∃ p, Reads p (m :: a ++ b) r ∧ ofPS p = some v := by
  obtain ⟨xs, b1, h1, h2⟩ := bind_ok h
  obtain ⟨rfl, rfl⟩ := pure_ok h2
  rw [show n.toNat = 0 by omega] at h1
  obtain ⟨rfl, rfl⟩ := pure_ok h1
  refine ⟨.map [], ?_, rfl⟩
  simp only [Reads, true_and]
  exact .inr ⟨w, k, m, a, hm, ha, hk, rfl⟩

theorem sliceToString_ok {l : List Val} {ss : List Str} {b r : Bytes} (h : sliceToString l b = .ok (ss, r)) : allStr l = some ss ∧ b = r := by
  induction l generalizing ss b r with
  | nil => cases h; exact ⟨rfl, rfl⟩
  | cons x l ih =>
    cases x with
    | str s =>
      obtain ⟨ts, b1, h1, h2⟩ := bind_ok h
      obtain ⟨rfl, rfl⟩ := pure_ok h2
      obtain ⟨h3, rfl⟩ := ih h1
      exact ⟨by simp [allStr, h3], rfl⟩
    | _ => cases h

theorem sliceToInt_ok {l : List Val} {ss : List Int} {b r : Bytes} (h : sliceToInt l b = .ok (ss, r)) : allInt l = some ss ∧ b = r := by
  induction l generalizing ss b r with
  | nil => cases h; exact ⟨rfl, rfl⟩
  | cons x l ih =>
    cases x with
    | int k v =>
      cases k with
      | int64 =>
        obtain ⟨ts, b1, h1, h2⟩ := bind_ok h
        obtain ⟨rfl, rfl⟩ := pure_ok h2
        obtain ⟨h3, rfl⟩ := ih h1
        exact ⟨by simp [allInt, h3], rfl⟩
      | _ => cases h
    | _ => cases h

theorem sliceToNode_ok {l ss : List Val} {b r : Bytes} (h : sliceToNode l b = .ok (ss, r)) : allNode l = true ∧ ss = l ∧ b = r := by
  induction l generalizing ss b r with
  | nil => cases h; exact ⟨rfl, rfl, rfl⟩
  | cons x l ih =>
    cases x with
    | node id ls ps =>
      obtain ⟨ts, b1, h1, h2⟩ := bind_ok h
      obtain ⟨rfl, rfl⟩ := pure_ok h2
      obtain ⟨h3, rfl, rfl⟩ := ih h1
      exact ⟨by simp [allNode, h3], rfl, rfl⟩
    | _ => cases h

theorem sliceToUnbound_ok {l ss : List Val} {b r : Bytes} (h : sliceToUnbound l b = .ok (ss, r)) : allUnbound l = true ∧ ss = l ∧ b = r := by
  induction l generalizing ss b r with
  | nil => cases h; exact ⟨rfl, rfl, rfl⟩
  | cons x l ih =>
    cases x with
    | unbound id t ps =>
      obtain ⟨ts, b1, h1, h2⟩ := bind_ok h
      obtain ⟨rfl, rfl⟩ := pure_ok h2
      obtain ⟨h3, rfl, rfl⟩ := ih h1
      exact ⟨by simp [allUnbound, h3], rfl, rfl⟩
    | _ => cases h

theorem assertInt64_ok {v : Val} {n : Int} {b r : Bytes} (h : assertInt64 v b = .ok (n, r)) : v = .int .int64 n ∧ b = r := by
  cases v with
  | int k m => cases k <;> first | (cases h; exact ⟨rfl, rfl⟩) | cases h
  | _ => cases h

theorem asList_ok {msg : String} {v : Val} {n : List Val} {b r : Bytes} (h : asList msg v b = .ok (n, r)) : v = .list n ∧ b = r := by
  cases v <;> first | (cases h; exact ⟨rfl, rfl⟩) | cases h

theorem asMap_ok {msg : String} {v : Val} {n : KVs} {b r : Bytes} (h : asMap msg v b = .ok (n, r)) : v = .map n ∧ b = r := by
  cases v <;> first | (cases h; exact ⟨rfl, rfl⟩) | cases h

theorem asStr_ok {msg : String} {v : Val} {n : Str} {b r : Bytes} (h : asStr msg v b = .ok (n, r)) : v = .str n ∧ b = r := by
  cases v <;> first | (cases h; exact ⟨rfl, rfl⟩) | cases h

/-- Fields read one after the other. -/
theorem cons_expl (H : Expl dec) {b b1 r : Bytes} {x : Val} {xs : List Val} (h : dec b = .ok (x, b1)) (h' : ∃ ps, ReadsList ps b1 r ∧ ofPSList ps = some xs) :
    ∃ ps, ReadsList ps b r ∧ ofPSList ps = some (x :: xs) := by
  obtain ⟨p, h1, h2⟩ := H _ _ _ h
  obtain ⟨ps, h3, h4⟩ := h'
  exact ⟨p :: ps, by simp only [ReadsList]; exact ⟨_, h1, h3⟩, by simp [ofPSList, h2, h4]⟩

theorem nil_expl (r : Bytes) : ∃ ps, ReadsList ps r r ∧ ofPSList ps = some [] := ⟨[], by simp [ReadsList], rfl⟩

theorem node_expl (H : Expl dec) {b r : Bytes} {v : Val} (g0 : decodeNode dec b = .ok (v, r)) :
    ∃ xs, (∃ ps, ReadsList ps b r ∧ ofPSList ps = some xs) ∧ structOf 0x4E xs = some v := by
  obtain ⟨a1, b1, h1, g1⟩ := bind_ok g0
  obtain ⟨id, _, h2, g2⟩ := bind_ok g1
  obtain ⟨rfl, rfl⟩ := assertInt64_ok h2
  obtain ⟨a2, b2, h3, g3⟩ := bind_ok g2
  obtain ⟨ls, _, h4, g4⟩ := bind_ok g3
  obtain ⟨rfl, rfl⟩ := asList_ok h4
  obtain ⟨ss, _, h5, g5⟩ := bind_ok g4
  obtain ⟨k5, rfl⟩ := sliceToString_ok h5
  obtain ⟨a3, b3, h6, g6⟩ := bind_ok g5
  obtain ⟨m, _, h7, g7⟩ := bind_ok g6
  obtain ⟨rfl, rfl⟩ := asMap_ok h7
  obtain ⟨rfl, rfl⟩ := pure_ok g7
  exact ⟨_, cons_expl H h1 (cons_expl H h3 (cons_expl H h6 (nil_expl _))), by simp [structOf, k5]⟩

theorem rel_expl (H : Expl dec) {b r : Bytes} {v : Val} (g0 : decodeRelationship dec b = .ok (v, r)) :
    ∃ xs, (∃ ps, ReadsList ps b r ∧ ofPSList ps = some xs) ∧ structOf 0x52 xs = some v := by
  obtain ⟨a1, b1, h1, g1⟩ := bind_ok g0
  obtain ⟨id, _, h2, g2⟩ := bind_ok g1
  obtain ⟨rfl, rfl⟩ := assertInt64_ok h2
  obtain ⟨a1, b1, h3, g3⟩ := bind_ok g2
  obtain ⟨id, _, h4, g4⟩ := bind_ok g3
  obtain ⟨rfl, rfl⟩ := assertInt64_ok h4
  obtain ⟨a1, b1, h5, g5⟩ := bind_ok g4
  obtain ⟨id, _, h6, g6⟩ := bind_ok g5
  obtain ⟨rfl, rfl⟩ := assertInt64_ok h6
  obtain ⟨a2, b2, h7, g7⟩ := bind_ok g6
  obtain ⟨ls, _, h8, g8⟩ := bind_ok g7
  obtain ⟨rfl, rfl⟩ := asStr_ok h8
  obtain ⟨a3, b3, h9, g9⟩ := bind_ok g8
  obtain ⟨m, _, h10, g10⟩ := bind_ok g9
  obtain ⟨rfl, rfl⟩ := asMap_ok h10
  obtain ⟨rfl, rfl⟩ := pure_ok g10
  exact ⟨_, cons_expl H h1 (cons_expl H h3 (cons_expl H h5 (cons_expl H h7 (cons_expl H h9 (nil_expl _))))), by simp [structOf]⟩

theorem path_expl (H : Expl dec) {b r : Bytes} {v : Val} (g0 : decodePath dec b = .ok (v, r)) :
    ∃ xs, (∃ ps, ReadsList ps b r ∧ ofPSList ps = some xs) ∧ structOf 0x50 xs = some v := by
  obtain ⟨a1, b1, h1, g1⟩ := bind_ok g0
  obtain ⟨ns, _, h2, g2⟩ := bind_ok g1
  obtain ⟨rfl, rfl⟩ := asList_ok h2
  obtain ⟨_, _, h3, g3⟩ := bind_ok g2
  obtain ⟨k3, rfl, rfl⟩ := sliceToNode_ok h3
  obtain ⟨a2, b2, h4, g4⟩ := bind_ok g3
  obtain ⟨rs, _, h5, g5⟩ := bind_ok g4
  obtain ⟨rfl, rfl⟩ := asList_ok h5
  obtain ⟨_, _, h6, g6⟩ := bind_ok g5
  obtain ⟨k6, rfl, rfl⟩ := sliceToUnbound_ok h6
  obtain ⟨a3, b3, h7, g7⟩ := bind_ok g6
  obtain ⟨sq, _, h8, g8⟩ := bind_ok g7
  obtain ⟨rfl, rfl⟩ := asList_ok h8
  obtain ⟨_, _, h9, g9⟩ := bind_ok g8
  obtain ⟨k9, rfl⟩ := sliceToInt_ok h9
  obtain ⟨rfl, rfl⟩ := pure_ok g9
  exact ⟨_, cons_expl H h1 (cons_expl H h4 (cons_expl H h7 (nil_expl _))), by simp [structOf, k3, k6, k9]⟩

theorem unbound_expl (H : Expl dec) {b r : Bytes} {v : Val} (g0 : decodeUnbound dec b = .ok (v, r)) :
    ∃ xs, (∃ ps, ReadsList ps b r ∧ ofPSList ps = some xs) ∧ structOf 0x72 xs = some v := by
  obtain ⟨a1, b1, h5, g1⟩ := bind_ok g0
  obtain ⟨id, _, h6, g2⟩ := bind_ok g1
  obtain ⟨rfl, rfl⟩ := assertInt64_ok h6
  obtain ⟨a2, b2, h7, g3⟩ := bind_ok g2
  obtain ⟨ls, _, h8, g4⟩ := bind_ok g3
  obtain ⟨rfl, rfl⟩ := asStr_ok h8
  obtain ⟨a3, b3, h9, g5⟩ := bind_ok g4
  obtain ⟨m, _, h10, g6⟩ := bind_ok g5
  obtain ⟨rfl, rfl⟩ := asMap_ok h10
  obtain ⟨rfl, rfl⟩ := pure_ok g6
  exact ⟨_, cons_expl H h5 (cons_expl H h7 (cons_expl H h9 (nil_expl _))), by simp [structOf]⟩

theorem record_expl (H : Expl dec) {b r : Bytes} {v : Val} (g0 : decodeRecord dec b = .ok (v, r)) :
    ∃ xs, (∃ ps, ReadsList ps b r ∧ ofPSList ps = some xs) ∧ structOf 0x71 xs = some v := by
  obtain ⟨a1, b1, h1, g1⟩ := bind_ok g0
  obtain ⟨ns, _, h2, g2⟩ := bind_ok g1
  obtain ⟨rfl, rfl⟩ := asList_ok h2
  obtain ⟨rfl, rfl⟩ := pure_ok g2
  exact ⟨_, cons_expl H h1 (nil_expl _), by simp [structOf]⟩

theorem failure_expl (H : Expl dec) {b r : Bytes} {v : Val} (g0 : decodeFailure dec b = .ok (v, r)) :
    ∃ xs, (∃ ps, ReadsList ps b r ∧ ofPSList ps = some xs) ∧ structOf 0x7F xs = some v := by
  obtain ⟨a1, b1, h1, g1⟩ := bind_ok g0
  obtain ⟨ns, _, h2, g2⟩ := bind_ok g1
  obtain ⟨rfl, rfl⟩ := asMap_ok h2
  obtain ⟨rfl, rfl⟩ := pure_ok g2
  exact ⟨_, cons_expl H h1 (nil_expl _), by simp [structOf]⟩

theorem success_expl (H : Expl dec) {b r : Bytes} {v : Val} (g0 : decodeSuccess dec b = .ok (v, r)) :
    ∃ xs, (∃ ps, ReadsList ps b r ∧ ofPSList ps = some xs) ∧ structOf 0x70 xs = some v := by
  obtain ⟨a1, b1, h1, g1⟩ := bind_ok g0
  obtain ⟨ns, _, h2, g2⟩ := bind_ok g1
  obtain ⟨rfl, rfl⟩ := asMap_ok h2
  obtain ⟨rfl, rfl⟩ := pure_ok g2
  exact ⟨_, cons_expl H h1 (nil_expl _), by simp [structOf]⟩

theorem sig_expl (H : Expl dec) {sig : UInt8} {b r : Bytes} {v : Val} (h : decodeSig dec sig b = .ok (v, r)) :
    ∃ xs, (∃ ps, ReadsList ps b r ∧ ofPSList ps = some xs) ∧ structOf sig xs = some v := by
  unfold decodeSig at h
  by_cases hs : sig = NodeSignature
  · rw [if_pos hs] at h; subst hs
    exact node_expl H h
  rw [if_neg hs] at h; clear hs
  by_cases hs : sig = RelationshipSignature
  · rw [if_pos hs] at h; subst hs
    exact rel_expl H h
  rw [if_neg hs] at h; clear hs
  by_cases hs : sig = PathSignature
  · rw [if_pos hs] at h; subst hs
    exact path_expl H h
  rw [if_neg hs] at h; clear hs
  by_cases hs : sig = UnboundRelationshipSignature
  · rw [if_pos hs] at h; subst hs
    exact unbound_expl H h
  rw [if_neg hs] at h; clear hs
  by_cases hs : sig = RecordMessageSignature
  · rw [if_pos hs] at h; subst hs
    exact record_expl H h
  rw [if_neg hs] at h; clear hs
  by_cases hs : sig = FailureMessageSignature
  · rw [if_pos hs] at h; subst hs
    exact failure_expl H h
  rw [if_neg hs] at h; clear hs
  by_cases hs : sig = IgnoredMessageSignature
  · rw [if_pos hs] at h; subst hs
    obtain ⟨rfl, rfl⟩ := pure_ok h
    exact ⟨_, nil_expl _, rfl⟩
  rw [if_neg hs] at h; clear hs
  by_cases hs : sig = SuccessMessageSignature
  · rw [if_pos hs] at h; subst hs
    exact success_expl H h
  rw [if_neg hs] at h; clear hs
  by_cases hs : sig = AckFailureMessageSignature
  · rw [if_pos hs] at h; subst hs
    obtain ⟨rfl, rfl⟩ := pure_ok h
    exact ⟨_, nil_expl _, rfl⟩
  rw [if_neg hs] at h; clear hs
  by_cases hs : sig = DiscardAllMessageSignature
  · rw [if_pos hs] at h; subst hs
    obtain ⟨rfl, rfl⟩ := pure_ok h
    exact ⟨_, nil_expl _, rfl⟩
  rw [if_neg hs] at h; clear hs
  by_cases hs : sig = PullAllMessageSignature
  · rw [if_pos hs] at h; subst hs
    obtain ⟨rfl, rfl⟩ := pure_ok h
    exact ⟨_, nil_expl _, rfl⟩
  rw [if_neg hs] at h; clear hs
  by_cases hs : sig = ResetMessageSignature
  · rw [if_pos hs] at h; subst hs
    obtain ⟨rfl, rfl⟩ := pure_ok h
    exact ⟨_, nil_expl _, rfl⟩
  rw [if_neg hs] at h; clear hs
  cases h

theorem struct_expl (H : Expl dec) {n : Nat} {k : Int} {hd b r : Bytes} {v : Val} (hh : Hdr fullRange .struct n hd) (h : decodeStruct dec k b = .ok (v, r)) :
    ∃ p, Reads p (hd ++ b) r ∧ ofPS p = some v := by
  obtain ⟨sig, b1, h1, h2⟩ := bind_ok h
  obtain ⟨xs, ⟨ps, h3, h4⟩, h5⟩ := sig_expl H h2
  unfold readByte at h1
  cases b with
  | nil => cases h1
  | cons x b =>
    cases h1
    refine ⟨.struct sig ps, ?_, by simp [ofPS, h4, h5]⟩
    simp only [Reads]
    exact ⟨n, hd, b1, hh, rfl, h3⟩

/-! ## Markers -/

theorem str_field {w : Nat} {m : UInt8} {msg : String} {b r : Bytes} {v : Val} (hw : 0 < w) (hm : Kind.str.marker w = some m)
    (h : (readSize w msg >>= fun size => next size) b = .ok (v, r)) : ∃ p, Reads p (m :: b) r ∧ ofPS p = some v := by
  obtain ⟨n, b1, h1, h2⟩ := bind_ok h
  obtain ⟨a, rfl, h4, rfl⟩ := readSize_ok h1
  by_cases hn : 0 ≤ signedOf w a
  · obtain ⟨n, h5, h6, h7⟩ := (size_field hw h4).1 hn
    rw [h5] at h2
    exact next_expl (h := m :: a) (.inr ⟨w, m, a, hm, h6, h7, rfl⟩) h2
  · simp only [next] at h2
    rw [if_pos (by omega)] at h2
    cases h2

theorem list_field (H : Expl dec) {w : Nat} {m : UInt8} {msg : String} {b r : Bytes} {v : Val} (hw : 0 < w) (hm : Kind.list.marker w = some m)
    (h : (readSize w msg >>= fun size => decodeSlice dec size) b = .ok (v, r)) : ∃ p, Reads p (m :: b) r ∧ ofPS p = some v := by
  obtain ⟨n, b1, h1, h2⟩ := bind_ok h
  obtain ⟨a, rfl, h4, rfl⟩ := readSize_ok h1
  by_cases hn : 0 ≤ signedOf w a
  · obtain ⟨n, h5, h6, h7⟩ := (size_field hw h4).1 hn
    rw [h5] at h2
    exact slice_expl (h := m :: a) H (.inr ⟨w, m, a, hm, h6, h7, rfl⟩) h2
  · simp only [decodeSlice] at h2
    rw [if_pos (by omega)] at h2
    cases h2

theorem map_field (H : Expl dec) {w : Nat} {m : UInt8} {msg : String} {b r : Bytes} {v : Val} (hw : 0 < w) (hm : Kind.map.marker w = some m)
    (h : (readSize w msg >>= fun size => decodeMap dec size) b = .ok (v, r)) : ∃ p, Reads p (m :: b) r ∧ ofPS p = some v := by
  obtain ⟨n, b1, h1, h2⟩ := bind_ok h
  obtain ⟨a, rfl, h4, rfl⟩ := readSize_ok h1
  by_cases hn : 0 ≤ signedOf w a
  · obtain ⟨n, h5, h6, h7⟩ := (size_field hw h4).1 hn
    rw [h5] at h2
    exact map_expl (h := m :: a) H (.inr ⟨w, m, a, hm, h6, h7, rfl⟩) h2
  · obtain ⟨n, h6, h7⟩ := (size_field hw h4).2 (by omega)
    exact mapNeg_expl (by omega) hm h6 h7 h2

theorem struct_field (H : Expl dec) {w : Nat} {m : UInt8} {msg : String} {b r : Bytes} {v : Val} (hm : Kind.struct.marker w = some m)
    (h : (readSize w msg >>= fun size => decodeStruct dec size) b = .ok (v, r)) : ∃ p, Reads p (m :: b) r ∧ ofPS p = some v := by
  obtain ⟨n, b1, h1, h2⟩ := bind_ok h
  obtain ⟨a, rfl, h4, rfl⟩ := readSize_ok h1
  exact struct_expl (hd := m :: a) H (.inr ⟨w, m, a, hm, ⟨h4, rfl⟩, by rw [← h4]; exact ofBytes_lt a, rfl⟩) h2

theorem int_field {w : Nat} {b r : Bytes} {v : Val} {m : UInt8} (hw : 0 < w) (hm : ∀ n a, Signed w n a → Packs fullRange (.int n) (m :: a))
    (h : readInt w b = .ok (v, r)) : ∃ p, Reads p (m :: b) r ∧ ofPS p = some v := by
  obtain ⟨n, a, h1, rfl, rfl⟩ := readInt_expl hw h
  refine ⟨.int n, ?_, rfl⟩
  simp only [Reads]
  exact ⟨m :: a, hm n a h1, rfl⟩

/-- The one-byte header of size `m - base`. -/
theorem tiny_hdr (lim : Nat → Nat) {k : Kind} {m : UInt8} {n : Nat} (h : m.toNat = k.tiny + n) (hn : n < 16) : Hdr lim k n [m] := by
  refine .inl ⟨hn, ?_⟩
  rw [← h]
  simp

theorem tinyInt_expl {m : UInt8} (h : wrapSigned 1 m.toNat ≥ -16 ∧ wrapSigned 1 m.toNat ≤ 127) (r : Bytes) :
    ∃ p, Reads p (m :: r) r ∧ ofPS p = some (.int .int64 (wrapSigned 1 m.toNat)) := by
  refine ⟨.int (wrapSigned 1 m.toNat), ?_, rfl⟩
  simp only [Reads, Packs]
  refine ⟨[m], .inl ⟨h.1, by omega, ?_⟩, rfl⟩
  have := signed_signedOf (w := 1) (bs := [m]) rfl (by decide)
  simpa [signedOf, beNat] using this

theorem marker_expl (H : Expl dec) (m : UInt8) {b r : Bytes} {v : Val} (h : decodeMarker dec m b = .ok (v, r)) :
    ∃ p, Reads p (m :: b) r ∧ ofPS p = some v := by
  unfold decodeMarker at h
  by_cases hm : m = NilMarker
  · rw [if_pos hm] at h; subst hm; obtain ⟨rfl, rfl⟩ := pure_ok h
    exact ⟨.null, by simp only [Reads, Packs]; exact ⟨_, rfl, rfl⟩, rfl⟩
  rw [if_neg hm] at h; clear hm
  by_cases hm : m = TrueMarker
  · rw [if_pos hm] at h; subst hm; obtain ⟨rfl, rfl⟩ := pure_ok h
    exact ⟨.bool true, by simp only [Reads, Packs]; exact ⟨_, rfl, rfl⟩, rfl⟩
  rw [if_neg hm] at h; clear hm
  by_cases hm : m = FalseMarker
  · rw [if_pos hm] at h; subst hm; obtain ⟨rfl, rfl⟩ := pure_ok h
    exact ⟨.bool false, by simp only [Reads, Packs]; exact ⟨_, rfl, rfl⟩, rfl⟩
  rw [if_neg hm] at h; clear hm
  by_cases hm : wrapSigned 1 m.toNat ≥ -16 ∧ wrapSigned 1 m.toNat ≤ 127
  · rw [if_pos hm] at h; obtain ⟨rfl, rfl⟩ := pure_ok h
    exact tinyInt_expl hm _
  rw [if_neg hm] at h; clear hm
  by_cases hm : m = Int8Marker
  · rw [if_pos hm] at h; subst hm
    exact int_field (by decide) (fun n a h => by simp only [Packs]; exact .inr (.inl ⟨a, rfl, h⟩)) h
  rw [if_neg hm] at h; clear hm
  by_cases hm : m = Int16Marker
  · rw [if_pos hm] at h; subst hm
    exact int_field (by decide) (fun n a h => by simp only [Packs]; exact .inr (.inr (.inl ⟨a, rfl, h⟩))) h
  rw [if_neg hm] at h; clear hm
  by_cases hm : m = Int32Marker
  · rw [if_pos hm] at h; subst hm
    exact int_field (by decide) (fun n a h => by simp only [Packs]; exact .inr (.inr (.inr (.inl ⟨a, rfl, h⟩)))) h
  rw [if_neg hm] at h; clear hm
  by_cases hm : m = Int64Marker
  · rw [if_pos hm] at h; subst hm
    exact int_field (by decide) (fun n a h => by simp only [Packs]; exact .inr (.inr (.inr (.inr ⟨a, rfl, h⟩)))) h
  rw [if_neg hm] at h; clear hm
  by_cases hm : m = FloatMarker
  · rw [if_pos hm] at h; subst hm
    obtain ⟨a, b1, h1, h2⟩ := bind_ok h
    obtain ⟨rfl, rfl⟩ := pure_ok h2
    obtain ⟨rfl, h3⟩ := readRaw_ok h1
    refine ⟨.float (UInt64.ofNat (beNat a)), ?_, rfl⟩
    simp only [Reads, Packs]
    refine ⟨_, ⟨a, rfl, h3, ?_⟩, rfl⟩
    have := ofBytes_lt a
    rw [h3] at this
    rw [beNat_eq, UInt64.toNat_ofNat', Nat.mod_eq_of_lt (by simpa using this)]
  rw [if_neg hm] at h; clear hm
  by_cases hm : m ≥ TinyStringMarker ∧ m ≤ TinyStringMarker + 0x0F
  · rw [if_pos hm] at h
    have hm : 0x80 ≤ m.toNat ∧ m.toNat ≤ 0x8F := ⟨UInt8.le_iff_toNat_le.1 hm.1, UInt8.le_iff_toNat_le.1 hm.2⟩
    have hh := tiny_hdr halfRange (k := .str) (m := m) (n := m.toNat - TinyStringMarker.toNat)
      (by simp only [Kind.tiny, show TinyStringMarker.toNat = 0x80 from rfl]; omega) (by simp only [show TinyStringMarker.toNat = 0x80 from rfl]; omega)
    refine next_expl (h := [m]) hh ?_
    split at h
    · rename_i h0
      rw [h0]
      simpa [next] using h
    · exact h
  rw [if_neg hm] at h; clear hm
  by_cases hm : m = String8Marker
  · rw [if_pos hm] at h; subst hm; exact str_field (w := 1) (by decide) rfl h
  rw [if_neg hm] at h; clear hm
  by_cases hm : m = String16Marker
  · rw [if_pos hm] at h; subst hm; exact str_field (w := 2) (by decide) rfl h
  rw [if_neg hm] at h; clear hm
  by_cases hm : m = String32Marker
  · rw [if_pos hm] at h; subst hm; exact str_field (w := 4) (by decide) rfl h
  rw [if_neg hm] at h; clear hm
  by_cases hm : m ≥ TinySliceMarker ∧ m ≤ TinySliceMarker + 0x0F
  · rw [if_pos hm] at h
    have hm : 0x90 ≤ m.toNat ∧ m.toNat ≤ 0x9F := ⟨UInt8.le_iff_toNat_le.1 hm.1, UInt8.le_iff_toNat_le.1 hm.2⟩
    exact slice_expl (h := [m]) H (tiny_hdr halfRange (by simp only [Kind.tiny, show TinySliceMarker.toNat = 0x90 from rfl]; omega) (by simp only [show TinySliceMarker.toNat = 0x90 from rfl]; omega)) h
  rw [if_neg hm] at h; clear hm
  by_cases hm : m = Slice8Marker
  · rw [if_pos hm] at h; subst hm; exact list_field H (w := 1) (by decide) rfl h
  rw [if_neg hm] at h; clear hm
  by_cases hm : m = Slice16Marker
  · rw [if_pos hm] at h; subst hm; exact list_field H (w := 2) (by decide) rfl h
  rw [if_neg hm] at h; clear hm
  by_cases hm : m = Slice32Marker
  · rw [if_pos hm] at h; subst hm; exact list_field H (w := 4) (by decide) rfl h
  rw [if_neg hm] at h; clear hm
  by_cases hm : m ≥ TinyMapMarker ∧ m ≤ TinyMapMarker + 0x0F
  · rw [if_pos hm] at h
    have hm : 0xA0 ≤ m.toNat ∧ m.toNat ≤ 0xAF := ⟨UInt8.le_iff_toNat_le.1 hm.1, UInt8.le_iff_toNat_le.1 hm.2⟩
    exact map_expl (h := [m]) H (tiny_hdr halfRange (by simp only [Kind.tiny, show TinyMapMarker.toNat = 0xA0 from rfl]; omega) (by simp only [show TinyMapMarker.toNat = 0xA0 from rfl]; omega)) h
  rw [if_neg hm] at h; clear hm
  by_cases hm : m = Map8Marker
  · rw [if_pos hm] at h; subst hm; exact map_field H (w := 1) (by decide) rfl h
  rw [if_neg hm] at h; clear hm
  by_cases hm : m = Map16Marker
  · rw [if_pos hm] at h; subst hm; exact map_field H (w := 2) (by decide) rfl h
  rw [if_neg hm] at h; clear hm
  by_cases hm : m = Map32Marker
  · rw [if_pos hm] at h; subst hm; exact map_field H (w := 4) (by decide) rfl h
  rw [if_neg hm] at h; clear hm
  by_cases hm : m ≥ TinyStructMarker ∧ m ≤ TinyStructMarker + 0x0F
  · rw [if_pos hm] at h
    have hm : 0xB0 ≤ m.toNat ∧ m.toNat ≤ 0xBF := ⟨UInt8.le_iff_toNat_le.1 hm.1, UInt8.le_iff_toNat_le.1 hm.2⟩
    exact struct_expl (hd := [m]) H (tiny_hdr fullRange (n := m.toNat - 0xB0) (by simp only [Kind.tiny]; omega) (by omega)) h
  rw [if_neg hm] at h; clear hm
  by_cases hm : m = Struct8Marker
  · rw [if_pos hm] at h; subst hm; exact struct_field H (w := 1) rfl h
  rw [if_neg hm] at h; clear hm
  by_cases hm : m = Struct16Marker
  · rw [if_pos hm] at h; subst hm; exact struct_field H (w := 2) rfl h
  rw [if_neg hm] at h
  cases h

theorem decode_expl : ∀ f, Expl (decode f)
  | 0 => fun _ _ _ h => by cases h
  | f + 1 => by
    intro b v r h
    cases b with
    | nil => cases h
    | cons m b =>
      rw [decode_cons] at h
      exact marker_expl (decode_expl f) m h

/-! ## The other direction -/

theorem hdr_ne {lim : Nat → Nat} {k : Kind} {n : Nat} {h : Bytes} (hh : Hdr lim k n h) : 0 < h.length := by
  rcases hh with ⟨_, rfl⟩ | ⟨w, m, bs, _, _, _, rfl⟩ <;> simp

theorem packs_scalar_ne {p : PS} {a : Bytes} (h : Packs fullRange p a) (hp : match p with | .null | .bool _ | .int _ | .float _ => True | _ => False) : 0 < a.length := by
  cases p with
  | null => simp only [Packs] at h; subst h; decide
  | bool b => simp only [Packs] at h; subst h; simp
  | int v =>
    simp only [Packs] at h
    rcases h with ⟨_, _, h⟩ | ⟨_, rfl, _⟩ | ⟨_, rfl, _⟩ | ⟨_, rfl, _⟩ | ⟨_, rfl, _⟩
    · have := h.1; omega
    all_goals simp
  | float f => simp only [Packs] at h; obtain ⟨_, rfl, _⟩ := h; simp
  | _ => cases hp

mutual
/-- Reading takes at least one byte. -/
theorem reads_lt : (p : PS) → (b r : Bytes) → Reads p b r → r.length < b.length
  | .null, b, r, h => by simp only [Reads] at h; obtain ⟨a, h1, rfl⟩ := h; have := packs_scalar_ne h1 trivial; simp; omega
  | .bool _, b, r, h => by simp only [Reads] at h; obtain ⟨a, h1, rfl⟩ := h; have := packs_scalar_ne h1 trivial; simp; omega
  | .int _, b, r, h => by simp only [Reads] at h; obtain ⟨a, h1, rfl⟩ := h; have := packs_scalar_ne h1 trivial; simp; omega
  | .float _, b, r, h => by simp only [Reads] at h; obtain ⟨a, h1, rfl⟩ := h; have := packs_scalar_ne h1 trivial; simp; omega
  | .str s, b, r, h => by simp only [Reads] at h; obtain ⟨n, hd, h1, rfl, _⟩ := h; have := hdr_ne h1; simp; omega
  | .list xs, b, r, h => by
    simp only [Reads] at h; obtain ⟨hd, c, h1, rfl, h2⟩ := h
    have := hdr_ne h1; have := readsList_le xs c r h2; simp; omega
  | .map kvs, b, r, h => by
    simp only [Reads] at h
    rcases h with ⟨hd, c, h1, rfl, h2⟩ | ⟨_, w, n, m, bs, _, _, _, rfl⟩
    · have := hdr_ne h1; have := readsKVs_le kvs c r h2; simp; omega
    · simp; omega
  | .struct sig fs, b, r, h => by
    simp only [Reads] at h; obtain ⟨n, hd, c, h1, rfl, h2⟩ := h
    have := hdr_ne h1; have := readsList_le fs c r h2; simp; omega

theorem readsList_le : (ps : List PS) → (b r : Bytes) → ReadsList ps b r → r.length ≤ b.length
  | [], b, r, h => by simp only [ReadsList] at h; subst h; exact Nat.le_refl _
  | p :: ps, b, r, h => by
    simp only [ReadsList] at h; obtain ⟨c, h1, h2⟩ := h
    have := reads_lt p b c h1; have := readsList_le ps c r h2; omega

theorem readsKVs_le : (ps : List (List UInt8 × PS)) → (b r : Bytes) → ReadsKVs ps b r → r.length ≤ b.length
  | [], b, r, h => by simp only [ReadsKVs] at h; subst h; exact Nat.le_refl _
  | (k, p) :: ps, b, r, h => by
    simp only [ReadsKVs] at h; obtain ⟨c, d, h1, h2, h3⟩ := h
    have := reads_lt p c d h2; have := readsKVs_le ps d r h3
    simp only [Reads] at h1; obtain ⟨n, hd, h4, rfl, _⟩ := h1
    simp; omega
end

theorem readSize_any {w : Nat} {a : Bytes} {msg : String} (h : a.length = w) (r : Bytes) : readSize w msg (a ++ r) = .ok (signedOf w a, r) := by
  simp [readSize, readRaw_append r h]

theorem decode_struct {n : Nat} {h : Bytes} (hh : Hdr fullRange .struct n h) (f : Nat) (r : Bytes) :
    ∃ k, decode (f + 1) (h ++ r) = decodeStruct (decode f) k r := by
  rcases hh with ⟨h1, rfl⟩ | ⟨w, m, bs, h1, h2, h3, rfl⟩
  · exact ⟨n, by rw [List.singleton_append, decode_cons, decodeMarker_tiny _ _ _ h1]; rfl⟩
  · refine ⟨signedOf w bs, ?_⟩
    rw [List.cons_append, decode_cons]
    have hc : (w = 1 ∧ m = 0xDC) ∨ (w = 2 ∧ m = 0xDD) := by
      unfold Kind.marker at h1
      split at h1 <;> simp_all
    rcases hc with ⟨rfl, rfl⟩ | ⟨rfl, rfl⟩ <;> unfold decodeMarker <;> simp [NilMarker, TrueMarker, FalseMarker, Int8Marker, Int16Marker, Int32Marker, Int64Marker,
      FloatMarker, TinyStringMarker, String8Marker, String16Marker, String32Marker, TinySliceMarker,
      Slice8Marker, Slice16Marker, Slice32Marker, TinyMapMarker, Map8Marker, Map16Marker, Map32Marker,
      TinyStructMarker, Struct8Marker, Struct16Marker, wrapSigned, readSize_any h2.1 r]

theorem decode_mapNeg {w n : Nat} {m : UInt8} {a : Bytes} (hm : Kind.map.marker w = some m) (ha : Unsigned w n a) (hn : halfRange w ≤ n) (f : Nat) (r : Bytes) :
    decode (f + 1) (m :: a ++ r) = .ok (.map [], r) := by
  have hw : 0 < w := by unfold Kind.marker at hm; split at hm <;> first | decide | cases hm
  have hs : signedOf w a < 0 := by
    by_cases h : 0 ≤ signedOf w a
    · obtain ⟨k, _, h1, h2⟩ := (size_field hw ha.1).1 h
      have : k = n := h1.2.symm.trans ha.2
      omega
    · omega
  have hd : ∀ r, decodeMap (decode f) (signedOf w a) r = .ok (.map [], r) := by
    intro r
    unfold decodeMap
    rw [show (signedOf w a).toNat = 0 by omega]
    rfl
  rw [List.cons_append, decode_cons]
  have hc : (w = 1 ∧ m = 0xD8) ∨ (w = 2 ∧ m = 0xD9) ∨ (w = 4 ∧ m = 0xDA) := by
    unfold Kind.marker at hm
    split at hm <;> simp_all
  rcases hc with ⟨rfl, rfl⟩ | ⟨rfl, rfl⟩ | ⟨rfl, rfl⟩ <;> unfold decodeMarker <;> simp [NilMarker, TrueMarker, FalseMarker, Int8Marker, Int16Marker, Int32Marker, Int64Marker,
      FloatMarker, TinyStringMarker, String8Marker, String16Marker, String32Marker, TinySliceMarker,
      Slice8Marker, Slice16Marker, Slice32Marker, TinyMapMarker, Map8Marker, Map16Marker, Map32Marker,
      TinyStructMarker, Struct8Marker, Struct16Marker, wrapSigned, readSize_any ha.1 r, hd r]

theorem next_lenient {s r : Bytes} {n : Nat} (h : s.length = n ∨ s.length < n ∧ r = []) : next n (s ++ r) = .ok (.str s, r) := by
  unfold next
  rw [if_neg (by omega)]
  rcases h with rfl | ⟨h, rfl⟩
  · simp
  · simp only [List.append_nil, Int.toNat_natCast]
    rw [List.take_of_length_le (by omega), List.drop_eq_nil_iff.2 (by omega)]

mutual
theorem dec_reads : (p : PS) → (b r : Bytes) → (f : Nat) → (v : Val) → Reads p b r → ofPS p = some v → b.length ≤ f → decode f b = .ok (v, r)
  | .null, b, r, f, v, h, hv, hf => by
    simp only [Reads] at h; obtain ⟨a, h1, rfl⟩ := h
    exact dec_packs .null a r f v h1 hv (by simp at hf; omega)
  | .bool x, b, r, f, v, h, hv, hf => by
    simp only [Reads] at h; obtain ⟨a, h1, rfl⟩ := h
    exact dec_packs (.bool x) a r f v (by simpa only [Packs] using h1) hv (by simp at hf; omega)
  | .int x, b, r, f, v, h, hv, hf => by
    simp only [Reads] at h; obtain ⟨a, h1, rfl⟩ := h
    exact dec_packs (.int x) a r f v (by simpa only [Packs] using h1) hv (by simp at hf; omega)
  | .float x, b, r, f, v, h, hv, hf => by
    simp only [Reads] at h; obtain ⟨a, h1, rfl⟩ := h
    exact dec_packs (.float x) a r f v (by simpa only [Packs] using h1) hv (by simp at hf; omega)
  | .str s, b, r, f, v, h, hv, hf => by
    simp only [Reads] at h
    obtain ⟨n, hd, h1, rfl, h2⟩ := h
    simp only [ofPS, Option.some.injEq] at hv; subst hv
    have := hdr_ne h1
    obtain ⟨f, rfl⟩ : ∃ g, f = g + 1 := ⟨f - 1, by simp at hf; omega⟩
    rw [List.append_assoc, decode_hdr h1]
    exact next_lenient h2
  | .list ps, b, r, f, v, h, hv, hf => by
    simp only [Reads] at h
    obtain ⟨hd, c, h1, rfl, h2⟩ := h
    simp only [ofPS, Option.map_eq_some_iff] at hv
    obtain ⟨xs, hxs, rfl⟩ := hv
    have := hdr_ne h1
    obtain ⟨f, rfl⟩ : ∃ g, f = g + 1 := ⟨f - 1, by simp at hf; omega⟩
    rw [decode_hdr h1]
    have hi := decItems_reads ps c r f xs h2 hxs (by simp at hf; omega)
    have hneg : ¬ ((ps.length : Int) < 0) := by omega
    simp [decBody, decodeSlice, hneg, hi]
  | .map ps, b, r, f, v, h, hv, hf => by
    simp only [Reads] at h
    simp only [ofPS, Option.map_eq_some_iff] at hv
    obtain ⟨xs, hxs, rfl⟩ := hv
    rcases h with ⟨hd, c, h1, rfl, h2⟩ | ⟨rfl, w, n, m, bs, h1, h2, h3, rfl⟩
    · have := hdr_ne h1
      obtain ⟨f, rfl⟩ : ∃ g, f = g + 1 := ⟨f - 1, by simp at hf; omega⟩
      rw [decode_hdr h1]
      have hi := decEntries_reads ps c r f xs [] h2 hxs (by simp at hf; omega)
      simp [decBody, decodeMap, hi, insertAll_eq]
    · obtain ⟨f, rfl⟩ : ∃ g, f = g + 1 := ⟨f - 1, by simp at hf; omega⟩
      cases hxs
      exact decode_mapNeg h1 h2 h3 f r
  | .struct sig fs, b, r, f, v, h, hv, hf => by
    simp only [Reads] at h
    obtain ⟨n, hd, c, h1, rfl, h2⟩ := h
    simp only [ofPS, Option.bind_eq_some_iff] at hv
    obtain ⟨xs, hxs, hs⟩ := hv
    have := hdr_ne h1
    obtain ⟨f, rfl⟩ : ∃ g, f = g + 1 := ⟨f - 1, by simp at hf; omega⟩
    obtain ⟨k, hk⟩ := decode_struct h1 f (sig :: c)
    rw [hk]
    have hi := decItems_reads fs c r f xs h2 hxs (by simp at hf; omega)
    simp [decodeStruct, readByte, decodeSig_eq hi (ofPSList_length hxs) hs]

theorem decItems_reads : (ps : List PS) → (b r : Bytes) → (f : Nat) → (xs : List Val) → ReadsList ps b r → ofPSList ps = some xs → b.length ≤ f →
    decodeItems (decode f) ps.length b = .ok (xs, r)
  | [], b, r, f, xs, h, hv, _ => by
    simp only [ReadsList] at h; subst h
    simp only [ofPSList, Option.some.injEq] at hv; subst hv
    simp [decodeItems]
  | p :: ps, b, r, f, xs, h, hv, hf => by
    simp only [ReadsList] at h
    obtain ⟨c, h1, h2⟩ := h
    simp only [ofPSList, Option.bind_eq_some_iff, Option.map_eq_some_iff] at hv
    obtain ⟨y, hy, ys, hys, rfl⟩ := hv
    have := reads_lt p b c h1
    simp only [List.length_cons, decodeItems]
    rw [dec_congr (dec_reads p b c f y h1 hy hf), dec_congr (decItems_reads ps c r f ys h2 hys (by omega))]
    rfl

theorem decEntries_reads : (ps : List (Bytes × PS)) → (b r : Bytes) → (f : Nat) → (xs m : KVs) → ReadsKVs ps b r → ofPSKVs ps = some xs → b.length ≤ f →
    decodeEntries (decode f) ps.length m b = .ok (insertAll m xs, r)
  | [], b, r, f, xs, m, h, hv, _ => by
    simp only [ReadsKVs] at h; subst h
    simp only [ofPSKVs, Option.some.injEq] at hv; subst hv
    simp [decodeEntries, insertAll]
  | (k, p) :: ps, b, r, f, xs, m, h, hv, hf => by
    simp only [ReadsKVs] at h
    obtain ⟨c, d, h1, h2, h3⟩ := h
    simp only [ofPSKVs, Option.bind_eq_some_iff, Option.map_eq_some_iff] at hv
    obtain ⟨y, hy, ys, hys, rfl⟩ := hv
    have hlt := reads_lt p c d h2
    have hk : decode f b = .ok (.str k, c) ∧ c.length < b.length := by
      simp only [Reads] at h1
      obtain ⟨n, hd, h4, rfl, h5⟩ := h1
      have := hdr_ne h4
      obtain ⟨f, rfl⟩ : ∃ g, f = g + 1 := ⟨f - 1, by simp at hf; omega⟩
      exact ⟨by rw [List.append_assoc, decode_hdr h4]; exact next_lenient h5, by simp; omega⟩
    simp only [List.length_cons, decodeEntries]
    rw [dec_congr hk.1, dec_congr (dec_reads p c d f y h2 hy (by omega)), dec_congr (show asKey (.str k) d = .ok (k, d) from rfl),
      decEntries_reads ps d r f ys (mapInsert m k y) h3 hys (by omega)]
    rfl
end

/-- The decoder accepts exactly the payloads of `Reads`. -/
theorem decodePayload_iff {b r : Bytes} {v : Val} : decodePayload b = .ok (v, r) ↔ ∃ p, Reads p b r ∧ ofPS p = some v :=
  ⟨fun h => decode_expl _ _ _ _ h, fun ⟨p, h1, h2⟩ => dec_reads p b r _ v h1 h2 (by omega)⟩

end Bolt.Lenient
