import Verif.Model.Timing
import Verif.Model.Errors
import Verif.Props.Reuse

/-!
# C86: timeouts
-/

namespace Bolt
open PackStream

/-- Something that happens at `t` is too late for a read that begins at `now` with timeout `T`: the deadline is not after
`now`, or is reached first. -/
def TooLate (T : _root_.Int) (now t : Nat) : Prop := T ≤ 0 ∨ (now : _root_.Int) + T ≤ t

instance (T : _root_.Int) (now t : Nat) : Decidable (TooLate T now t) := by unfold TooLate; infer_instance

/-- What a sequence of reads that begins at `now` hears of the arrivals: those that each come before the deadline of the
read that waits for them, which began when the previous one had arrived. -/
def hearing (T : _root_.Int) : Nat → List (Nat × Bytes) → List (Nat × Bytes)
  | _, [] => []
  | now, (t, s) :: rest => if TooLate T now t then [] else (t, s) :: hearing T (max now t) rest

/-- … the bytes of these … -/
def hears (T : _root_.Int) (now : Nat) (arr : List (Nat × Bytes)) : List Bytes := (hearing T now arr).map Prod.snd

/-- … and the error that follows: the end of the stream if it comes in time, else ErrBadConn. -/
def hearsErr (T : _root_.Int) (fin : Option (Nat × GoErr)) : Nat → List (Nat × Bytes) → GoErr
  | now, [] =>
    match fin with
    | some (t, .eof) => if TooLate T now t then .badConn else .eof
    | _ => .badConn
  | now, (t, _) :: rest => if TooLate T now t then .badConn else hearsErr T fin (max now t) rest

theorem late_iff (T : _root_.Int) (now t : Nat) : late T now t ↔ TooLate T now t := by unfold late TooLate; omega

theorem hearing_cons (T : _root_.Int) (now t : Nat) (s : Bytes) (rest : List (Nat × Bytes)) :
    hearing T now ((t, s) :: rest) = if late T now t then [] else (t, s) :: hearing T (max now t) rest := by
  simp only [hearing, late_iff]

theorem hears_cons (T : _root_.Int) (now t : Nat) (s : Bytes) (rest : List (Nat × Bytes)) :
    hears T now ((t, s) :: rest) = if late T now t then [] else s :: hears T (max now t) rest := by
  unfold hears
  rw [hearing_cons]
  split <;> rfl

theorem hearsErr_cons (T : _root_.Int) (fin : Option (Nat × GoErr)) (now t : Nat) (s : Bytes) (rest : List (Nat × Bytes)) :
    hearsErr T fin now ((t, s) :: rest) = if late T now t then .badConn else hearsErr T fin (max now t) rest := by
  simp only [hearsErr, late_iff]

theorem hearsErr_nil (T : _root_.Int) (fin : Option (Nat × GoErr)) (now : Nat) : hearsErr T fin now [] = (finish T now fin).2 := by
  unfold hearsErr finish
  cases fin with
  | none => rfl
  | some p =>
    obtain ⟨t, e⟩ := p
    by_cases h : TooLate T now t
    · simp only [late_iff, if_pos h]
      cases e <;> first | rfl | exact if_pos h
    · simp only [late_iff, if_neg h]
      cases e <;> first | rfl | exact if_neg h

/-- The stream that is heard. -/
def Net.heard (T : _root_.Int) (now : Nat) (k : Net) : Source := ⟨hears T now k.arrivals, hearsErr T k.fin now k.arrivals⟩

namespace Timing

variable {T : _root_.Int} {fin : Option (Nat × GoErr)}

theorem not_late_again {now t : Nat} (h : ¬ late T now t) : ¬ late T (max now t) t := by
  unfold late at *
  omega

/-- Same bytes and same stream to come; or the same error. -/
def Same (T : _root_.Int) (fin : Option (Nat × GoErr)) : TimedRes Bytes → ReadRes Bytes → Prop
  | .ok a now arr, .ok a' r => a = a' ∧ r = ⟨hears T now arr, hearsErr T fin now arr⟩
  | .err e _, .err e' _ => e = e'
  | _, _ => False

theorem same_full : (arr : List (Nat × Bytes)) → (now n : Nat) → (acc : Bytes) →
    Same T fin (readFullT T fin arr now n acc) (readFull (hearsErr T fin now arr) (hears T now arr) n acc)
  | arr, now, 0, acc => by
    have h1 : readFullT T fin arr now 0 acc = .ok acc now arr := by cases arr <;> rfl
    have h2 : ∀ e segs, readFull e segs 0 acc = .ok acc ⟨segs, e⟩ := by intro e segs; cases segs <;> rfl
    rw [h1, h2]
    exact ⟨rfl, rfl⟩
  | [], now, n + 1, acc => by rw [hearsErr_nil]; rfl
  | (t, s) :: rest, now, n + 1, acc => by
    simp only [readFullT, hears_cons, hearsErr_cons]
    by_cases hl : late T now t
    · simp only [if_pos hl]
      rfl
    · simp only [if_neg hl, readFull]
      by_cases hs : s.length ≤ n + 1
      · simp only [if_pos hs]
        exact same_full rest _ _ _
      · simp only [if_neg hs]
        refine ⟨rfl, ?_⟩
        simp only [hears_cons, hearsErr_cons, if_neg (not_late_again hl), Nat.max_assoc, Nat.max_self]

theorem same_data : (arr : List (Nat × Bytes)) → (now n : Nat) → (acc : Bytes) →
    Same T fin (readDataT T fin arr now n acc) (readData (hearsErr T fin now arr) (hears T now arr) n acc)
  | arr, now, 0, acc => by
    have h1 : readDataT T fin arr now 0 acc = .ok acc now arr := by cases arr <;> rfl
    have h2 : ∀ e segs, readData e segs 0 acc = .ok acc ⟨segs, e⟩ := by intro e segs; cases segs <;> rfl
    rw [h1, h2]
    exact ⟨rfl, rfl⟩
  | [], now, n + 1, acc => by rw [hearsErr_nil]; rfl
  | (t, s) :: rest, now, n + 1, acc => by
    simp only [readDataT, hears_cons, hearsErr_cons]
    by_cases hl : late T now t
    · simp only [if_pos hl]
      rfl
    · simp only [if_neg hl, readData]
      by_cases he : s = []
      · simp only [if_pos he]; rfl
      · simp only [if_neg he]
        by_cases hs : s.length ≤ n + 1
        · simp only [if_pos hs]
          exact same_data rest _ _ _
        · simp only [if_neg hs]
          refine ⟨rfl, ?_⟩
          simp only [hears_cons, hearsErr_cons, if_neg (not_late_again hl), Nat.max_assoc, Nat.max_self]

theorem same_msg (f : Nat) : (arr : List (Nat × Bytes)) → (now : Nat) → (out : Bytes) →
    Same T fin (readMsgT T fin f arr now out) (readMsgLoop f ⟨hears T now arr, hearsErr T fin now arr⟩ out) := by
  induction f with
  | zero => intro arr now out; rfl
  | succ f ih =>
    intro arr now out
    have h1 := same_full (T := T) (fin := fin) arr now 2 []
    unfold readMsgT readMsgLoop
    simp only
    cases h2 : readFullT T fin arr now 2 [] with
    | err e n =>
      cases h3 : readFull (hearsErr T fin now arr) (hears T now arr) 2 [] with
      | err e' r =>
        rw [h2, h3] at h1
        obtain rfl : e = e' := h1
        exact rfl
      | ok a r => rw [h2, h3] at h1; exact h1.elim
    | ok a now' arr' =>
      cases h3 : readFull (hearsErr T fin now arr) (hears T now arr) 2 [] with
      | err e' r => rw [h2, h3] at h1; exact h1.elim
      | ok a' r =>
        rw [h2, h3] at h1
        obtain ⟨rfl, rfl⟩ := h1
        simp only
        by_cases hz : beNat a = 0
        · simp only [if_pos hz]; exact ⟨rfl, rfl⟩
        · simp only [if_neg hz]
          have h4 := same_data (T := T) (fin := fin) arr' now' (beNat a) []
          cases h5 : readDataT T fin arr' now' (beNat a) [] with
          | err e n =>
            cases h6 : readData (hearsErr T fin now' arr') (hears T now' arr') (beNat a) [] with
            | err e' r =>
              rw [h5, h6] at h4
              obtain rfl : e = e' := h4
              exact rfl
            | ok d r => rw [h5, h6] at h4; exact h4.elim
          | ok d n arr'' =>
            cases h6 : readData (hearsErr T fin now' arr') (hears T now' arr') (beNat a) [] with
            | err e' r => rw [h5, h6] at h4; exact h4.elim
            | ok d' r =>
              rw [h5, h6] at h4
              obtain ⟨rfl, rfl⟩ := h4
              exact ih arr'' n (out ++ d)

theorem hears_prefix : (arr : List (Nat × Bytes)) → (now : Nat) → (hears T now arr).flatten.length ≤ (arr.map Prod.snd).flatten.length
  | [], _ => Nat.le_refl _
  | (t, s) :: rest, now => by
    have := hears_prefix rest (max now t)
    rw [hears_cons]
    by_cases hl : late T now t
    · simp only [if_pos hl]; simp
    · simp only [if_neg hl, List.flatten_cons, List.map_cons, List.length_append]; omega

/-- The time at which a read can begin to wait: the beginning, or when something has arrived. -/
def Begun (now : Nat) (arr : List (Nat × Bytes)) (t : Nat) : Prop := t = now ∨ (now ≤ t ∧ t ∈ arr.map Prod.fst)

/-- A result is returned when it has arrived; an error at most `T` later. -/
def Prompt (T : _root_.Int) (now : Nat) (arr : List (Nat × Bytes)) : TimedRes Bytes → Prop
  | .ok _ t' arr' => Begun now (hearing T now arr) t' ∧ ∀ x ∈ (hearing T t' arr').map Prod.fst, x ∈ (hearing T now arr).map Prod.fst
  | .err _ t' => ∃ t, Begun now (hearing T now arr) t ∧ t ≤ t' ∧ t' ≤ t + T.toNat

theorem begun_ge {now t : Nat} {arr : List (Nat × Bytes)} (h : Begun now arr t) : now ≤ t := by
  rcases h with rfl | h
  · exact Nat.le_refl _
  · exact h.1

theorem begun_trans {now t t' : Nat} {arr arr' : List (Nat × Bytes)} (h : Begun now arr t)
    (hs : ∀ x ∈ arr'.map Prod.fst, x ∈ arr.map Prod.fst) (h' : Begun t arr' t') : Begun now arr t' := by
  have h1 := begun_ge h
  rcases h' with rfl | ⟨h2, h3⟩
  · exact h
  · exact .inr ⟨by omega, hs _ h3⟩

theorem prompt_trans {now t : Nat} {arr arr' : List (Nat × Bytes)} {r : TimedRes Bytes} (h : Begun now (hearing T now arr) t)
    (hs : ∀ x ∈ (hearing T t arr').map Prod.fst, x ∈ (hearing T now arr).map Prod.fst) (h' : Prompt T t arr' r) : Prompt T now arr r := by
  cases r with
  | ok a t' arr'' => exact ⟨begun_trans h hs h'.1, fun x hx => hs x (h'.2 x hx)⟩
  | err e t' =>
    obtain ⟨t1, h1, h2⟩ := h'
    exact ⟨t1, begun_trans h hs h1, h2⟩

theorem begun_head {now t : Nat} {s : Bytes} {rest : List (Nat × Bytes)} (hl : ¬ late T now t) :
    Begun now (hearing T now ((t, s) :: rest)) (max now t) := by
  rw [hearing_cons, if_neg hl]
  rcases Nat.le_total t now with h | h
  · rw [Nat.max_eq_left h]; exact .inl rfl
  · rw [Nat.max_eq_right h]; exact .inr ⟨h, by simp⟩

theorem hearing_rest {now t : Nat} {s : Bytes} {rest : List (Nat × Bytes)} (hl : ¬ late T now t) :
    ∀ x ∈ (hearing T (max now t) rest).map Prod.fst, x ∈ (hearing T now ((t, s) :: rest)).map Prod.fst := by
  rw [hearing_cons, if_neg hl]
  exact fun x hx => List.mem_cons_of_mem _ hx

theorem hearing_split {now t : Nat} {s s' : Bytes} {rest : List (Nat × Bytes)} (hl : ¬ late T now t) :
    ∀ x ∈ (hearing T (max now t) ((t, s') :: rest)).map Prod.fst, x ∈ (hearing T now ((t, s) :: rest)).map Prod.fst := by
  rw [hearing_cons, hearing_cons, if_neg hl, if_neg (not_late_again hl), Nat.max_assoc, Nat.max_self]
  exact fun x hx => hx

theorem finish_prompt (now : Nat) : now ≤ (finish T now fin).1 ∧ (finish T now fin).1 ≤ now + T.toNat := by
  unfold finish
  cases fin with
  | none => exact ⟨by simp only; omega, Nat.le_refl _⟩
  | some p =>
    obtain ⟨t, e⟩ := p
    simp only
    split
    · exact ⟨by simp only; omega, Nat.le_refl _⟩
    · next h =>
      unfold late at h
      simp only
      omega

theorem prompt_full : (arr : List (Nat × Bytes)) → (now n : Nat) → (acc : Bytes) → Prompt T now arr (readFullT T fin arr now n acc)
  | arr, now, 0, acc => by
    have h1 : readFullT T fin arr now 0 acc = .ok acc now arr := by cases arr <;> rfl
    rw [h1]
    exact ⟨.inl rfl, fun _ h => h⟩
  | [], now, n + 1, acc => ⟨now, .inl rfl, finish_prompt now⟩
  | (t, s) :: rest, now, n + 1, acc => by
    unfold readFullT
    by_cases hl : late T now t
    · rw [if_pos hl]
      exact ⟨now, .inl rfl, by omega, Nat.le_refl _⟩
    · rw [if_neg hl]
      by_cases hs : s.length ≤ n + 1
      · rw [if_pos hs]
        exact prompt_trans (begun_head hl) (hearing_rest hl) (prompt_full rest _ _ _)
      · rw [if_neg hs]
        exact ⟨begun_head hl, hearing_split hl⟩

theorem prompt_data : (arr : List (Nat × Bytes)) → (now n : Nat) → (acc : Bytes) → Prompt T now arr (readDataT T fin arr now n acc)
  | arr, now, 0, acc => by
    have h1 : readDataT T fin arr now 0 acc = .ok acc now arr := by cases arr <;> rfl
    rw [h1]
    exact ⟨.inl rfl, fun _ h => h⟩
  | [], now, n + 1, acc => ⟨now, .inl rfl, finish_prompt now⟩
  | (t, s) :: rest, now, n + 1, acc => by
    unfold readDataT
    by_cases hl : late T now t
    · rw [if_pos hl]
      exact ⟨now, .inl rfl, by omega, Nat.le_refl _⟩
    · rw [if_neg hl]
      by_cases he : s = []
      · rw [if_pos he]
        exact ⟨_, begun_head hl, Nat.le_refl _, Nat.le_add_right _ _⟩
      · rw [if_neg he]
        by_cases hs : s.length ≤ n + 1
        · rw [if_pos hs]
          exact prompt_trans (begun_head hl) (hearing_rest hl) (prompt_data rest _ _ _)
        · rw [if_neg hs]
          exact ⟨begun_head hl, hearing_split hl⟩

theorem prompt_msg (f : Nat) : (arr : List (Nat × Bytes)) → (now : Nat) → (out : Bytes) → Prompt T now arr (readMsgT T fin f arr now out) := by
  induction f with
  | zero => intro arr now out; exact ⟨now, .inl rfl, Nat.le_refl _, Nat.le_add_right _ _⟩
  | succ f ih =>
    intro arr now out
    have h1 := prompt_full (T := T) (fin := fin) arr now 2 []
    unfold readMsgT
    cases h2 : readFullT T fin arr now 2 [] with
    | err e n => rw [h2] at h1; exact h1
    | ok a now' arr' =>
      rw [h2] at h1
      simp only
      by_cases hz : beNat a = 0
      · rw [if_pos hz]; exact h1
      · rw [if_neg hz]
        have h4 := prompt_trans h1.1 h1.2 (prompt_data (T := T) (fin := fin) arr' now' (beNat a) [])
        cases h5 : readDataT T fin arr' now' (beNat a) [] with
        | err e n => rw [h5] at h4; exact h4
        | ok d n arr'' =>
          rw [h5] at h4
          exact prompt_trans h4.1 h4.2 (ih arr'' n (out ++ d))

/-- Bytes that arrive one at a time, `d` apart. -/
def drip (d : Nat) : Nat → Bytes → List (Nat × Bytes)
  | _, [] => []
  | now, b :: bs => (now + d, [b]) :: drip d (now + d) bs

theorem drip_full {d : Nat} (hd : (d : _root_.Int) < T) : (bs : Bytes) → (n now : Nat) → (acc : Bytes) → n ≤ bs.length →
    readFullT T fin (drip d now bs) now n acc = .ok (acc ++ bs.take n) (now + d * n) (drip d (now + d * n) (bs.drop n))
  | bs, 0, now, acc, _ => by
    have h1 : ∀ arr, readFullT T fin arr now 0 acc = .ok acc now arr := by intro arr; cases arr <;> rfl
    rw [h1]
    simp
  | [], n + 1, now, acc, h => by simp at h
  | b :: bs, n + 1, now, acc, h => by
    have hl : ¬ late T now (now + d) := by unfold late; omega
    simp only [drip, readFullT, if_neg hl, List.length_singleton]
    rw [if_pos (by omega), Nat.max_eq_right (by omega), Nat.add_sub_cancel, drip_full hd bs n _ _ (by simp at h; omega)]
    rw [List.append_assoc, Nat.mul_add, Nat.add_assoc, Nat.mul_one, Nat.add_comm d]
    rfl

theorem drip_data {d : Nat} (hd : (d : _root_.Int) < T) : (bs : Bytes) → (n now : Nat) → (acc : Bytes) → n ≤ bs.length →
    readDataT T fin (drip d now bs) now n acc = .ok (acc ++ bs.take n) (now + d * n) (drip d (now + d * n) (bs.drop n))
  | bs, 0, now, acc, _ => by
    have h1 : ∀ arr, readDataT T fin arr now 0 acc = .ok acc now arr := by intro arr; cases arr <;> rfl
    rw [h1]
    simp
  | [], n + 1, now, acc, h => by simp at h
  | b :: bs, n + 1, now, acc, h => by
    have hl : ¬ late T now (now + d) := by unfold late; omega
    simp only [drip, readDataT, if_neg hl, List.length_singleton]
    rw [if_neg (by simp), if_pos (by omega), Nat.max_eq_right (by omega), Nat.add_sub_cancel, drip_data hd bs n _ _ (by simp at h; omega)]
    rw [List.append_assoc, Nat.mul_add, Nat.add_assoc, Nat.mul_one, Nat.add_comm d]
    rfl

theorem drip_msg {d : Nat} (hd : (d : _root_.Int) < T) {p w : Bytes} (h : Framed p w) :
    ∀ {f now : Nat} {rest out : Bytes}, (w ++ rest).length < f →
      readMsgT T fin f (drip d now (w ++ rest)) now out =
        .ok (out ++ p) (now + d * w.length) (drip d (now + d * w.length) rest) := by
  induction h with
  | done =>
    intro f now rest out hf
    obtain ⟨f, rfl⟩ : ∃ k, f = k + 1 := ⟨f - 1, by omega⟩
    unfold readMsgT
    rw [drip_full hd _ _ _ _ (by simp)]
    simp [beNat]
  | @chunk c hdr p wire h1 h2 _ ih =>
    intro f now rest out hf
    obtain ⟨f, rfl⟩ : ∃ k, f = k + 1 := ⟨f - 1, by omega⟩
    have e1 : (hdr ++ c ++ wire ++ rest).take 2 = hdr := by
      rw [List.append_assoc, List.append_assoc, List.take_append_of_le_length (by rw [h2.1]; exact Nat.le_refl _),
        List.take_of_length_le (by rw [h2.1]; exact Nat.le_refl _)]
    have e2 : (hdr ++ c ++ wire ++ rest).drop 2 = c ++ (wire ++ rest) := by
      rw [List.append_assoc, List.append_assoc, List.drop_append_of_le_length (by rw [h2.1]; exact Nat.le_refl _),
        List.drop_eq_nil_of_le (by rw [h2.1]; exact Nat.le_refl _), List.nil_append]
    have e3 : beNat hdr = c.length := by rw [beNat_eq, h2.2]
    have hpos := List.length_pos_iff.mpr h1
    simp only [List.length_append, h2.1] at hf
    unfold readMsgT
    rw [drip_full hd _ _ _ _ (by simp only [List.length_append, h2.1]; omega)]
    simp only [e1, e2, e3, List.nil_append]
    rw [if_neg (by omega), drip_data hd _ _ _ _ (by simp only [List.length_append]; omega)]
    simp only [List.drop_left, List.take_left, List.nil_append]
    rw [ih (by simp only [List.length_append]; omega)]
    have : now + d * 2 + d * c.length + d * wire.length = now + d * (hdr ++ c ++ wire).length := by
      simp only [List.length_append, h2.1, Nat.mul_add]; omega
    rw [this, List.append_assoc]

theorem drip_bytes (d : Nat) : (bs : Bytes) → (now : Nat) → ((drip d now bs).map Prod.snd).flatten = bs
  | [], _ => rfl
  | b :: bs, now => by simp [drip, drip_bytes d bs]

/-- `null` inside `k` lists. -/
def nest : Nat → PS
  | 0 => .null
  | k + 1 => .list [nest k]

theorem nest_packs : (k : Nat) → Packs halfRange (nest k) (List.replicate k 0x91 ++ [0xC0])
  | 0 => by simp [nest, Packs]
  | k + 1 => by
    simp only [nest, Packs]
    refine ⟨[0x91], List.replicate k 0x91 ++ [0xC0], .inl ⟨by simp, rfl⟩, ?_, rfl⟩
    exact ⟨_, [], nest_packs k, rfl, by simp⟩

theorem nest_val : (k : Nat) → ∃ v, ofPS (nest k) = some v
  | 0 => ⟨.nil, rfl⟩
  | k + 1 => by
    obtain ⟨v, h⟩ := nest_val k
    exact ⟨.list [v], by simp [nest, ofPS, ofPSList, h]⟩

theorem framed_ex : (p : Bytes) → ∃ w, Framed p w ∧ p.length ≤ w.length
  | [] => ⟨_, .done, by simp⟩
  | b :: p => by
    obtain ⟨w, h, hl⟩ := framed_ex p
    exact ⟨[0, 1] ++ [b] ++ w, .chunk (c := [b]) (by simp) ⟨rfl, rfl⟩ h, by simp; omega⟩

end Timing
open Timing

/-- C86, what a timeout does: Decode returns what it returns on the stream that is heard in time. -/
theorem c86_heard (T : _root_.Int) (now : Nat) (k : Net) : (decodeT T now k).1 = (decodeFrom (k.heard T now)).1 := by
  have h := same_msg (T := T) (fin := k.fin) ((k.arrivals.map Prod.snd).flatten.length + 1) k.arrivals now []
  unfold decodeT decodeFrom readMsg
  rw [← readMsg_fuel (r := k.heard T now) (f := (k.arrivals.map Prod.snd).flatten.length + 1)
    (Nat.lt_succ_of_le (hears_prefix k.arrivals now))]
  unfold Net.heard
  cases h1 : readMsgT T k.fin ((k.arrivals.map Prod.snd).flatten.length + 1) k.arrivals now [] with
  | err e n =>
    cases h2 : readMsgLoop ((k.arrivals.map Prod.snd).flatten.length + 1) ⟨hears T now k.arrivals, hearsErr T k.fin now k.arrivals⟩ [] with
    | err e' r =>
      rw [h1, h2] at h
      obtain rfl : e = e' := h
      rfl
    | ok d r => rw [h1, h2] at h; exact h.elim
  | ok d n arr =>
    cases h2 : readMsgLoop ((k.arrivals.map Prod.snd).flatten.length + 1) ⟨hears T now k.arrivals, hearsErr T k.fin now k.arrivals⟩ [] with
    | err e' r => rw [h1, h2] at h; exact h.elim
    | ok d' r =>
      rw [h1, h2] at h
      obtain ⟨rfl, -⟩ := h
      simp only
      cases decodePayload d with
      | ok a => rfl
      | error f => rfl

/-- C86: Decode returns at most the timeout after it was called or after the last bytes arrived that were heard in time; if it
returns a value, at the very moment. Missing: that it returns within the timeout altogether. -/
theorem c86_prompt_partial (T : _root_.Int) (now : Nat) (k : Net) :
    ∃ t, (t = now ∨ (now ≤ t ∧ t ∈ (hearing T now k.arrivals).map Prod.fst)) ∧ t ≤ (decodeT T now k).2 ∧ (decodeT T now k).2 ≤ t + T.toNat ∧
      ∀ v, (decodeT T now k).1 = .ok v → (decodeT T now k).2 = t := by
  have h := prompt_msg (T := T) (fin := k.fin) ((k.arrivals.map Prod.snd).flatten.length + 1) k.arrivals now []
  unfold decodeT
  cases h1 : readMsgT T k.fin ((k.arrivals.map Prod.snd).flatten.length + 1) k.arrivals now [] with
  | err e n =>
    rw [h1] at h
    obtain ⟨t, h2, h3, h4⟩ := h
    exact ⟨t, h2, h3, h4, fun v hv => by cases hv⟩
  | ok d n arr =>
    rw [h1] at h
    refine ⟨n, h.1, ?_⟩
    simp only
    cases decodePayload d with
    | ok a => exact ⟨Nat.le_refl _, Nat.le_add_right _ _, fun _ _ => rfl⟩
    | error f => exact ⟨Nat.le_refl _, Nat.le_add_right _ _, fun _ _ => rfl⟩

/-- C86: when nothing comes before the deadline, Decode fails with `ErrBadConn` exactly when the timeout has passed, for a
timeout that is not positive at once, whatever has arrived before. -/
theorem c86_silent_partial (T : _root_.Int) (now : Nat) (k : Net) (ha : ∀ a ∈ k.arrivals, TooLate T now a.1) (hf : ∀ a ∈ k.fin, TooLate T now a.1) :
    ∃ e, decodeT T now k = (.error (.err e), now + T.toNat) ∧ e.innerMost = .badConn := by
  obtain ⟨arr, fin⟩ := k
  have hfin : finish T now fin = (now + T.toNat, .badConn) := by
    unfold finish
    cases fin with
    | none => rfl
    | some p => simp only; rw [if_pos ((late_iff _ _ _).mpr (hf p rfl))]
  unfold decodeT readMsgT
  cases arr with
  | nil => simp only [readFullT, hfin]; exact ⟨_, rfl, rfl⟩
  | cons a rest =>
    obtain ⟨t, s⟩ := a
    simp only [readFullT, if_pos ((late_iff _ _ _).mpr (ha (t, s) List.mem_cons_self))]
    exact ⟨_, rfl, rfl⟩

/-- C86: with a timeout of 0 or less, every Decode fails at once, also when the whole message is already there. -/
theorem c86_zero {T : _root_.Int} (hT : T ≤ 0) (now : Nat) (k : Net) :
    ∃ e, decodeT T now k = (.error (.err e), now) ∧ e.innerMost = .badConn := by
  obtain ⟨e, h1, h2⟩ := c86_silent_partial T now k (fun _ _ => .inl hT) (fun _ _ => .inl hT)
  have : T.toNat = 0 := by omega
  rw [this] at h1
  exact ⟨e, h1, h2⟩

/-- C86: a message whose bytes arrive one at a time, each `d` after the one before, where `d` is less than the timeout, is
read in full, and Decode returns when it has arrived. -/
theorem c86_drip {T : _root_.Int} {d : Nat} (hd : (d : _root_.Int) < T) (now : Nat) {p w : Bytes} (h : Framed p w) (fin : Option (Nat × GoErr)) :
    decodeT T now ⟨drip d now w, fin⟩ = (unmarshal w, now + d * w.length) := by
  have h1 := drip_msg (fin := fin) hd h (f := w.length + 1) (now := now) (rest := []) (out := []) (by simp)
  rw [List.append_nil] at h1
  rw [← held_unmarshal (m := (p, w)) h]
  unfold decodeT held
  simp only [drip_bytes]
  rw [h1]
  simp only [List.nil_append]
  cases decodePayload p with
  | ok a => rfl
  | error f => rfl

/-- C86 is false: whatever the timeout, if it is more than a nanosecond, and for every `m`, a server can keep Decode waiting
for `m` times the timeout, and then it returns a value. -/
theorem c86_false {T : _root_.Int} (hT : 1 < T) (now m : Nat) :
    ∃ k v, (decodeT T now k).1 = .ok v ∧ now + m * T.toNat ≤ (decodeT T now k).2 := by
  obtain ⟨v, hv⟩ := nest_val (2 * m)
  obtain ⟨w, hw, hl⟩ := framed_ex (List.replicate (2 * m) 0x91 ++ [0xC0])
  refine ⟨⟨drip (T.toNat - 1) now w, none⟩, v, ?_⟩
  rw [c86_drip (by omega) now hw]
  constructor
  · rw [← held_unmarshal (m := (_, w)) hw]
    have := c17_conforming_understood_partial (nest_packs (2 * m)) hv []
    rw [List.append_nil] at this
    unfold held
    rw [this]
  · simp only [List.length_append, List.length_replicate, List.length_singleton] at hl
    obtain ⟨d, hd⟩ : ∃ d, T.toNat = d + 2 := ⟨T.toNat - 2, by omega⟩
    rw [hd]
    have : (d + 2 - 1) * (2 * m + 1) ≤ (d + 2 - 1) * w.length := Nat.mul_le_mul_left _ hl
    have : m * (d + 2) ≤ (d + 2 - 1) * (2 * m + 1) := by
      have : d + 2 - 1 = d + 1 := by omega
      rw [this, Nat.mul_add, Nat.mul_add, Nat.add_mul, Nat.mul_comm d (2 * m), Nat.mul_comm 2 m, Nat.mul_assoc, Nat.mul_comm 2 d, ← Nat.mul_assoc]
      omega
    simp only
    omega

set_option maxRecDepth 100000 in
/-- Three bytes in time, the next too late: an error one timeout after the third. -/
example : ∃ e, decodeT 10 0 ⟨[(9, [0]), (18, [1]), (27, [5]), (40, [0, 0])], none⟩ = (.error (.err e), 37) := ⟨_, rfl⟩

set_option maxRecDepth 100000 in
/-- The whole message in time. -/
example : decodeT 10 0 ⟨[(9, [0]), (18, [1]), (27, [5]), (36, [0, 0])], none⟩ = (.ok (.int .int64 5), 36) := rfl

/-- The whole message before the call, and a timeout of 0. -/
example : ∃ e, decodeT 0 7 ⟨[(3, [0, 1, 5, 0, 0])], none⟩ = (.error (.err e), 7) := ⟨_, rfl⟩

end Bolt
