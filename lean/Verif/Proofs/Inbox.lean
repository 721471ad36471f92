import Verif.Model.Stream
import Verif.Props.Decoding

/-!
# Items stand for bytes

`recv_decodes`: on a connection whose inbox holds the items of a byte stream, `recv` returns what `Decode` returns on the
stream, and leaves the inbox with the items of the rest.

`inbox_refines`: the items of any sequence of chunked messages, however split into reads, are those of the payloads.
-/

namespace Bolt
open PackStream

theorem Source.size_eq (r : Source) : r.size = r.bytes.length := rfl

theorem readFlat_rest {err : GoErr} {f : Nat} {b out p rest : Bytes} (h : readFlat err f b out = .ok (p, rest)) : rest.length + 2 ≤ b.length := by
  induction f generalizing b out with
  | zero => cases h
  | succ f ih =>
    unfold readFlat at h
    split at h
    · cases h
    · next h1 =>
      simp only at h
      split at h
      · cases h; simp at h1 ⊢; omega
      · split at h
        · cases h
        · have := ih h
          simp at this ⊢; omega

theorem readOne_rest {err : GoErr} {b p rest : Bytes} (h : readOne err b = .ok (p, rest)) : rest.length + 2 ≤ b.length := readFlat_rest h

theorem readMsgLoop_err (f : Nat) : ∀ (r : Source) (out : Bytes) (e : GoErr) (r' : Source), r.NonEmpty → r.bytes.length < f →
    readMsgLoop f r out = .err e r' → r'.segs = [] := by
  induction f with
  | zero => intro r out e r' _ h; omega
  | succ f ih =>
    intro r out e r' hne hf h
    unfold readMsgLoop at h
    by_cases h2 : 2 ≤ r.segs.flatten.length
    · obtain ⟨segs', h3, h4, h5⟩ := readFull_ok (err := r.err) r.segs 2 [] h2
      have h5 := h5 hne
      simp only [h3] at h
      split at h
      · cases h
      · next hn =>
        by_cases h6 : beNat (([] : Bytes) ++ r.segs.flatten.take 2) ≤ segs'.flatten.length
        · obtain ⟨segs2, k1, k2, k3⟩ := readData_ok (err := r.err) segs' _ [] h5 h6
          rw [k1] at h
          refine ih ⟨segs2, r.err⟩ _ e r' k3 ?_ h
          simp only [Source.bytes] at hf ⊢
          have l1 : segs'.flatten.length = r.segs.flatten.length - 2 := by rw [h4]; simp
          have l2 : segs2.flatten.length ≤ segs'.flatten.length := by rw [k2]; simp
          omega
        · rw [readData_short (err := r.err) segs' _ [] h5 (by omega)] at h
          cases h; rfl
    · rw [readFull_short (err := r.err) r.segs 2 [] (by omega)] at h
      cases h; rfl

/-- `readMsg` in terms of the bytes. -/
theorem readMsg_cases (r : Source) (hne : r.NonEmpty) :
    (∃ e r', readMsg r = .err e r' ∧ readOne r.err r.bytes = .error e ∧ r'.err = r.err ∧ r'.segs = []) ∨
    ∃ p r', readMsg r = .ok p r' ∧ readOne r.err r.bytes = .ok (p, r'.bytes) ∧ r'.err = r.err ∧ r'.NonEmpty := by
  have h := readMsg_flat r hne
  cases h1 : readMsg r with
  | err e r' =>
    rw [h1] at h
    cases h2 : readOne r.err r.bytes with
    | error e' => rw [h2] at h; obtain ⟨rfl, h3, h4⟩ := h; exact .inl ⟨e, r', rfl, rfl, h3, readMsgLoop_err _ r [] e r' hne (Nat.lt_succ_self _) h1⟩
    | ok a => rw [h2] at h; exact absurd h (by simp [SameRead])
  | ok p r' =>
    rw [h1] at h
    cases h2 : readOne r.err r.bytes with
    | error e' => rw [h2] at h; exact absurd h (by simp [SameRead])
    | ok a => obtain ⟨p', rest⟩ := a; rw [h2] at h; obtain ⟨rfl, h3, rfl, h5⟩ := h; exact .inr ⟨p, r', rfl, rfl, h3, h5⟩

/-- The items depend on the bytes only. -/
theorem itemsOf_congr (f : Nat) : ∀ (r s : Source), r.NonEmpty → s.NonEmpty → r.bytes = s.bytes → r.err = s.err → itemsOf f r = itemsOf f s := by
  induction f with
  | zero => intros; rfl
  | succ f ih =>
    intro r s hr hs hb he
    unfold itemsOf
    rw [r.size_eq, s.size_eq, hb]
    have ha : r.atEOF = s.atEOF := by unfold Source.atEOF; rw [he]
    rcases readMsg_cases r hr with ⟨e, r', h1, h2, -, -⟩ | ⟨p, r', h1, h2, h3, h4⟩ <;>
    rcases readMsg_cases s hs with ⟨e', s', k1, k2, -, -⟩ | ⟨p', s', k1, k2, k3, k4⟩ <;>
    rw [hb, he, k2] at h2
    · cases h2; simp only [h1, k1, ha]
    · cases h2
    · cases h2
    · simp only [h1, k1]
      cases h2' : r'.bytes with
      | _ =>
      injection h2 with h2
      injection h2 with h5 h6
      rw [h5, ih r' s' h4 k4 h6.symm (h3.trans (he.trans k3.symm))]

/-- More fuel gives no more items. -/
theorem items_fuel (f : Nat) : ∀ (r : Source), r.NonEmpty → r.size < f → itemsOf f r = r.items := by
  suffices h : ∀ (f g : Nat) (r : Source), r.NonEmpty → r.size < f → r.size < g → itemsOf f r = itemsOf g r from
    fun r hr hf => h f _ r hr hf (Nat.lt_succ_self _)
  intro f
  induction f with
  | zero => intro g r _ h; omega
  | succ f ih =>
    intro g r hr hf hg
    cases g with
    | zero => omega
    | succ g =>
      unfold itemsOf
      rcases readMsg_cases r hr with ⟨e, r', h1, -, -, -⟩ | ⟨p, r', h1, h2, h3, h4⟩
      · simp only [h1]
      · simp only [h1]
        have := readOne_rest h2
        rw [r.size_eq] at hf hg
        rw [ih g r' h4 (by rw [r'.size_eq]; omega) (by rw [r'.size_eq]; omega)]

theorem items_congr {r s : Source} (hr : r.NonEmpty) (hs : s.NonEmpty) (hb : r.bytes = s.bytes) (he : r.err = s.err) : r.items = s.items := by
  unfold Source.items
  rw [r.size_eq, s.size_eq, hb]
  exact itemsOf_congr _ r s hr hs hb he

/-- The items, one by one. -/
theorem items_step (r : Source) (hne : r.NonEmpty) :
    r.items = match readMsg r with
      | .ok data r' => .ofPayload data :: r'.items
      | .err e _ => if r.size = 0 then [] else if r.atEOF then [.bad e false] else [] := by
  rw [Source.items, itemsOf]
  rcases readMsg_cases r hne with ⟨e, r', h1, -, -, -⟩ | ⟨p, r', h1, h2, h3, h4⟩
  · simp only [h1]
  · simp only [h1]
    have := readOne_rest h2
    rw [items_fuel _ r' h4 (by rw [r'.size_eq, r.size_eq]; omega)]

theorem items_nil {r : Source} (h : r.bytes = []) (hne : r.NonEmpty) : r.items = [] := by
  have hs : r.size = 0 := by rw [r.size_eq, h]; rfl
  rw [items_step r hne]
  rcases readMsg_cases r hne with ⟨e, r', h1, -, -, -⟩ | ⟨p, r', h1, h2, h3, h4⟩
  · simp only [h1, hs, if_true]
  · have := readOne_rest h2
    rw [h] at this; simp at this

/-- The connection, to a peer that has said all it will say, holds the stream `r`. -/
structure Holds (w : World Bool) (r : Source) : Prop where
  nonEmpty : r.NonEmpty
  inbox : w.inbox = r.items
  srv : w.srv = r.atEOF
  closed : w.closed = false

theorem readOne_nil (err : GoErr) : readOne err [] = .error (readErr (readFullErr err [])) := rfl

/-- The next message in the stream is complete and a SUCCESS. -/
def Source.half (r : Source) : Bool := match readMsg r with | .ok data _ => isSuccess data | .err _ _ => false

/-- On any byte stream, `recv` returns what `Decode` does: the same value, error or panic. A network error is passed on
as `ErrBadConn` and recorded in `connErr`. Beside an error there is `SuccessMessage{}` if the message is a SUCCESS. -/
theorem recv_decodes {w : World Bool} {r r' : Source} {x : Except Fault Val} (h : Holds w r) (hd : decodeFrom r = (x, r')) :
    match x with
    | .ok v => ∃ w', recv mute w = .ok (v, none) w' ∧ Holds w' r' ∧ w'.connErr = w.connErr
    | .error (.err e) => ∃ e' w', recv mute w = .ok (if r.half then .success [] else .nil, some e') w' ∧
        (Holds w' r' ∧ e' = e ∧ w'.connErr = w.connErr ∨
         r.atEOF = false ∧ e' = readErr .badConn ∧ w'.connErr = true ∧ w'.inbox = [] ∧ w'.srv = false)
    | .error (.panic p) => ∃ w', recv mute w = .panic p w'
    | .error .fuel => False := by
  obtain ⟨hne, hi, hv, hc⟩ := h
  unfold decodeFrom at hd
  rw [items_step r hne] at hi
  rcases readMsg_cases r hne with ⟨e, r1, h1, h2, h3, h4⟩ | ⟨p, r1, h1, h2, h3, h4⟩
  · have hh : r.half = false := by unfold Source.half; rw [h1]
    simp only [h1] at hd hi
    cases hd
    simp only [hh]
    have hn1 : r'.NonEmpty := by intro s hs; rw [h4] at hs; cases hs
    have hr1 : r'.atEOF = r.atEOF := by unfold Source.atEOF; rw [h3]
    have hr2 : r'.items = [] := items_nil (by unfold Source.bytes; rw [h4]; rfl) hn1
    by_cases hs : r.size = 0
    · rw [if_pos hs] at hi
      have hb : r.bytes = [] := List.eq_nil_of_length_eq_zero hs
      rw [hb, readOne_nil] at h2
      cases h2
      cases ha : r.atEOF with
      | true =>
        have he : r.err = .eof := by
          unfold Source.atEOF GoErr.isEOF at ha
          split at ha
          · assumption
          · cases ha
        have hitem : nextItem mute w = .eof := by unfold nextItem; rw [hi]; simp [hc, mute, hv, ha]
        unfold recv
        simp only [hitem]
        exact ⟨_, _, rfl, .inl ⟨⟨hn1, by simp [hi, hr2], by rw [hr1]; exact hv, hc⟩, by rw [he]; rfl, rfl⟩⟩
      | false =>
        have hitem : nextItem mute w = .ioerr := by unfold nextItem; rw [hi]; simp [hc, mute, hv, ha]
        unfold recv
        simp only [hitem]
        exact ⟨_, _, rfl, .inr ⟨trivial, rfl, rfl, by simp [hi], hv.trans ha⟩⟩
    · rw [if_neg hs] at hi
      cases ha : r.atEOF with
      | true =>
        rw [ha, if_pos rfl] at hi
        have hitem : nextItem mute w = .bad e false := by unfold nextItem; rw [hi]
        unfold recv
        simp only [hitem]
        exact ⟨_, _, rfl, .inl ⟨⟨hn1, by simp [hi, hr2], by rw [hr1]; exact hv, hc⟩, rfl, rfl⟩⟩
      | false =>
        rw [ha, if_neg (by simp)] at hi
        have hitem : nextItem mute w = .ioerr := by unfold nextItem; rw [hi]; simp [hc, mute, hv, ha]
        unfold recv
        simp only [hitem]
        exact ⟨_, _, rfl, .inr ⟨trivial, rfl, rfl, by simp [hi], hv.trans ha⟩⟩
  · have hh : r.half = isSuccess p := by unfold Source.half; rw [h1]
    simp only [h1] at hd hi
    have hr1 : r1.atEOF = r.atEOF := by unfold Source.atEOF; rw [h3]
    have hitem : nextItem mute w = .ofPayload p := by unfold nextItem; rw [hi]
    unfold recv
    simp only [hitem]
    unfold Item.ofPayload
    cases hp : decodePayload p with
    | ok a =>
      obtain ⟨v, b⟩ := a
      simp only [hp] at hd ⊢
      cases hd
      exact ⟨_, rfl, ⟨h4, by simp [hi], hv.trans hr1.symm, hc⟩, rfl⟩
    | error f =>
      cases f with
      | err e =>
        simp only [hp] at hd ⊢
        cases hd
        simp only [hh]
        exact ⟨_, _, rfl, .inl ⟨⟨h4, by simp [hi], hv.trans hr1.symm, hc⟩, rfl, rfl⟩⟩
      | panic p =>
        simp only [hp] at hd ⊢
        cases hd
        exact ⟨_, rfl⟩
      | fuel => exact absurd hp (c15_terminates p).1

/-- The stream consists of chunked messages with these payloads. -/
inductive Messages : List Bytes → Bytes → Prop
  | nil : Messages [] []
  | cons {p w b : Bytes} {ps : List Bytes} : Framed p w → Messages ps b → Messages (p :: ps) (w ++ b)

/-- … followed by `rest`. -/
theorem items_messages {ps : List Bytes} {b : Bytes} (h : Messages ps b) : ∀ {r s : Source} , r.NonEmpty → s.NonEmpty → r.err = s.err →
    r.bytes = b ++ s.bytes → r.items = ps.map .ofPayload ++ s.items := by
  induction h with
  | nil => intro r s hr hs he hb; exact items_congr hr hs hb he
  | @cons p w b ps hf _ ih =>
    intro r s hr hs he hb
    have h1 : readOne r.err r.bytes = .ok (p, b ++ s.bytes) := by
      rw [hb, List.append_assoc]
      exact (readFlat_framed hf (out := []) (Nat.lt_succ_self _)).trans (by simp)
    rw [items_step r hr]
    rcases readMsg_cases r hr with ⟨e, r1, h2, h3, -, -⟩ | ⟨p', r1, h2, h3, h4, h5⟩
    · rw [h1] at h3; cases h3
    · rw [h1] at h3
      injection h3 with h3
      injection h3 with h6 h7
      subst h6
      simp only [h2, List.map_cons, List.cons_append]
      rw [ih h5 hs (h4.trans he) h7.symm]

/-- A stream of chunked messages, split into reads in any way and followed by anything, gives the items of the payloads
and then those of what follows. -/
theorem inbox_refines {ps : List Bytes} {b rest : Bytes} (h : Messages ps b) {segs segs' : List Bytes} {err : GoErr}
    (hs : ∀ s ∈ segs, s ≠ []) (hs' : ∀ s ∈ segs', s ≠ []) (hb : segs.flatten = b ++ rest) (hb' : segs'.flatten = rest) :
    Source.items ⟨segs, err⟩ = ps.map .ofPayload ++ Source.items ⟨segs', err⟩ :=
  items_messages h hs hs' rfl (by unfold Source.bytes; simp only [hb, hb'])

/-- A stream that breaks off inside a message: one error, if it is the end of the stream; none, if it is a network error. -/
theorem items_cut {p w pre suf : Bytes} (hf : Framed p w) (hw : w = pre ++ suf) (h1 : pre ≠ []) (h2 : suf ≠ []) {r : Source} (hr : r.NonEmpty)
    (hb : r.bytes = pre) : if r.atEOF then ∃ e, r.items = [.bad e false] else r.items = [] := by
  obtain ⟨e, he⟩ := readFlat_cut hf (err := r.err) (out := []) hw h2 (Nat.lt_succ_self pre.length)
  rw [items_step r hr]
  rcases readMsg_cases r hr with ⟨e, r1, h3, h4, -, -⟩ | ⟨p', r1, h3, h4, -, -⟩
  · have hs : r.size ≠ 0 := by rw [r.size_eq, hb]; intro h; exact h1 (List.eq_nil_of_length_eq_zero h)
    simp only [h3, if_neg hs]
    cases r.atEOF with
    | true => exact ⟨e, rfl⟩
    | false => rfl
  · unfold readOne at h4
    rw [hb, he] at h4
    cases h4

end Bolt
