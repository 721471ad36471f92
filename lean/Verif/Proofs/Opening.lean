import Verif.Model.Opening
import Verif.Proofs.Inbox
import Verif.Proofs.Wire
import Verif.Proofs.Run
import Verif.Proofs.Safety
import Verif.Props.Encoding

/-!
# Opening: no call fails to return, and the socket is closed on failure
-/

namespace Bolt
open PackStream

/-- The item does not make the decoder panic. -/
def Item.calm : Item → Prop
  | .boom _ => False
  | _ => True

/-- A connection that is being opened: nothing on it yet, no message to come that makes the decoder panic. -/
structure Bare (out : Bytes) (w : World Bool) : Prop where
  statement : w.statement = none
  transaction : w.transaction = none
  calm : ∀ i ∈ w.inbox, i.calm
  prefix_ : out <+: w.sink.out

/-- The call returns, and nothing was taken back. -/
def Fine {α : Type} (out : Bytes) (x : M Bool α) (Q : α → World Bool → Prop) (w : World Bool) : Prop :=
  ∃ a w', x w = .ok a w' ∧ Bare out w' ∧ Q a w'

theorem Fine.bind {α β : Type} {out : Bytes} {x : M Bool α} {f : α → M Bool β} {Q : α → World Bool → Prop} {R : β → World Bool → Prop} {w : World Bool}
    (h : Fine out x Q w) (hf : ∀ a w', Bare out w' → Q a w' → Fine out (f a) R w') : Fine out (x >>= f) R w := by
  obtain ⟨a, w', h1, h2, h3⟩ := h
  obtain ⟨b, w2, h4, h5, h6⟩ := hf a w' h2 h3
  exact ⟨b, w2, (mbind_ok h1).trans h4, h5, h6⟩

theorem Fine.pure {α : Type} {out : Bytes} {a : α} {Q : α → World Bool → Prop} {w : World Bool} (h : Bare out w) (hq : Q a w) : Fine out (M.pure a) Q w :=
  ⟨a, w, rfl, h, hq⟩

theorem encodeTo_prefix (cs : Nat) (k : Sink) (v : Val) : k.out <+: (encodeTo cs k v).1.out := by
  obtain ⟨out, b⟩ := k
  cases b with
  | none =>
    obtain ⟨full, h, _⟩ := c10_failed_write_reported cs 0 out v
    exact ⟨full, h.symm⟩
  | some n =>
    obtain ⟨full, _, h, _⟩ := c10_failed_write_reported cs n out v
    exact ⟨_, h.symm⟩

theorem fine_send {out : Bytes} {w : World Bool} (h : Bare out w) (v : Val) : Fine out (send mute v) (fun e w' => e = (encodeTo w.chunkSize w.sink v).2 ∧ w'.closed = w.closed) w := by
  refine ⟨_, _, rfl, ⟨h.statement, h.transaction, ?_, h.prefix_.trans (encodeTo_prefix _ _ _)⟩, rfl, rfl⟩
  simp only [mute]
  split <;> simpa using h.calm

theorem fine_recv {out : Bytes} {w : World Bool} (h : Bare out w) : Fine out (recv mute) (fun _ w' => w'.closed = w.closed) w := by
  have ht : ∀ i ∈ w.inbox.tail, i.calm := fun i hi => h.calm i (List.mem_of_mem_tail hi)
  unfold Fine recv
  simp only
  cases hi : nextItem mute w with
  | val v => exact ⟨_, _, rfl, ⟨h.statement, h.transaction, ht, h.prefix_⟩, rfl⟩
  | bad v => exact ⟨_, _, rfl, ⟨h.statement, h.transaction, ht, h.prefix_⟩, rfl⟩
  | ioerr => exact ⟨_, _, rfl, ⟨h.statement, h.transaction, ht, h.prefix_⟩, rfl⟩
  | eof => exact ⟨_, _, rfl, ⟨h.statement, h.transaction, ht, h.prefix_⟩, rfl⟩
  | boom p =>
    unfold nextItem at hi
    split at hi
    · next i t hw => subst hi; exact absurd (h.calm (.boom p) (by rw [hw]; simp)) (by simp [Item.calm])
    · split at hi
      · cases hi
      · split at hi <;> cases hi

theorem fine_skip {out : Bytes} {w : World Bool} (h : Bare out w) : Fine out skipIgnored (fun _ w' => w'.closed = w.closed) w :=
  ⟨_, _, rfl, ⟨h.statement, h.transaction, fun i hi => h.calm i ((List.dropWhile_sublist _).mem hi), h.prefix_⟩, rfl⟩

theorem fine_close {out : Bytes} {w : World Bool} (h : Bare out w) (n : Nat) : Fine out (closeN mute (n + 1)) (fun _ w' => w'.closed = true) w := by
  unfold Fine closeN connClose
  cases hc : w.closed with
  | true => exact ⟨none, w, by simp [hc], h, hc⟩
  | false =>
    refine ⟨if w.sockCloseErr then some .badConn else none, { w with closed := true, connErr := w.connErr || w.sockCloseErr, sink := { w.sink with budget := some 0 }, inbox := [] }, ?_,
      ⟨h.statement, h.transaction, (fun _ h => by cases h), h.prefix_⟩, rfl⟩
    cases hs : w.sockCloseErr <;> simp [hs, hc, h.statement, h.transaction, mbind_run]

variable {out : Bytes} {w : World Bool}

theorem Bare.connErr (h : Bare out w) (b : Bool) : Bare out { w with connErr := b } := ⟨h.statement, h.transaction, h.calm, h.prefix_⟩

theorem fine_closeThen (h : Bare out w) (n : Nat) (o : Option GoErr) :
    Fine out ((do let _ ← closeN mute (n + 1); M.pure o) : M Bool (Option GoErr)) (fun e w' => e = o ∧ w'.closed = true) w :=
  (fine_close h n).bind fun _ _ h hc => .pure h ⟨rfl, hc⟩

theorem fine_reset (h : Bare out w) (n : Nat) : Fine out (reset mute (closeN mute (n + 1))) (fun _ _ => True) w := by
  refine (fine_send h _).bind fun e w h _ => ?_
  cases e with
  | some e => exact .pure h trivial
  | none =>
    refine (fine_skip h).bind fun _ w h _ => (fine_recv h).bind fun ⟨v, e⟩ w h _ => ?_
    cases e with
    | some e => exact .pure h trivial
    | none =>
      have hd : Fine out ((do
          M.modify fun w => { w with connErr := true }
          let _ ← closeN mute (n + 1)
          M.pure (some .badConn)) : M Bool (Option GoErr)) (fun _ _ => True) w :=
        Fine.bind (Q := fun _ _ => True) ⟨(), _, rfl, h.connErr true, trivial⟩ fun _ _ h _ => (fine_close h n).bind fun _ _ h _ => .pure h trivial
      cases v with
      | success md => exact .pure h trivial
      | failure md => exact (fine_close h n).bind fun _ _ h _ => .pure h trivial
      | _ => exact hd

theorem fine_ack (h : Bare out w) (n : Nat) : Fine out (ackFailure mute (closeN mute (n + 1))) (fun _ _ => True) w := by
  refine (fine_send h _).bind fun e w h _ => ?_
  cases e with
  | some e => exact .pure h trivial
  | none =>
    refine (fine_skip h).bind fun _ w h _ => (fine_recv h).bind fun ⟨v, e⟩ w h _ => ?_
    cases e with
    | some e => exact .pure h trivial
    | none =>
      have hd : Fine out ((do
          M.modify fun w => { w with connErr := true }
          let _ ← closeN mute (n + 1)
          M.pure (some .badConn)) : M Bool (Option GoErr)) (fun _ _ => True) w :=
        Fine.bind (Q := fun _ _ => True) ⟨(), _, rfl, h.connErr true, trivial⟩ fun _ _ h _ => (fine_close h n).bind fun _ _ h _ => .pure h trivial
      cases v with
      | success md => exact .pure h trivial
      | failure md => exact fine_reset h n
      | _ => exact hd

theorem fine_consume (h : Bare out w) (n : Nat) : Fine out (consume mute (closeN mute (n + 1))) (fun x w' => x.2 = none → w'.closed = w.closed) w := by
  refine (fine_recv h).bind fun ⟨v, e⟩ w h hc => ?_
  cases e with
  | some e => exact .pure h (fun he => by cases he)
  | none =>
    cases v with
    | failure md =>
      refine (fine_ack h n).bind fun e w h _ => ?_
      cases e with
      | some e => exact .pure h (fun he => by cases he)
      | none => exact .pure h (fun he => by cases he)
    | _ => exact .pure h (fun _ => hc)

theorem fine_sendInit (h : Bare out w) (n : Nat) (tok : KVs) :
    Fine out (sendInit mute (closeN mute (n + 1)) tok) (fun x w' => x.2 = none → w'.closed = w.closed) w := by
  refine (fine_send h _).bind fun e w' h he => ?_
  cases e with
  | some e => exact .pure h (fun he => by cases he)
  | none =>
    obtain ⟨a, w2, h1, h2, h3⟩ := fine_consume h n
    exact ⟨a, w2, h1, h2, fun hh => (h3 hh).trans he.2⟩

theorem fine_initRest {tok : KVs} {n : Nat} (hf : Fine out (sendInit mute (closeN mute (n + 1)) tok) (fun x w' => x.2 = none → w'.closed = false) w) :
    Fine out (initSession mute (closeN mute (n + 1)) tok) (fun e w' => w'.closed = e.isSome) w := by
  refine hf.bind fun ⟨v, e⟩ w' h he => ?_
  cases e with
  | some e => exact (fine_close h n).bind fun _ _ h hc => .pure h hc
  | none =>
    have hd : Fine out ((do
        M.modify fun w => { w with connErr := true }
        let _ ← closeN mute (n + 1)
        M.pure (some .badConn)) : M Bool (Option GoErr)) (fun e w' => w'.closed = e.isSome) w' :=
      Fine.bind (Q := fun _ _ => True) ⟨(), _, rfl, h.connErr true, trivial⟩ fun _ _ h _ => (fine_close h n).bind fun _ _ h hc => .pure h hc
    cases v with
    | success md => exact .pure h (he rfl)
    | _ => exact hd

/-- A call of `initSession` returns; the connection is closed exactly when there is an error. -/
theorem fine_initSession (h : Bare out w) (hc : w.closed = false) (n : Nat) (tok : KVs) :
    Fine out (initSession mute (closeN mute (n + 1)) tok) (fun e w' => w'.closed = e.isSome) w := by
  obtain ⟨a, w', h1, h2, h3⟩ := fine_sendInit h n tok
  exact fine_initRest ⟨a, w', h1, h2, fun he => (h3 he).trans hc⟩

/-- … when INIT has been sent. -/
theorem fine_initSession' {tok : KVs} {w1 : World Bool} (hs : send mute (.init clientID tok) w = .ok none w1) (h : Bare out w1) (hc : w1.closed = false) (n : Nat) :
    Fine out (initSession mute (closeN mute (n + 1)) tok) (fun e w' => w'.closed = e.isSome) w := by
  obtain ⟨a, w2, h1, h2, h3⟩ := fine_consume h n
  exact fine_initRest ⟨a, w2, (mbind_ok hs).trans h1, h2, fun he => (h3 he).trans hc⟩

/-! ## The handshake -/

theorem Source.read_bytes (r : Source) (n : Nat) : r.bytes = (r.read n).2.1 ++ (r.read n).1.bytes ∧ (r.read n).1.err = r.err ∧ (r.read n).2.1.length ≤ n := by
  unfold Source.read Source.bytes
  cases h : r.segs with
  | nil => simp [h]
  | cons s rest =>
    simp only
    split
    · next hs => simp [hs]
    · next hs => simp only [List.flatten_cons, List.take_append_drop, ← List.append_assoc, true_and, List.length_take]; omega

theorem Source.read_nonEmpty {r : Source} (h : r.NonEmpty) {n : Nat} : (r.read n).1.NonEmpty := by
  unfold Source.read
  unfold Source.NonEmpty at h
  cases hs : r.segs with
  | nil => simp [Source.NonEmpty, hs]
  | cons s rest =>
    rw [hs] at h
    simp only
    split
    · intro t ht; exact h t (by simp [ht])
    · next hn =>
      intro t ht
      simp at ht
      rcases ht with rfl | ht
      · intro he
        have := congrArg List.length he
        simp at this; omega
      · exact h t (by simp [ht])

/-- What a handshake that returns no error has done: written the 20 bytes; read once, some bytes of the reply. -/
theorem handShake_none {k k' : Sock} (h : handShake k = (k', none)) : ∃ v,
    k.src.read 4 = (k'.src, v, none) ∧ k'.connErr = k.connErr ∧ k'.sink = (k.sink.write handShakeBytes).1 ∧
    k'.sink.out = k.sink.out ++ handShakeBytes ∧ v ≠ [0, 0, 0, 0] := by
  unfold handShake Sock.write at h
  cases hw : k.sink.write handShakeBytes with
  | mk s b =>
    rw [hw] at h
    have hout : b = true → s.out = k.sink.out ++ handShakeBytes := by
      intro hb
      unfold Sink.write at hw
      split at hw
      · cases hw; rfl
      · split at hw <;> cases hw
        · rfl
        · cases hb
    cases b with
    | false =>
      simp only at h
      split at h
      · cases h
      · next hn =>
        exfalso
        unfold Sink.write at hw
        split at hw
        · cases hw
        · split at hw <;> cases hw
          next hk =>
          have hb : handShakeBytes.length = 20 := rfl
          simp [hb] at hn hk
          omega
    | true =>
      simp only at h
      rw [if_neg (by decide)] at h
      unfold Sock.read at h
      rcases hr : k.src.read 4 with ⟨r, v, e⟩
      simp only [hr] at h
      cases e with
      | none =>
        simp only at h
        split at h
        · next hv => cases h; exact ⟨v, rfl, rfl, rfl, hout rfl, fun hh => hv (by rw [hh]; rfl)⟩
        · split at h
          · cases h
          · next hv => cases h; exact ⟨v, rfl, rfl, rfl, hout rfl, hv⟩
      | some e =>
        simp only at h
        have hv : v = [] := by
          unfold Source.read at hr
          split at hr
          · cases hr; rfl
          · split at hr <;> cases hr
        subst hv
        split at h <;> simp [wrapIf] at h

end Bolt
