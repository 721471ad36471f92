import Verif.Proofs.NoPanic2
import Verif.Proofs.Depth

/-!
# Calls end

`allLoop` is given enough fuel, and against a peer that sends only finitely many messages failure handling nests
only finitely deep.
-/

namespace Bolt

variable {σ : Type}

/-- What PULL_ALL adds to the unread items, at most. -/
def pullMore (P : Peer σ) (w : World σ) : Nat :=
  (P.react w.srv (((encodeTo w.chunkSize w.sink .pullAll).1.out.drop w.sink.out.length))).2.length

/-- Any panic. -/
abbrev Any : Panic → World σ → Prop := fun _ _ => True

theorem Pan.trivial {α : Type} (x : M σ α) (w : World σ) : Pan x w Any (fun _ _ => True) := by
  unfold Pan; split <;> exact True.intro

theorem take_recv (P : Peer σ) (w : World σ) : Pan (recv P) w Any (fun a w' => (a.2 = none → w'.inbox.length + 1 = w.inbox.length) ∧ w'.rows = w.rows) := by
  have hi : ∀ v, nextItem P w = .val v → w.inbox.tail.length + 1 = w.inbox.length := by
    intro v h
    unfold nextItem at h
    cases hb : w.inbox with
    | cons i l => rfl
    | nil =>
      rw [hb] at h
      dsimp only at h
      split at h
      · cases h
      · split at h <;> cases h
  unfold Pan recv
  dsimp only
  cases h : nextItem P w with
  | val v => exact ⟨fun _ => hi v h, rfl⟩
  | boom p => exact True.intro
  | bad e => exact ⟨nofun, rfl⟩
  | ioerr => exact ⟨nofun, rfl⟩
  | eof => exact ⟨nofun, rfl⟩

theorem take_consume (P : Peer σ) (close : M σ (Option GoErr)) (w : World σ) :
    Pan (consume P close) w Any (fun a w' => a.2 = none → w'.inbox.length + 1 = w.inbox.length ∧ w'.rows = w.rows) := by
  unfold consume
  refine (take_recv P w).bind fun a w1 h1 => ?_
  obtain ⟨v, e⟩ := a
  cases e with
  | some e => exact .pure nofun
  | none =>
    cases v with
    | failure md =>
      refine (Pan.trivial (ackFailure P close) w1).bind fun a w2 _ => ?_
      cases a <;> exact .pure nofun
    | _ => exact .pure fun _ => ⟨h1.1 rfl, h1.2⟩

theorem take_pull (P : Peer σ) (w : World σ) :
    Pan (sendPullAll P) w Any (fun _ w' => w'.inbox.length ≤ w.inbox.length + pullMore P w ∧ w'.rows = w.rows) := by
  unfold sendPullAll
  refine Pan.bind (R := fun _ w' => w'.inbox.length ≤ w.inbox.length + pullMore P w ∧ w'.rows = w.rows) ?_ ?_
  · unfold Pan send
    dsimp only
    refine ⟨?_, rfl⟩
    unfold pullMore
    rw [List.length_append]
    split
    · exact Nat.le_add_right _ _
    · exact Nat.le_refl _
  · intro a w1 h
    cases a <;> exact .pure h

theorem pan_withConn_any {α : Type} {s : Nat} {k : M σ α} {w : World σ} {Q : α → World σ → Prop}
    (hk : Pan k w Any Q) : Pan (withConn s k) w Any Q := by
  unfold Pan withConn
  split
  · rename_i h; split at h
    · unfold Pan at hk; rw [h] at hk; exact hk
    · cases h
  · trivial
  · trivial

/-- A row that was read used one item, and the rows are marked as consumed. -/
theorem take_nextNeo (P : Peer σ) (close : M σ (Option GoErr)) {w : World σ} {r : Nat} (hr : r < w.rows.length) :
    Pan (nextNeo P close r) w Any (fun a w' => a.2.2 = none → r < w'.rows.length ∧ (w'.row r).consumed = true ∧
      w'.inbox.length + 1 ≤ w.inbox.length + (if (w.row r).consumed then 0 else pullMore P w)) := by
  unfold nextNeo
  refine .get ?_
  split
  · exact .pure nofun
  · refine Pan.bind (R := fun a w' => a = none → r < w'.rows.length ∧ (w'.row r).consumed = true ∧
      w'.inbox.length ≤ w.inbox.length + (if (w.row r).consumed then 0 else pullMore P w)) ?_ ?_
    · by_cases hcon : (w.row r).consumed = true
      · rw [if_neg (by rw [hcon]; decide), if_pos hcon]
        exact .pure fun _ => ⟨hr, hcon, Nat.le_refl _⟩
      · rw [if_pos (by rw [Bool.eq_false_iff.2 hcon]; decide), if_neg hcon]
        refine .modify ?_
        refine (pan_withConn_any (take_pull P _)).bind fun a w1 h1 => ?_
        cases a with
        | some e => exact .modify (.pure nofun)
        | none =>
          refine .pure fun _ => ?_
          have hrow : w1.row r = ((w.setRow r fun x => { x with consumed := true }).row r) := by unfold World.row; rw [h1.2]
          refine ⟨by rw [h1.2, setRow_len]; exact hr, ?_, h1.1⟩
          rw [hrow, row_modify, if_pos ⟨rfl, hr⟩]
    · intro a w1 h1
      cases a with
      | some e => exact .pure nofun
      | none =>
        obtain ⟨h2, h3, h4⟩ := h1 rfl
        refine (pan_withConn_any (take_consume P close w1)).bind fun a w2 h5 => ?_
        obtain ⟨v, e⟩ := a
        cases e with
        | some e => exact .pure nofun
        | none =>
          obtain ⟨h6, h7⟩ := h5 rfl
          cases v with
          | success md => exact .modify (.pure nofun)
          | record fs =>
            refine .pure fun _ => ⟨by rw [h7]; exact h2, ?_, by omega⟩
            unfold World.row at h3 ⊢; rw [h7]; exact h3
          | _ => exact .pure nofun

theorem bind_congr_ok {α β : Type} {x : M σ α} {f g : α → M σ β} {w : World σ} (h : ∀ a w', x w = .ok a w' → f a w' = g a w') :
    (x >>= f) w = (x >>= g) w := by
  show M.bind x f w = M.bind x g w
  unfold M.bind
  cases hx : x w with
  | ok a w' => exact h a w' hx
  | panic => rfl
  | deep => rfl

/-- More fuel than items to read: one more does not matter. -/
theorem all_more (P : Peer σ) (close : M σ (Option GoErr)) (r f : Nat) : ∀ (out : List (List Val)) {w : World σ}, r < w.rows.length →
    w.inbox.length + (if (w.row r).consumed then 0 else pullMore P w) < f →
    allLoop P close r f out w = allLoop P close r (f + 1) out w := by
  induction f with
  | zero => intro _ _ _ h; cases h
  | succ f ih =>
    intro out w hr hf
    unfold allLoop
    refine bind_congr_ok fun a w1 h1 => ?_
    have ht := take_nextNeo P close hr
    unfold Pan at ht
    rw [h1] at ht
    obtain ⟨row, md, e⟩ := a
    cases e with
    | some e => cases row <;> rfl
    | none =>
      cases row with
      | none => rfl
      | some row =>
        obtain ⟨h2, h3, h4⟩ := ht rfl
        exact ih _ h2 (by rw [if_pos h3]; omega)

/-- The bound in `rowsAll` does not matter: any larger one gives the same. -/
theorem all_fuel (P : Peer σ) (close : M σ (Option GoErr)) (r k : Nat) {w : World σ} (hr : r < w.rows.length) :
    rowsAll P close r w = allLoop P close r (w.inbox.length + pullMore P w + 2 + k) [] w := by
  induction k with
  | zero => rfl
  | succ k ih =>
    rw [ih, ← Nat.add_assoc]
    exact all_more P close r _ [] hr (by split <;> omega)

/-! ## Nesting -/

/-- The peer sends at most `rank s` more messages. -/
def Peer.Ranked (P : Peer σ) (rank : σ → Nat) : Prop :=
  ∀ s bs, (P.react s bs).2.length + rank (P.react s bs).1 ≤ rank s

/-- How many messages can still be read. -/
def World.pot (w : World σ) (rank : σ → Nat) : Nat := w.inbox.length + rank w.srv

/-- The call does not nest deeper than the bound; messages are not made out of nothing. -/
def Halts (rank : σ → Nat) {α : Type} (x : M σ α) (w : World σ) (Q : α → World σ → Prop := fun _ _ => True) : Prop :=
  match x w with
  | .ok a w' => w'.pot rank ≤ w.pot rank ∧ Q a w'
  | .panic _ _ => True
  | .deep _ => False

section
variable {rank : σ → Nat} {α β : Type} {w : World σ}

theorem Halts.pure {a : α} {Q : α → World σ → Prop} (h : Q a w) : Halts rank (M.pure a) w Q := ⟨Nat.le_refl _, h⟩
theorem Halts.pure' {a : α} : Halts rank (M.pure a) w := ⟨Nat.le_refl _, trivial⟩

theorem Halts.bind {x : M σ α} {f : α → M σ β} {R : α → World σ → Prop} {Q : β → World σ → Prop}
    (hx : Halts rank x w R) (hf : ∀ a w', x w = .ok a w' → w'.pot rank ≤ w.pot rank → R a w' → Halts rank (f a) w' Q) : Halts rank (x >>= f) w Q := by
  unfold Halts at hx ⊢
  show match M.bind x f w with | .ok a w' => w'.pot rank ≤ w.pot rank ∧ Q a w' | .panic p w' => True | .deep _ => False
  unfold M.bind
  cases h : x w with
  | ok a w' =>
    rw [h] at hx
    have := hf a w' h hx.1 hx.2
    unfold Halts at this
    cases h2 : f a w' with
    | ok b w2 => dsimp only; rw [h2] at this ⊢; exact ⟨Nat.le_trans this.1 hx.1, this.2⟩
    | panic => dsimp only; rw [h2]; trivial
    | deep => rw [h2] at this; exact this.elim
  | panic p w' => trivial
  | deep w' => rw [h] at hx; exact hx

theorem Halts.get {f : World σ → α} {g : α → M σ β} {Q : β → World σ → Prop} (h : Halts rank (g (f w)) w Q) :
    Halts rank (M.get f >>= g) w Q := h

theorem Halts.modify {f : World σ → World σ} {g : Unit → M σ β} {Q : β → World σ → Prop}
    (hp : (f w).inbox = w.inbox) (hs : (f w).srv = w.srv) (h : Halts rank (g ()) (f w) Q) :
    Halts rank (M.modify f >>= g) w Q := by
  refine Halts.bind (R := fun _ w' => w' = f w) ⟨?_, rfl⟩ ?_
  · unfold World.pot; rw [hp, hs]; exact Nat.le_refl _
  · rintro _ w' _ _ rfl; exact h

theorem Halts.withConn {s : Nat} {k : M σ α} {Q : α → World σ → Prop} (h : Halts rank k w Q) : Halts rank (withConn s k) w Q := by
  unfold Bolt.withConn
  by_cases hs : (w.stmt s).conn = true
  · unfold Halts; dsimp only; rw [if_pos hs]; exact h
  · unfold Halts; dsimp only; rw [if_neg hs]; trivial

theorem Halts.congr {x y : M σ α} {Q : α → World σ → Prop} (h : x w = y w) (hy : Halts rank y w Q) : Halts rank x w Q := by
  unfold Halts at hy ⊢; rw [h]; exact hy

theorem Halts.weak {x : M σ α} {Q : α → World σ → Prop} (h : Halts rank x w Q) : Halts rank x w := by
  unfold Halts at h ⊢
  cases hx : x w with
  | ok a w' => rw [hx] at h; exact ⟨h.1, trivial⟩
  | panic => trivial
  | deep => rw [hx] at h; exact h

end

section
variable {P : Peer σ} {rank : σ → Nat} (hP : P.Ranked rank) {N : Nat} {close : M σ (Option GoErr)}
  (hc : ∀ w : World σ, w.pot rank < N → Halts rank close w)

include hP in
theorem ends_send (v : Val) (w : World σ) : Halts rank (send P v) w := by
  refine ⟨?_, trivial⟩
  unfold World.pot
  dsimp only
  rw [List.length_append]
  split
  · simp
  · have := hP w.srv ((encodeTo w.chunkSize w.sink v).1.out.drop w.sink.out.length); omega

theorem ends_recv (w : World σ) : Halts rank (recv P) w (fun a w' => a.2 = none → w'.pot rank < w.pot rank) := by
  have h := take_recv P w
  unfold Pan at h
  have hs : ∀ a w', recv P w = .ok a w' → w'.srv = w.srv ∧ w'.inbox = w.inbox.tail := by
    intro a w' e
    unfold recv at e
    dsimp only at e
    split at e <;> first | (cases e; exact ⟨rfl, rfl⟩) | cases e
  unfold Halts
  cases hx : recv P w with
  | ok a w' =>
    rw [hx] at h
    obtain ⟨h1, h2⟩ := hs a w' hx
    show w'.inbox.length + rank w'.srv ≤ w.inbox.length + rank w.srv ∧
      (a.2 = none → w'.inbox.length + rank w'.srv < w.inbox.length + rank w.srv)
    rw [h1]
    refine ⟨?_, fun ha => ?_⟩
    · rw [h2]; have := List.length_tail (l := w.inbox); omega
    · have := h.1 ha; omega
  | panic => trivial
  | deep w' =>
    exfalso
    unfold recv at hx
    dsimp only at hx
    split at hx <;> cases hx

theorem length_dropWhile_le' {α : Type} (p : α → Bool) : ∀ l : List α, (l.dropWhile p).length ≤ l.length
  | [] => Nat.le_refl _
  | a :: l => by
    rw [List.dropWhile_cons]
    split
    · exact Nat.le_succ_of_le (length_dropWhile_le' p l)
    · exact Nat.le_refl _

theorem ends_skip (w : World σ) : Halts rank (skipIgnored (σ := σ)) w := by
  refine ⟨?_, trivial⟩
  unfold World.pot
  have := length_dropWhile_le' Item.isIgnored w.inbox
  dsimp only; omega

include hP hc

theorem ends_reset {w : World σ} (hw : w.pot rank < N) : Halts rank (reset P close) w := by
  unfold reset
  refine (ends_send hP _ w).bind fun a w1 _ h1 _ => ?_
  cases a with
  | some e => exact .pure'
  | none =>
    refine (ends_skip w1).bind fun _ w2 _ h2 _ => (ends_recv w2).bind fun a w3 _ h3 _ => ?_
    have h : w3.pot rank < N := by omega
    obtain ⟨v, e⟩ := a
    cases e with
    | some e => exact .pure'
    | none =>
      cases v with
      | success => exact .pure'
      | failure => exact (hc w3 h).bind fun _ _ _ _ _ => .pure'
      | _ => exact .modify rfl rfl ((hc { w3 with connErr := true } h).bind fun _ _ _ _ _ => .pure')

theorem ends_ack {w : World σ} (hw : w.pot rank < N) : Halts rank (ackFailure P close) w := by
  unfold ackFailure
  refine (ends_send hP _ w).bind fun a w1 _ h1 _ => ?_
  cases a with
  | some e => exact .pure'
  | none =>
    refine (ends_skip w1).bind fun _ w2 _ h2 _ => (ends_recv w2).bind fun a w3 _ h3 _ => ?_
    have h : w3.pot rank < N := by omega
    obtain ⟨v, e⟩ := a
    cases e with
    | some e => exact .pure'
    | none =>
      cases v with
      | success => exact .pure'
      | failure => exact ends_reset hP hc h
      | _ => exact .modify rfl rfl ((hc { w3 with connErr := true } h).bind fun _ _ _ _ _ => .pure')

theorem ends_consume {w : World σ} (hw : w.pot rank ≤ N) : Halts rank (consume P close) w := by
  unfold consume
  refine (ends_recv w).bind fun a w1 _ h1 h2 => ?_
  obtain ⟨v, e⟩ := a
  cases e with
  | some e => exact .pure'
  | none =>
    have := h2 rfl
    cases v with
    | failure =>
      refine (ends_ack hP hc (by omega)).bind fun a _ _ _ _ => ?_
      cases a <;> exact .pure'
    | _ => exact .pure'

theorem ends_consumeAll {w : World σ} (hw : w.pot rank ≤ N) : Halts rank (consumeAll P close) w := by
  have hd := length_dropWhile_le' Item.isPlain w.inbox
  have h : Halts rank (M.modify (fun w => { w with inbox := w.inbox.dropWhile Item.isPlain, log := w.log ++ (w.inbox.takeWhile Item.isPlain).map .recv }) >>=
      fun _ => consume P close >>= fun
      | (r, some e) => M.pure ([], r, some e)
      | (r, none) => M.pure ((w.inbox.takeWhile Item.isPlain).map Item.value, r, none)) w := by
    refine Halts.bind (R := fun _ _ => True) ⟨?_, trivial⟩ ?_
    · unfold World.pot; dsimp only; omega
    · intro _ w1 _ h1 _
      refine (ends_consume hP hc (Nat.le_trans h1 hw)).bind fun a _ _ _ _ => ?_
      obtain ⟨v, e⟩ := a
      cases e <;> exact .pure'
  exact h

theorem ends_multiple (n : Nat) : ∀ {w : World σ}, w.pot rank ≤ N → Halts rank (consumeAllMultiple P close n) w := by
  induction n with
  | zero => exact fun _ => .pure'
  | succ n ih =>
    intro w hw
    unfold consumeAllMultiple
    refine (ends_consumeAll hP hc hw).bind fun a w1 _ h1 _ => ?_
    obtain ⟨x, y, e⟩ := a
    cases e with
    | some e => exact .pure'
    | none => exact ih (Nat.le_trans h1 hw)

omit hc
theorem ends_run (q : Str) (kvs : KVs) (w : World σ) : Halts rank (sendRun P q kvs) w := by
  unfold sendRun
  refine (ends_send hP _ w).bind fun a _ _ _ _ => ?_
  cases a <;> exact .pure'

theorem ends_pull (w : World σ) : Halts rank (sendPullAll P) w := by
  unfold sendPullAll
  refine (ends_send hP _ w).bind fun a _ _ _ _ => ?_
  cases a <;> exact .pure'

theorem ends_discard (w : World σ) : Halts rank (sendDiscardAll P) w := by
  unfold sendDiscardAll
  refine (ends_send hP _ w).bind fun a _ _ _ _ => ?_
  cases a <;> exact .pure'

theorem ends_runPull (q : Str) (kvs : KVs) (w : World σ) : Halts rank (sendRunPullAll P q kvs) w := by
  unfold sendRunPullAll
  refine (ends_run hP q kvs w).bind fun a w1 _ _ _ => ?_
  cases a with
  | some e => exact .pure'
  | none => exact ends_pull hP w1

include hc
theorem ends_runConsume (q : Str) (kvs : KVs) {w : World σ} (hw : w.pot rank ≤ N) : Halts rank (sendRunConsume P close q kvs) w := by
  unfold sendRunConsume
  refine (ends_run hP q kvs w).bind fun a w1 _ h1 _ => ?_
  cases a with
  | some e => exact .pure'
  | none => exact ends_consume hP hc (Nat.le_trans h1 hw)

theorem ends_discardConsume {w : World σ} (hw : w.pot rank ≤ N) : Halts rank (sendDiscardAllConsume P close) w := by
  unfold sendDiscardAllConsume
  refine (ends_discard hP w).bind fun a w1 _ h1 _ => ?_
  cases a with
  | some e => exact .pure'
  | none => exact ends_consume hP hc (Nat.le_trans h1 hw)

theorem ends_runPullConsume (q : Str) (kvs : KVs) {w : World σ} (hw : w.pot rank ≤ N) : Halts rank (sendRunPullAllConsumeRun P close q kvs) w := by
  unfold sendRunPullAllConsumeRun
  refine (ends_runPull hP q kvs w).bind fun a w1 _ h1 _ => ?_
  cases a with
  | some e => exact .pure'
  | none => exact ends_consume hP hc (Nat.le_trans h1 hw)

theorem ends_single (q : Str) (kvs : KVs) {w : World σ} (hw : w.pot rank ≤ N) : Halts rank (sendRunPullAllConsumeSingle P close q kvs) w := by
  unfold sendRunPullAllConsumeSingle
  refine (ends_runPull hP q kvs w).bind fun a w1 _ h1 _ => ?_
  cases a with
  | some e => exact .pure'
  | none =>
    refine (ends_consume hP hc (Nat.le_trans h1 hw)).bind fun a w2 _ h2 _ => ?_
    obtain ⟨v, e⟩ := a
    cases e with
    | some e => exact .pure'
    | none => exact (ends_consume hP hc (by omega)).bind fun _ _ _ _ _ => .pure'

theorem ends_runPullAll (q : Str) (kvs : KVs) {w : World σ} (hw : w.pot rank ≤ N) : Halts rank (sendRunPullAllConsumeAll P close q kvs) w := by
  unfold sendRunPullAllConsumeAll
  refine (ends_runPull hP q kvs w).bind fun a w1 _ h1 _ => ?_
  cases a with
  | some e => exact .pure'
  | none =>
    refine (ends_consume hP hc (Nat.le_trans h1 hw)).bind fun a w2 _ h2 _ => ?_
    obtain ⟨v, e⟩ := a
    cases e with
    | some e => exact .pure'
    | none => exact (ends_consumeAll hP hc (by omega)).bind fun _ _ _ _ _ => .pure'

theorem ends_drain (r : Nat) {w : World σ} (hw : w.pot rank ≤ N) : Halts rank (rowsDrain P close r) w := by
  by_cases h1 : (!(w.row r).consumed) = true
  · have : Halts rank (do
        match ← withConn (w.row r).stmt (sendDiscardAllConsume P close) with
        | (_, some e) => M.pure (some (.wrap "An error occurred discarding messages on row close" (some e)))
        | (.success _, none) => M.pure none
        | (_, none) => M.pure (some (.new "Unrecognized response type discarding all rows: Value: %#v")) : M σ (Option GoErr)) w := by
      refine (ends_discardConsume hP hc hw).withConn.bind fun a _ _ _ _ => ?_
      obtain ⟨v, e⟩ := a
      cases e with
      | some e => exact .pure'
      | none => cases v <;> exact .pure'
    exact this.congr (by unfold rowsDrain; dsimp only; rw [if_pos h1]; rfl)
  · by_cases h2 : (!(w.row r).finished) = true
    · have : Halts rank (do
          let n := numConsume (w.stmt (w.row r).stmt).queries.length (w.row r).idx
          if n < 0 then withConn (w.row r).stmt (M.panic .negMake)
          else
            match ← withConn (w.row r).stmt (consumeAllMultiple P close n.toNat) with
            | some e => M.pure (some (.wrap "An error occurred clearing out unconsumed stream" (some e)))
            | none => M.pure none : M σ (Option GoErr)) w := by
        dsimp only
        split
        · exact Halts.withConn trivial
        · refine (ends_multiple hP hc _ hw).withConn.bind fun a _ _ _ _ => ?_
          cases a <;> exact .pure'
      exact this.congr (by unfold rowsDrain; dsimp only; rw [if_neg h1, if_pos h2]; rfl)
    · exact Halts.congr (y := M.pure none) (by unfold rowsDrain; dsimp only; rw [if_neg h1, if_neg h2]; rfl) .pure'

omit hP hc in
theorem ends_stmtMark (s : Nat) (w : World σ) : Halts rank (stmtMark s) w := by
  unfold stmtMark
  by_cases h : (w.stmt s).conn = true
  · unfold Halts; dsimp only; rw [if_pos h]; exact ⟨Nat.le_refl _, trivial⟩
  · unfold Halts; dsimp only; rw [if_neg h]; trivial

theorem ends_rowsClose0 (r : Nat) {w : World σ} (hw : w.pot rank ≤ N) : Halts rank (rowsClose0 P close r) w := by
  unfold rowsClose0
  refine .get ?_
  split
  · exact .pure'
  · refine (ends_drain hP hc r hw).bind fun a w1 _ _ _ => ?_
    cases a with
    | some e => exact .pure'
    | none => exact Halts.modify rfl rfl .pure'

theorem ends_stmtClose (s : Nat) {w : World σ} (hw : w.pot rank ≤ N) : Halts rank (stmtClose P close s) w := by
  unfold stmtClose
  refine .get ?_
  split
  · exact .pure'
  · refine Halts.bind (R := fun _ _ => True) ?_ ?_
    · refine .get ?_
      cases (w.stmt s).rows with
      | none => exact .pure'
      | some r =>
        refine .get ?_
        split
        · exact .pure'
        · exact ends_rowsClose0 hP hc r hw
    · intro a w1 _ _ _
      cases a with
      | some e => exact .pure'
      | none => exact (ends_stmtMark s w1).bind fun _ _ _ _ _ => .pure'

theorem ends_rowsClose (r : Nat) {w : World σ} (hw : w.pot rank ≤ N) : Halts rank (rowsClose P close r) w := by
  unfold rowsClose
  refine .get ?_
  split
  · exact .pure'
  · refine (ends_drain hP hc r hw).bind fun a w1 _ h1 _ => ?_
    cases a with
    | some e => exact .pure'
    | none =>
      refine Halts.modify rfl rfl (.get ?_)
      split
      · exact .get (ends_stmtClose hP hc _ (Nat.le_trans h1 hw))
      · exact .pure'

theorem ends_current {w : World σ} (hw : w.pot rank ≤ N) : Halts rank (do
      match ← M.get fun w => w.statement with
      | none => M.pure none
      | some s => stmtClose P close s : M σ (Option GoErr)) w := by
  refine .get ?_
  cases w.statement with
  | none => exact .pure'
  | some s => exact ends_stmtClose hP hc s hw

theorem ends_txFinish (q : Str) (t : Nat) {w : World σ} (hw : w.pot rank ≤ N) : Halts rank (txFinish P close q t) w := by
  unfold txFinish
  refine .get ?_
  split
  · exact .pure'
  · refine (ends_current hP hc hw).bind fun a w1 _ h1 _ => ?_
    cases a with
    | some e => exact .pure'
    | none =>
      refine (ends_single hP hc q [] (Nat.le_trans h1 hw)).bind fun a w2 _ _ _ => ?_
      obtain ⟨x, y, e⟩ := a
      cases e with
      | some e => exact .pure'
      | none =>
        dsimp only
        split
        · exact .pure'
        · split
          · exact .pure'
          · exact Halts.modify rfl rfl .pure'

theorem ends_connClose {w : World σ} (hw : w.pot rank ≤ N) : Halts rank (connClose P close) w := by
  unfold connClose
  refine .get ?_
  split
  · exact .pure'
  · refine (ends_current hP hc hw).bind fun a w1 _ h1 _ => ?_
    cases a with
    | some e => exact .pure'
    | none =>
      refine Halts.bind (R := fun _ _ => True) ?_ ?_
      · refine .get ?_
        cases w1.transaction with
        | none => exact .pure'
        | some t => exact ends_txFinish hP hc _ t (Nat.le_trans h1 hw)
      · intro a w2 _ _ _
        cases a with
        | some e => exact .pure'
        | none =>
          refine Halts.bind (R := fun _ _ => True) ⟨?_, trivial⟩ ?_
          · unfold World.pot; simp
          · intro _ w3 _ _ _
            refine .get ?_
            split <;> exact .pure'

end

theorem ends_closeN {P : Peer σ} {rank : σ → Nat} (hP : P.Ranked rank) (n : Nat) : ∀ (w : World σ), w.pot rank < n → Halts rank (closeN P n) w := by
  induction n with
  | zero => intro w h; cases h
  | succ n ih => intro w h; exact ends_connClose hP ih (Nat.le_of_lt_succ h)

section
variable {P : Peer σ} {rank : σ → Nat} (hP : P.Ranked rank) {N : Nat} {close : M σ (Option GoErr)}
  (hc : ∀ w : World σ, w.pot rank < N → Halts rank close w)
include hP hc

omit hP hc in
theorem ends_guardStmt (s : Nat) (w : World σ) : Halts rank (guardStmt s) w := by
  unfold guardStmt
  by_cases h : (w.stmt s).closed = true
  · unfold Halts; dsimp only; rw [if_pos h]; exact ⟨Nat.le_refl _, trivial⟩
  · by_cases h2 : (w.stmt s).rows.isSome = true
    · unfold Halts; dsimp only; rw [if_neg h, if_pos h2]; exact ⟨Nat.le_refl _, trivial⟩
    · unfold Halts; dsimp only; rw [if_neg h, if_neg h2]; exact ⟨Nat.le_refl _, trivial⟩

omit hP hc in
theorem ends_guardConn (w : World σ) : Halts rank guardConn w := by
  unfold guardConn
  by_cases h : w.statement.isSome = true
  · unfold Halts; dsimp only; rw [if_pos h]; exact ⟨Nat.le_refl _, trivial⟩
  · by_cases h2 : w.closed = true
    · unfold Halts; dsimp only; rw [if_neg h, if_pos h2]; exact ⟨Nat.le_refl _, trivial⟩
    · unfold Halts; dsimp only; rw [if_neg h, if_neg h2]; exact ⟨Nat.le_refl _, trivial⟩

omit hP hc in
theorem ends_newStmt (q : Str) (qs : List Str) (w : World σ) : Halts rank (newStmt q qs) w := ⟨Nat.le_refl _, trivial⟩

omit hP hc in
theorem ends_newRows (x : Rows) (w : World σ) : Halts rank (newRowsObj x) w := ⟨Nat.le_refl _, trivial⟩

omit hP hc in
theorem ends_openRows (x : Rows) {β : Type} (g : Nat → β) (w : World σ) : Halts rank (do
      let r ← newRowsObj x
      M.modify fun w => w.setStmt x.stmt fun s => { s with rows := some r }
      M.pure (g r) : M σ β) w := ⟨Nat.le_refl _, trivial⟩

theorem ends_stmtExec (s : Nat) (kvs : KVs) {w : World σ} (hw : w.pot rank ≤ N) : Halts rank (stmtExecNeo P close s kvs) w := by
  unfold stmtExecNeo
  refine (ends_guardStmt s w).bind fun a w1 _ h1 _ => ?_
  cases a with
  | some e => exact .pure'
  | none =>
    refine .get ((ends_runPullAll hP hc _ kvs (Nat.le_trans h1 hw)).withConn.bind fun a w2 _ _ _ => ?_)
    obtain ⟨x, y, e⟩ := a
    cases e with
    | some e => exact .pure'
    | none =>
      dsimp only
      split
      · exact .pure'
      · split <;> exact .pure'

omit hc in
theorem ends_sendAll (msg : String) : ∀ (l : List (Str × KVs)) (w : World σ), Halts rank (sendAll P msg l) w
  | [], _ => .pure'
  | (q, ps) :: l, w => by
    unfold sendAll
    refine (ends_runPull hP q ps w).bind fun a w1 _ _ _ => ?_
    cases a with
    | some e => exact .pure'
    | none => exact ends_sendAll msg l w1

theorem ends_collect (n : Nat) : ∀ {w : World σ}, w.pot rank ≤ N → Halts rank (collect P close n) w := by
  induction n with
  | zero => exact fun _ => .pure'
  | succ n ih =>
    intro w hw
    unfold collect
    refine (ends_consume hP hc hw).bind fun a w1 _ h1 _ => ?_
    obtain ⟨v, e⟩ := a
    cases e with
    | some e => exact .pure'
    | none =>
      dsimp only
      split
      · exact .pure'
      · refine (ends_consumeAll hP hc (Nat.le_trans h1 hw)).bind fun a w2 _ h2 _ => ?_
        obtain ⟨x, y, e⟩ := a
        cases e with
        | some e => exact .pure'
        | none =>
          cases y with
          | success md =>
            refine (ih (by omega)).bind fun a _ _ _ _ => ?_
            cases a <;> exact .pure'
          | _ => exact .pure'

theorem ends_stmtExecPipe (s : Nat) (l : List KVs) {w : World σ} (hw : w.pot rank ≤ N) : Halts rank (stmtExecPipeline P close s l) w := by
  unfold stmtExecPipeline
  refine (ends_guardStmt s w).bind fun a w1 _ h1 _ => ?_
  cases a with
  | some e => exact .pure'
  | none =>
    refine .get ?_
    split
    · exact .pure'
    · refine (ends_sendAll hP _ _ w1).withConn.bind fun a w2 _ h2 _ => ?_
      cases a with
      | some e => exact .pure'
      | none => exact (ends_collect hP hc _ (by omega)).withConn

theorem ends_stmtQuery (s : Nat) (kvs : KVs) {w : World σ} (hw : w.pot rank ≤ N) : Halts rank (stmtQueryNeo P close s kvs) w := by
  unfold stmtQueryNeo
  refine (ends_guardStmt s w).bind fun a w1 _ h1 _ => ?_
  cases a with
  | some e => exact .pure'
  | none =>
    refine .get ((ends_runConsume hP hc _ kvs (Nat.le_trans h1 hw)).withConn.bind fun a w2 _ _ _ => ?_)
    obtain ⟨v, e⟩ := a
    cases e with
    | some e => exact .pure'
    | none =>
      cases v with
      | success md => exact ⟨Nat.le_refl _, trivial⟩
      | _ => exact .pure'

theorem ends_stmtQueryPipe (s : Nat) (l : List KVs) {w : World σ} (hw : w.pot rank ≤ N) : Halts rank (stmtQueryPipeline P close s l) w := by
  unfold stmtQueryPipeline
  refine (ends_guardStmt s w).bind fun a w1 _ h1 _ => ?_
  cases a with
  | some e => exact .pure'
  | none =>
    refine .get ?_
    split
    · exact .pure'
    · refine (ends_sendAll hP _ _ w1).withConn.bind fun a w2 _ h2 _ => ?_
      cases a with
      | some e => exact .pure'
      | none =>
        refine (ends_consume hP hc (by omega)).withConn.bind fun a w3 _ _ _ => ?_
        obtain ⟨v, e⟩ := a
        cases e with
        | some e => exact .pure'
        | none =>
          cases v with
          | success md => exact ⟨Nat.le_refl _, trivial⟩
          | _ => exact .pure'

theorem ends_closeCurrent {w : World σ} (hw : w.pot rank ≤ N) : Halts rank (queryNeo.stmtCloseCurrent P close) w := by
  unfold queryNeo.stmtCloseCurrent
  refine .get ?_
  cases w.statement with
  | none => trivial
  | some s => exact ends_stmtClose hP hc s hw

theorem ends_queryNeo (q : Str) (kvs : KVs) {w : World σ} (hw : w.pot rank ≤ N) : Halts rank (queryNeo P close q kvs) w := by
  unfold queryNeo
  refine (ends_guardConn w).bind fun a w1 _ h1 _ => ?_
  cases a with
  | some e => exact .pure'
  | none =>
    refine (ends_newStmt q [] w1).bind fun s w2 _ h2 _ => Halts.modify rfl rfl ?_
    have h3 : World.pot { w2 with statement := some s } rank ≤ N := Nat.le_trans h2 (Nat.le_trans h1 hw)
    refine (ends_runPullConsume hP hc q kvs h3).bind fun a w4 _ h4 _ => ?_
    have h5 : w4.pot rank ≤ N := Nat.le_trans h4 h3
    obtain ⟨v, e⟩ := a
    cases e with
    | some e => exact (ends_closeCurrent hP hc h5).bind fun _ _ _ _ _ => .pure'
    | none =>
      cases v with
      | success md => exact ⟨Nat.le_refl _, trivial⟩
      | _ => exact (ends_closeCurrent hP hc h5).bind fun _ _ _ _ _ => .pure'

theorem ends_nextNeo (r : Nat) {w : World σ} (hw : w.pot rank ≤ N) : Halts rank (nextNeo P close r) w := by
  unfold nextNeo
  refine .get ?_
  split
  · exact .pure'
  · refine Halts.bind (R := fun _ _ => True) ?_ ?_
    · split
      · refine Halts.modify rfl rfl ((ends_pull hP _).withConn.bind fun a w1 _ _ _ => ?_)
        cases a with
        | some e => exact Halts.modify rfl rfl .pure'
        | none => exact .pure'
      · exact .pure'
    · intro a w1 _ h1 _
      cases a with
      | some e => exact .pure'
      | none =>
        refine (ends_consume hP hc (Nat.le_trans h1 hw)).withConn.bind fun a w2 _ _ _ => ?_
        obtain ⟨v, e⟩ := a
        cases e with
        | some e => exact .pure'
        | none =>
          cases v with
          | success md => exact Halts.modify rfl rfl .pure'
          | _ => exact .pure'

theorem ends_allLoop (r f : Nat) : ∀ (out : List (List Val)) {w : World σ}, w.pot rank ≤ N → r < w.rows.length →
    w.inbox.length + (if (w.row r).consumed then 0 else pullMore P w) < f → Halts rank (allLoop P close r f out) w := by
  induction f with
  | zero => intro _ _ _ _ h; cases h
  | succ f ih =>
    intro out w hw hr hf
    unfold allLoop
    refine (ends_nextNeo hP hc r hw).bind fun a w1 he h1 _ => ?_
    have ht := take_nextNeo P close hr
    unfold Pan at ht
    rw [he] at ht
    obtain ⟨row, md, e⟩ := a
    cases e with
    | some e =>
      cases row <;> (dsimp only; split <;> exact .pure')
    | none =>
      cases row with
      | none => exact .pure'
      | some row =>
        obtain ⟨h2, h3, h4⟩ := ht rfl
        exact ih _ (Nat.le_trans h1 hw) h2 (by rw [if_pos h3]; omega)

theorem ends_rowsAll (r : Nat) {w : World σ} (hw : w.pot rank ≤ N) (hr : r < w.rows.length) : Halts rank (rowsAll P close r) w :=
  Halts.congr (y := allLoop P close r (w.inbox.length + pullMore P w + 2) []) rfl
    (ends_allLoop hP hc r _ [] hw hr (by split <;> omega))

omit hP hc in
/-- A direct query that succeeds gives rows that exist. -/
theorem queryNeo_row {q : Str} {kvs : KVs} {w w' : World σ} {r : Nat} (h : queryNeo P close q kvs w = .ok (.ok r) w') : r < w'.rows.length := by
  have : Pan (queryNeo P close q kvs) w Any (fun a w' => ∀ r, a = .ok r → r < w'.rows.length) := by
    unfold queryNeo
    refine (Pan.trivial _ w).bind fun a w1 _ => ?_
    cases a with
    | some e => exact .pure nofun
    | none =>
      refine (Pan.trivial _ w1).bind fun s w2 _ => (Pan.trivial _ w2).bind fun _ w3 _ => (Pan.trivial _ w3).bind fun a w4 _ => ?_
      obtain ⟨v, e⟩ := a
      cases e with
      | some e => exact (Pan.trivial _ w4).bind fun _ _ _ => .pure nofun
      | none =>
        cases v with
        | success md =>
          intro r hr
          have : w4.rows.length = r := by injection hr
          subst this
          show w4.rows.length < (w4.rows ++ [_]).length
          simp
        | _ => exact (Pan.trivial _ w4).bind fun _ _ _ => .pure nofun
  unfold Pan at this
  rw [h] at this
  exact this r rfl

theorem ends_queryNeoAll (q : Str) (kvs : KVs) {w : World σ} (hw : w.pot rank ≤ N) : Halts rank (queryNeoAll P close q kvs) w := by
  unfold queryNeoAll
  refine (ends_queryNeo hP hc q kvs hw).bind fun a w1 e1 h1 _ => ?_
  cases a with
  | error e => exact .pure'
  | ok r =>
    refine (ends_rowsAll hP hc r (Nat.le_trans h1 hw) (queryNeo_row e1)).bind fun a w2 _ h2 _ => ?_
    exact .get ((ends_rowsClose hP hc r (by omega)).bind fun _ _ _ _ _ => .pure')

theorem ends_queryPipeline (qs : List Str) (l : List KVs) {w : World σ} (hw : w.pot rank ≤ N) : Halts rank (queryPipeline P close qs l) w := by
  unfold queryPipeline
  refine (ends_guardConn w).bind fun a w1 _ h1 _ => ?_
  cases a with
  | some e => exact .pure'
  | none =>
    refine (ends_newStmt [] qs w1).bind fun s w2 _ h2 _ => Halts.modify rfl rfl ?_
    have h3 : World.pot { w2 with statement := some s } rank ≤ N := Nat.le_trans h2 (Nat.le_trans h1 hw)
    refine (ends_stmtQueryPipe hP hc s l h3).bind fun a w4 _ _ _ => ?_
    cases a with
    | error e => exact .pure'
    | ok r => exact Halts.modify rfl rfl .pure'

theorem ends_nextPipeline (r : Nat) {w : World σ} (hw : w.pot rank ≤ N) : Halts rank (nextPipeline P close r) w := by
  unfold nextPipeline
  refine .get ?_
  split
  · exact .pure'
  · refine (ends_consume hP hc hw).withConn.bind fun a w1 _ h1 _ => ?_
    obtain ⟨v, e⟩ := a
    cases e with
    | some e => exact .pure'
    | none =>
      cases v with
      | success md =>
        refine .get ?_
        split
        · exact Halts.modify rfl rfl .pure'
        · refine (ends_consume hP hc (Nat.le_trans h1 hw)).withConn.bind fun a w2 _ _ _ => ?_
          obtain ⟨v, e⟩ := a
          cases e with
          | some e =>
            dsimp only
            split
            · cases v <;> first | exact ⟨Nat.le_refl _, trivial⟩ | exact .pure'
            · exact .pure'
          | none => cases v <;> first | exact ⟨Nat.le_refl _, trivial⟩ | exact .pure'
      | _ => exact .pure'

theorem ends_execNeo (q : Str) (kvs : KVs) {w : World σ} (hw : w.pot rank ≤ N) : Halts rank (execNeo P close q kvs) w := by
  unfold execNeo
  refine (ends_guardConn w).bind fun a w1 _ h1 _ => ?_
  cases a with
  | some e => exact .pure'
  | none =>
    refine (ends_newStmt q [] w1).bind fun s w2 _ h2 _ => ?_
    refine (ends_stmtExec hP hc s kvs (by omega)).bind fun a w3 _ h3 _ => ?_
    exact (ends_stmtClose hP hc s (by omega)).bind fun _ _ _ _ _ => .pure'

theorem ends_execPipeline (qs : List Str) (l : List KVs) {w : World σ} (hw : w.pot rank ≤ N) : Halts rank (execPipeline P close qs l) w := by
  unfold execPipeline
  refine (ends_guardConn w).bind fun a w1 _ h1 _ => ?_
  cases a with
  | some e => exact .pure'
  | none =>
    refine (ends_newStmt [] qs w1).bind fun s w2 _ h2 _ => ?_
    refine (ends_stmtExecPipe hP hc s l (by omega)).bind fun a w3 _ h3 _ => ?_
    exact (ends_stmtClose hP hc s (by omega)).bind fun _ _ _ _ _ => .pure'

theorem ends_begin {w : World σ} (hw : w.pot rank ≤ N) : Halts rank (begin_ P close) w := by
  unfold begin_
  refine .get ?_
  split
  · exact .pure'
  · refine .get ?_
    split
    · exact .pure'
    · refine .get ?_
      split
      · exact .pure'
      · refine (ends_single hP hc qBegin [] hw).bind fun a w2 _ _ _ => ?_
        obtain ⟨x, y, e⟩ := a
        cases e with
        | some e => exact .pure'
        | none =>
          dsimp only
          split
          · exact .pure'
          · split
            · exact .pure'
            · exact ⟨Nat.le_refl _, trivial⟩

omit hP hc in
theorem ends_prepare (q : Str) (qs : List Str) (w : World σ) : Halts rank (prepare q qs) w := by
  unfold prepare
  refine (ends_guardConn w).bind fun a w1 _ h1 _ => ?_
  cases a with
  | some e => exact .pure'
  | none => exact ⟨Nat.le_refl _, trivial⟩

omit hP hc in
theorem Halts.map {α β : Type} {x : M σ α} {f : α → β} {w : World σ} (h : Halts rank x w) : Halts rank (do M.pure (f (← x))) w :=
  h.bind fun _ _ _ _ _ => .pure'

theorem ends_op (op : Op) {w : World σ} (hw : w.pot rank ≤ N) (he : op.Exists w) : Halts rank (op.run P close) w := by
  cases op with
  | exec q kvs => exact (ends_execNeo hP hc q kvs hw).map
  | query q kvs => exact (ends_queryNeo hP hc q kvs hw).map
  | queryAll q kvs =>
    refine (ends_queryNeoAll hP hc q kvs hw).bind fun a _ _ _ _ => ?_
    cases a <;> exact .pure'
  | execPipe qs l => exact (ends_execPipeline hP hc qs l hw).map
  | queryPipe qs l => exact (ends_queryPipeline hP hc qs l hw).map
  | prepare q => exact (ends_prepare q [] w).map
  | preparePipe qs => exact (ends_prepare [] qs w).map
  | begin => exact (ends_begin hP hc hw).map
  | stExec s kvs => exact (ends_stmtExec hP hc s kvs hw).map
  | stQuery s kvs => exact (ends_stmtQuery hP hc s kvs hw).map
  | stExecPipe s l => exact (ends_stmtExecPipe hP hc s l hw).map
  | stQueryPipe s l => exact (ends_stmtQueryPipe hP hc s l hw).map
  | next r => exact (ends_nextNeo hP hc r hw).map
  | all r => exact (ends_rowsAll hP hc r hw he).map
  | nextPipe r => exact (ends_nextPipeline hP hc r hw).map
  | closeRows r => exact ends_rowsClose hP hc r hw
  | closeStmt s => exact ends_stmtClose hP hc s hw
  | commit t => exact ends_txFinish hP hc qCommit t hw
  | rollback t => exact ends_txFinish hP hc qRollback t hw
  | close => exact ends_connClose hP hc hw
  | setChunkSize n => exact Halts.modify rfl rfl .pure'

end

end Bolt
