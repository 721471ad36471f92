import Verif.Spec.GiveUp
import Verif.Proofs.Gone
import Verif.Proofs.Failures

/-!
# Closing the connection when a failure cannot be cleared
-/

namespace Bolt
variable {σ : Type} {P : Peer σ} {close : M σ (Option GoErr)}

/-! ## The events as a state machine -/

/-- The request whose answer is awaited. -/
inductive Wait where
  | no
  | ack
  | reset

/-- The next event. -/
def Wait.step : Wait → Event → Wait
  | _, .send .ackFailure none => .ack
  | _, .send .reset none => .reset
  | _, .send _ _ => .no
  | a, .recv (.val .ignored) => a
  | _, .recv _ => .no

/-- The event is an answer that denies the request. -/
def Wait.hit : Wait → Event → Bool
  | .no, _ => false
  | _, .send .. => false
  | _, .recv (.val .ignored) => false
  | _, .recv (.val (.success _)) => false
  | .ack, .recv (.val (.failure _)) => false
  | _, .recv (.val _) => true
  | _, .recv _ => false

/-- The events, one after the other. -/
def Wait.after : Wait → List Event → Wait
  | a, [] => a
  | a, e :: l => (a.step e).after l

/-- Some event denies the request. -/
def Wait.hits : Wait → List Event → Bool
  | _, [] => false
  | a, e :: l => a.hit e || (a.step e).hits l

theorem Wait.after_append : ∀ (l l' : List Event) (a : Wait), a.after (l ++ l') = (a.after l).after l'
  | [], _, _ => rfl
  | e :: l, l', a => after_append l l' (a.step e)

theorem Wait.hits_append : ∀ (l l' : List Event) (a : Wait), a.hits (l ++ l') = (a.hits l || (a.after l).hits l')
  | [], _, _ => rfl
  | e :: l, l', a => by
    show (a.hit e || (a.step e).hits (l ++ l')) = _
    rw [hits_append l l' (a.step e), ← Bool.or_assoc]
    rfl

theorem Wait.ignored {a : Wait} : ∀ {l : List Event}, OnlyIgnored l → a.after l = a ∧ a.hits l = false
  | [], _ => ⟨rfl, rfl⟩
  | e :: l, h => by
    obtain rfl := h e (by simp)
    obtain ⟨h1, h2⟩ := Wait.ignored (a := a) (l := l) fun e he => h e (by simp [he])
    refine ⟨h1, ?_⟩
    show (a.hit _ || a.hits l) = false
    rw [h2]
    cases a <;> rfl

theorem denies_reset {v : Val} (h : Denies v) : Wait.reset.hit (.recv (.val v)) = true := by
  cases v with
  | success md => exact (h.2 md rfl).elim
  | ignored => exact (h.1 rfl).elim
  | _ => rfl

theorem denies_ack {v : Val} (h : Denies v) (hf : ∀ md, v ≠ .failure md) : Wait.ack.hit (.recv (.val v)) = true := by
  cases v with
  | success md => exact (h.2 md rfl).elim
  | failure md => exact (hf md rfl).elim
  | ignored => exact (h.1 rfl).elim
  | _ => rfl

theorem Hopeless.hits {l : List Event} (h : Hopeless l) (a : Wait) : a.hits l = true := by
  cases h with
  | @reset l1 ig v l2 hi hd =>
    rw [Wait.hits_append]
    show (_ || (_ || Wait.reset.hits _)) = true
    rw [Wait.hits_append, (Wait.ignored hi).1]
    show (_ || (_ || (_ || (Wait.reset.hit (.recv (.val v)) || _)))) = true
    rw [denies_reset hd]
    simp
  | @ack l1 ig v l2 hi hd hf =>
    rw [Wait.hits_append]
    show (_ || (_ || Wait.ack.hits _)) = true
    rw [Wait.hits_append, (Wait.ignored hi).1]
    show (_ || (_ || (_ || (Wait.ack.hit (.recv (.val v)) || _)))) = true
    rw [denies_ack hd hf]
    simp

theorem Hopeless.right {l : List Event} (h : Hopeless l) (l' : List Event) : Hopeless (l' ++ l) := by
  cases h with
  | reset hi hd => rw [← List.append_assoc]; exact .reset hi hd
  | ack hi hd hf => rw [← List.append_assoc]; exact .ack hi hd hf

theorem Hopeless.left {l : List Event} (h : Hopeless l) (l' : List Event) : Hopeless (l ++ l') := by
  cases h with
  | reset hi hd => simp only [List.append_assoc, List.cons_append]; exact .reset hi hd
  | ack hi hd hf => simp only [List.append_assoc, List.cons_append]; exact .ack hi hd hf

/-! ## What a closing connection needs -/

/-- Closing the connection sends nothing: no transaction, and the current statement is open and has no rows to empty. -/
structure World.Fair (w : World σ) : Prop where
  tx : w.transaction = none
  cur : ∀ s, w.statement = some s → (w.stmt s).closed = false ∧ (w.stmt s).conn = true ∧
    ∀ r, (w.stmt s).rows = some r → (w.row r).closeStmt = true

/-- So, or closed. -/
def World.Well (w : World σ) : Prop := w.Fair ∨ w.closed = true

/-- Nothing that matters here changed. -/
structure SameState (w w' : World σ) : Prop where
  stmts : w'.stmts = w.stmts
  rows : w'.rows = w.rows
  statement : w'.statement = w.statement
  transaction : w'.transaction = w.transaction
  closed : w'.closed = w.closed

theorem SameState.well {w w' : World σ} (h : SameState w w') (hw : w.Well) : w'.Well := by
  have hs : ∀ s, w'.stmt s = w.stmt s := fun s => by unfold World.stmt; rw [h.stmts]
  have hr : ∀ s, w'.row s = w.row s := fun s => by unfold World.row; rw [h.rows]
  rcases hw with hw | hw
  · exact .inl ⟨h.transaction.trans hw.tx, fun s e => by rw [hs]; exact ⟨(hw.cur s (h.statement ▸ e)).1, (hw.cur s (h.statement ▸ e)).2.1,
      fun r e' => by rw [hr]; exact (hw.cur s (h.statement ▸ e)).2.2 r e'⟩⟩
  · exact .inr (h.closed.trans hw)

/-- Closing works and is silent. -/
def Shuts (close : M σ (Option GoErr)) : Prop := ∀ w : World σ, w.Well → (close w).world.log = w.log ∧ (close w).world.closed = true

/-- What happened: nothing awaited any more; if the server denied something, the connection is closed; and if `b`, closing
the connection still sends nothing. -/
def Fin {α : Type} (b : Bool) (a : Wait) (w : World σ) (o : Out σ α) : Prop :=
  ∃ l, o.world.log = w.log ++ l ∧ a.after l = .no ∧ (w.closed = true → o.world.closed = true) ∧ (a.hits l = true → o.world.closed = true) ∧
    (b = true → ∀ x w', o = .ok x w' → w'.Well)

/-- Preceded by other events. -/
theorem Fin.pre {α : Type} {b : Bool} {a a' : Wait} {w w1 : World σ} {o : Out σ α} {l : List Event} (h : Fin b a' w1 o) (hl : w1.log = w.log ++ l)
    (ha : a.after l = a') (hc : w.closed = true → w1.closed = true) (hh : a.hits l = true → w1.closed = true) : Fin b a w o := by
  obtain ⟨l', h1, h2, h3, h4, h5⟩ := h
  subst ha
  refine ⟨l ++ l', by rw [h1, hl, List.append_assoc], by rw [Wait.after_append, h2], fun h => h3 (hc h), fun h => ?_, h5⟩
  rw [Wait.hits_append] at h
  cases hx : a.hits l with
  | true => exact h3 (hh hx)
  | false => rw [hx] at h; exact h4 h

theorem Fin.weaken {α : Type} {b : Bool} {a : Wait} {w : World σ} {o : Out σ α} (h : Fin b a w o) : Fin false a w o := by
  obtain ⟨l, h1, h2, h3, h4, h5⟩ := h
  exact ⟨l, h1, h2, h3, h4, fun h => by cases h⟩

/-- Nothing sent or received. -/
theorem Fin.silent {α : Type} {b : Bool} {w w' : World σ} {o : Out σ α} (ho : o.world = w') (hl : w'.log = w.log) (hc : w.closed = true → w'.closed = true)
    (hw : b = true → ∀ x w', o = .ok x w' → w'.Well) : Fin b .no w o :=
  ⟨[], by rw [ho, hl, List.append_nil], rfl, fun h => by rw [ho]; exact hc h, fun h => (by cases h), hw⟩

theorem Fin.bind {α β : Type} {b : Bool} {x : M σ α} {f : α → M σ β} {w : World σ} (h : Fin true .no w (x w))
    (hf : ∀ a w', x w = .ok a w' → w'.Well → Fin b .no w' (f a w')) : Fin b .no w ((x >>= f) w) := by
  obtain ⟨l, h1, h2, h3, h4, h5⟩ := h
  rw [mbind_run]
  cases hx : x w with
  | ok a w' =>
    rw [hx] at h1 h3 h4
    exact (hf a w' hx (h5 rfl a w' hx)).pre h1 h2 h3 h4
  | panic p w' => rw [hx] at h1 h3 h4; exact ⟨l, h1, h2, h3, h4, fun _ _ _ h => by cases h⟩
  | deep w' => rw [hx] at h1 h3 h4; exact ⟨l, h1, h2, h3, h4, fun _ _ _ h => by cases h⟩

/-- The call closes the connection when the server denies something, and nothing that would prevent it is left. -/
def GivesUp {α : Type} (x : M σ α) : Prop := ∀ w, w.Well → Fin true .no w (x w)
/-- The call closes the connection when the server denies something. -/
def Last {α : Type} (x : M σ α) : Prop := ∀ w, w.Well → Fin false .no w (x w)

theorem GivesUp.last {α : Type} {x : M σ α} (h : GivesUp x) : Last x := fun w hw => (h w hw).weaken
theorem GivesUp.bind {α β : Type} {x : M σ α} {f : α → M σ β} (h : GivesUp x) (hf : ∀ a, GivesUp (f a)) : GivesUp (x >>= f) :=
  fun w hw => (h w hw).bind fun a w' _ hw' => hf a w' hw'
theorem Last.bind {α β : Type} {x : M σ α} {f : α → M σ β} (h : GivesUp x) (hf : ∀ a, Last (f a)) : Last (x >>= f) :=
  fun w hw => (h w hw).bind fun a w' _ hw' => hf a w' hw'

/-- Followed by something that sends and receives nothing. -/
theorem Last.done {α β : Type} {x : M σ α} {f : α → M σ β} (h : Last x) (hf : ∀ a w, (f a w).world.log = w.log ∧ (f a w).world.closed = w.closed) : Last (x >>= f) := by
  intro w hw
  obtain ⟨l, h1, h2, h3, h4, _⟩ := h w hw
  rw [mbind_run]
  cases hx : x w with
  | ok a w' =>
    rw [hx] at h1 h3 h4
    exact ⟨l, (hf a w').1.trans h1, h2, fun h => (hf a w').2.trans (h3 h), fun h => (hf a w').2.trans (h4 h), fun h => by cases h⟩
  | panic p w' => rw [hx] at h1 h3 h4; exact ⟨l, h1, h2, h3, h4, fun _ _ _ h => by cases h⟩
  | deep w' => rw [hx] at h1 h3 h4; exact ⟨l, h1, h2, h3, h4, fun _ _ _ h => by cases h⟩

theorem GivesUp.pure {α : Type} (a : α) : GivesUp (M.pure a : M σ α) := fun _ hw => .silent rfl rfl id fun _ _ _ h => by cases h; exact hw
theorem GivesUp.get {α : Type} (f : World σ → α) : GivesUp (M.get f) := fun _ hw => .silent rfl rfl id fun _ _ _ h => by cases h; exact hw
theorem GivesUp.panic {α : Type} (p : Panic) : GivesUp (M.panic p : M σ α) := fun _ _ => .silent rfl rfl id fun _ _ _ h => by cases h
/-- An assignment. -/
theorem GivesUp.modify {f : World σ → World σ} (hl : ∀ w, (f w).log = w.log) (hc : ∀ w, w.closed = true → (f w).closed = true) (hw : ∀ w, w.Fair → (f w).Well) : GivesUp (M.modify f) :=
  fun w h => .silent rfl (hl w) (hc w) fun _ _ _ e => by cases e; exact h.elim (hw w) fun h => .inr (hc w h)

theorem GivesUp.connErr : GivesUp (M.modify fun w : World σ => { w with connErr := true }) :=
  .modify (fun _ => rfl) (fun _ h => h) fun _ h => .inl ⟨h.tx, h.cur⟩

theorem row_closeStmt {w : World σ} {r r' : Nat} {f : Rows → Rows} (hf : ∀ x, x.closeStmt = true → (f x).closeStmt = true)
    (h : (w.row r').closeStmt = true) : ((w.setRow r f).row r').closeStmt = true := by
  unfold World.row World.setRow at *
  rw [List.getElem?_modify]
  cases hx : w.rows[r']? with
  | none => rw [hx] at h; cases h
  | some x =>
    rw [hx] at h
    by_cases hr : r = r'
    · simp [hr]; exact hf x h
    · simp [hr]; exact h

theorem GivesUp.setRow {r : Nat} {f : Rows → Rows} (hf : ∀ x, x.closeStmt = true → (f x).closeStmt = true) : GivesUp (M.modify fun w : World σ => w.setRow r f) :=
  .modify (fun _ => rfl) (fun _ h => h) fun _ h => .inl ⟨h.tx, fun s e =>
    ⟨(h.cur s e).1, (h.cur s e).2.1, fun r' e' => row_closeStmt hf ((h.cur s e).2.2 r' e')⟩⟩

theorem GivesUp.tx {f : List Bool → List Bool} : GivesUp (M.modify fun w : World σ => { w with transaction := none, txs := f w.txs }) :=
  .modify (fun _ => rfl) (fun _ h => h) fun _ h => .inl ⟨rfl, h.cur⟩

theorem GivesUp.withConn {α : Type} {s : Nat} {k : M σ α} (h : GivesUp k) : GivesUp (Bolt.withConn s k) := by
  intro w hw
  unfold Bolt.withConn
  split
  · exact h w hw
  · exact GivesUp.panic _ w hw

theorem GivesUp.ite {α : Type} {c : Prop} [Decidable c] {x y : M σ α} (hx : GivesUp x) (hy : GivesUp y) : GivesUp (if c then x else y) := by
  split
  · exact hx
  · exact hy

theorem Last.ite {α : Type} {c : Prop} [Decidable c] {x y : M σ α} (hx : Last x) (hy : Last y) : Last (if c then x else y) := by
  split
  · exact hx
  · exact hy

theorem send_alike (v : Val) (w : World σ) : ∃ e w1, send P v w = .ok e w1 ∧ w1.log = w.log ++ [.send v e] ∧ SameState w w1 :=
  ⟨_, _, rfl, rfl, ⟨rfl, rfl, rfl, rfl, rfl⟩⟩

theorem recv_alike (w : World σ) : (recv P w).world.log = w.log ++ [.recv (nextItem P w)] ∧ SameState w (recv P w).world ∧
    ∀ v e w', recv P w = .ok (v, e) w' → (e = none → nextItem P w = .val v) ∧ (e ≠ none → ∀ v, nextItem P w ≠ .val v) := by
  unfold recv
  simp only
  split
  all_goals
    rename_i hi
    rw [hi]
    refine ⟨rfl, ⟨rfl, rfl, rfl, rfl, rfl⟩, fun v e w' h => ?_⟩
    cases h
    try first | exact ⟨fun _ => rfl, fun h => absurd rfl h⟩ | exact ⟨fun h => (by cases h), fun _ _ h => (by cases h)⟩

theorem GivesUp.send {v : Val} (h1 : v ≠ .ackFailure) (h2 : v ≠ .reset) : GivesUp (Bolt.send P v) := by
  intro w hw
  obtain ⟨e, w1, hs, hl, ha⟩ := send_alike (P := P) v w
  rw [hs]
  refine ⟨_, hl, ?_, fun h => ha.closed.trans h, fun h => ?_, fun _ _ _ h => by cases h; exact ha.well hw⟩
  · cases v <;> first | rfl | exact (h1 rfl).elim | exact (h2 rfl).elim
  · cases h

theorem GivesUp.recv : GivesUp (Bolt.recv P) := by
  intro w hw
  obtain ⟨hl, ha, _⟩ := recv_alike (P := P) w
  refine ⟨_, hl, ?_, fun h => ha.closed.trans h, fun h => (by cases h), fun _ _ _ h => by rw [h] at ha; exact ha.well hw⟩
  cases nextItem P w with
  | val v => cases v <;> rfl
  | _ => rfl

/-! ## Failure handling -/

/-- `Close` after a denial. -/
theorem fin_close (hc : Shuts close) {w : World σ} (hw : w.Well) {res : Option GoErr} :
    ((close >>= fun _ => M.pure res) w : Out σ (Option GoErr)).world.log = w.log ∧ ((close >>= fun _ => M.pure res) w : Out σ (Option GoErr)).world.closed = true := by
  obtain ⟨h1, h2⟩ := hc w hw
  rw [mbind_run]
  cases hx : close w <;> rw [hx] at h1 h2 <;> exact ⟨h1, h2⟩

theorem fin_denied (hc : Shuts close) {a : Wait} {w w1 w2 : World σ} (hw : w.Well) {i : Item} (hl : w1.log = w.log ++ [.recv i]) (ha : a.step (.recv i) = .no)
    (h2 : w2.log = w1.log) (h3 : SameState w w2) {res : Option GoErr} : Fin true a w ((close >>= fun _ => M.pure res) w2 : Out σ (Option GoErr)) := by
  obtain ⟨h4, h5⟩ := fin_close hc (h3.well hw) (res := res)
  exact ⟨[.recv i], by rw [h4, h2, hl], ha, fun _ => h5, fun _ => h5, fun _ x w' h => .inr (by rw [h] at h5; exact h5)⟩

theorem fin_read {α : Type} {a : Wait} {w w1 : World σ} {i : Item} (hl : w1.log = w.log ++ [.recv i]) (ha : a.step (.recv i) = .no) (hh : a.hit (.recv i) = false)
    (h3 : SameState w w1) {o : Out σ α} (ho : o.world = w1) (hw : w.Well) : Fin true a w o := by
  refine ⟨[.recv i], by rw [ho, hl], ha, fun h => by rw [ho]; exact h3.closed.trans h, fun h => ?_, fun _ x w' h => ?_⟩
  · have : (a.hit (.recv i) || false) = true := h
    rw [hh] at this
    cases this
  · subst h; cases ho; exact h3.well hw

/-- After the IGNORED messages comes something else. -/
theorem skip_next (w : World σ) : ∃ w1, skipIgnored w = .ok () w1 ∧ SameState w w1 ∧ (nextItem P w1).isIgnored = false ∧
    ∃ ig, OnlyIgnored ig ∧ w1.log = w.log ++ ig := by
  refine ⟨_, rfl, ⟨rfl, rfl, rfl, rfl, rfl⟩, ?_, _, ignored_skip w.inbox, rfl⟩
  unfold nextItem
  simp only
  cases h : w.inbox.dropWhile Item.isIgnored with
  | nil => simp only; repeat' split
           all_goals rfl
  | cons i l =>
    have := List.head_dropWhile_not (p := Item.isIgnored) (l := w.inbox) (by rw [h]; simp)
    simpa [h] using this

theorem step_no {a : Wait} {i : Item} (h : i.isIgnored = false) : a.step (.recv i) = .no := by
  cases i with
  | val v => cases v <;> first | rfl | cases h
  | _ => rfl

theorem shutting_reset (hc : Shuts close) : GivesUp (reset P close) := by
  intro w hw
  obtain ⟨e, w1, hs, hl, ha⟩ := send_alike (P := P) .reset w
  unfold reset
  rw [mbind_ok hs]
  cases e with
  | some e => exact ⟨_, hl, rfl, fun h => ha.closed.trans h, fun h => (by cases h), fun _ _ _ h => by cases h; exact ha.well hw⟩
  | none =>
    refine Fin.pre (a' := .reset) ?_ hl rfl (fun h => ha.closed.trans h) (fun h => by cases h)
    have hw1 := ha.well hw
    obtain ⟨w2, h1, h2, h3, ig, h4, h5⟩ := skip_next (P := P) w1
    simp only
    rw [mbind_ok h1]
    refine Fin.pre (a' := .reset) ?_ h5 (Wait.ignored h4).1 (fun h => h2.closed.trans h) (fun h => by rw [(Wait.ignored h4).2] at h; cases h)
    have hw2 := h2.well hw1
    obtain ⟨h6, h7, h8⟩ := recv_alike (P := P) w2
    have hn := step_no (a := .reset) h3
    rw [mbind_run]
    cases hr : recv P w2 with
    | panic p w3 =>
      rw [hr] at h6 h7
      refine fin_read h6 hn ?_ h7 rfl hw2
      cases hi : nextItem P w2 with
      | val v => unfold recv at hr; simp only [hi] at hr; cases hr
      | _ => rfl
    | deep w3 => unfold recv at hr; simp only at hr; split at hr <;> cases hr
    | ok x w3 =>
      obtain ⟨v, e⟩ := x
      rw [hr] at h6 h7
      obtain ⟨h9, h10⟩ := h8 v e w3 hr
      cases e with
      | some e =>
        refine fin_read h6 hn ?_ h7 rfl hw2
        cases hi : nextItem P w2 with
        | val v => exact absurd hi (h10 (by simp) v)
        | _ => rfl
      | none =>
        have h9 := h9 rfl
        cases v with
        | success md => exact fin_read h6 hn (by rw [h9]; rfl) h7 rfl hw2
        | failure md => exact fin_denied hc hw2 h6 hn rfl h7
        | _ => exact fin_denied hc hw2 h6 hn (w2 := { w3 with connErr := true }) rfl ⟨h7.stmts, h7.rows, h7.statement, h7.transaction, h7.closed⟩

theorem shutting_ack (hc : Shuts close) : GivesUp (ackFailure P close) := by
  intro w hw
  obtain ⟨e, w1, hs, hl, ha⟩ := send_alike (P := P) .ackFailure w
  unfold ackFailure
  rw [mbind_ok hs]
  cases e with
  | some e => exact ⟨_, hl, rfl, fun h => ha.closed.trans h, fun h => (by cases h), fun _ _ _ h => by cases h; exact ha.well hw⟩
  | none =>
    refine Fin.pre (a' := .ack) ?_ hl rfl (fun h => ha.closed.trans h) (fun h => by cases h)
    have hw1 := ha.well hw
    obtain ⟨w2, h1, h2, h3, ig, h4, h5⟩ := skip_next (P := P) w1
    simp only
    rw [mbind_ok h1]
    refine Fin.pre (a' := .ack) ?_ h5 (Wait.ignored h4).1 (fun h => h2.closed.trans h) (fun h => by rw [(Wait.ignored h4).2] at h; cases h)
    have hw2 := h2.well hw1
    obtain ⟨h6, h7, h8⟩ := recv_alike (P := P) w2
    have hn := step_no (a := .ack) h3
    rw [mbind_run]
    cases hr : recv P w2 with
    | panic p w3 =>
      rw [hr] at h6 h7
      refine fin_read h6 hn ?_ h7 rfl hw2
      cases hi : nextItem P w2 with
      | val v => unfold recv at hr; simp only [hi] at hr; cases hr
      | _ => rfl
    | deep w3 => unfold recv at hr; simp only at hr; split at hr <;> cases hr
    | ok x w3 =>
      obtain ⟨v, e⟩ := x
      rw [hr] at h6 h7
      obtain ⟨h9, h10⟩ := h8 v e w3 hr
      cases e with
      | some e =>
        refine fin_read h6 hn ?_ h7 rfl hw2
        cases hi : nextItem P w2 with
        | val v => exact absurd hi (h10 (by simp) v)
        | _ => rfl
      | none =>
        have h9 := h9 rfl
        cases v with
        | success md => exact fin_read h6 hn (by rw [h9]; rfl) h7 rfl hw2
        | failure md =>
          refine (shutting_reset hc w3 (h7.well hw2)).pre h6 hn (fun h => h7.closed.trans h) (fun h => ?_)
          rw [h9] at h
          cases h
        | _ => exact fin_denied hc hw2 h6 hn (w2 := { w3 with connErr := true }) rfl ⟨h7.stmts, h7.rows, h7.statement, h7.transaction, h7.closed⟩

macro "shutting_step" : tactic => `(tactic| first
  | exact GivesUp.pure _ | exact GivesUp.get _ | exact GivesUp.panic _ | exact GivesUp.recv | exact GivesUp.send (fun h => by cases h) (fun h => by cases h)
  | exact GivesUp.setRow (fun _ h => h) | exact GivesUp.connErr | exact GivesUp.tx
  | assumption
  | apply GivesUp.withConn
  | refine GivesUp.bind ?_ (fun _ => ?_)
  | apply GivesUp.ite
  | split)

theorem shutting_consume (hc : Shuts close) : GivesUp (consume P close) := by
  have h := shutting_ack (P := P) hc
  unfold consume; repeat' shutting_step

theorem shutting_consumeAll (hc : Shuts close) : GivesUp (consumeAll P close) := by
  intro w hw
  have h := shutting_consume (P := P) hc
  unfold consumeAll
  simp only
  refine Fin.pre (l := (w.inbox.takeWhile Item.isPlain).map .recv) (a' := .no)
    ((show GivesUp (consume P close >>= fun
    | (r, some e) => M.pure ([], r, some e)
    | (r, none) => M.pure ((w.inbox.takeWhile Item.isPlain).map Item.value, r, none)) by repeat' shutting_step) { w with inbox := w.inbox.dropWhile Item.isPlain, log := w.log ++ (w.inbox.takeWhile Item.isPlain).map .recv }
      (SameState.well (w := w) ⟨rfl, rfl, rfl, rfl, rfl⟩ hw)) rfl ?_ (fun h => h) ?_
  · generalize w.inbox.takeWhile Item.isPlain = l
    induction l with
    | nil => rfl
    | cons i l ih =>
      show (Wait.no.step (.recv i)).after (l.map .recv) = .no
      have : Wait.no.step (.recv i) = .no := by
        cases i with
        | val v => cases v <;> rfl
        | _ => rfl
      rw [this, ih]
  · intro h
    exfalso
    revert h
    generalize w.inbox.takeWhile Item.isPlain = l
    induction l with
    | nil => intro h; cases h
    | cons i l ih =>
      intro h
      have : Wait.no.step (.recv i) = .no := by
        cases i with
        | val v => cases v <;> rfl
        | _ => rfl
      have h : (false || (Wait.no.step (.recv i)).hits (l.map .recv)) = true := h
      rw [this] at h
      exact ih h

theorem shutting_multiple (hc : Shuts close) : ∀ n, GivesUp (consumeAllMultiple P close n)
  | 0 => GivesUp.pure _
  | n + 1 => by
    have h := shutting_consumeAll (P := P) hc
    have ih := shutting_multiple hc n
    unfold consumeAllMultiple; repeat' shutting_step

theorem shutting_sendRun {q : Str} {kvs : KVs} : GivesUp (sendRun P q kvs) := by unfold sendRun; repeat' shutting_step
theorem shutting_sendPullAll : GivesUp (sendPullAll P) := by unfold sendPullAll; repeat' shutting_step
theorem shutting_sendDiscardAll : GivesUp (sendDiscardAll P) := by unfold sendDiscardAll; repeat' shutting_step
theorem shutting_sendRunConsume (hc : Shuts close) {q : Str} {kvs : KVs} : GivesUp (sendRunConsume P close q kvs) := by
  have h1 := shutting_sendRun (P := P) (q := q) (kvs := kvs)
  have h2 := shutting_consume (P := P) hc
  unfold sendRunConsume; repeat' shutting_step
theorem shutting_discard (hc : Shuts close) : GivesUp (sendDiscardAllConsume P close) := by
  have h1 := shutting_sendDiscardAll (P := P)
  have h2 := shutting_consume (P := P) hc
  unfold sendDiscardAllConsume; repeat' shutting_step
theorem shutting_sendRunPullAll {q : Str} {kvs : KVs} : GivesUp (sendRunPullAll P q kvs) := by
  have h1 := shutting_sendRun (P := P) (q := q) (kvs := kvs)
  have h2 := shutting_sendPullAll (P := P)
  unfold sendRunPullAll; repeat' shutting_step
theorem shutting_run (hc : Shuts close) {q : Str} {kvs : KVs} : GivesUp (sendRunPullAllConsumeRun P close q kvs) := by
  have h1 := shutting_sendRunPullAll (P := P) (q := q) (kvs := kvs)
  have h2 := shutting_consume (P := P) hc
  unfold sendRunPullAllConsumeRun; repeat' shutting_step
theorem shutting_single (hc : Shuts close) {q : Str} {kvs : KVs} : GivesUp (sendRunPullAllConsumeSingle P close q kvs) := by
  have h1 := shutting_sendRunPullAll (P := P) (q := q) (kvs := kvs)
  have h2 := shutting_consume (P := P) hc
  unfold sendRunPullAllConsumeSingle; repeat' shutting_step
theorem shutting_runAll (hc : Shuts close) {q : Str} {kvs : KVs} : GivesUp (sendRunPullAllConsumeAll P close q kvs) := by
  have h1 := shutting_sendRunPullAll (P := P) (q := q) (kvs := kvs)
  have h2 := shutting_consume (P := P) hc
  have h3 := shutting_consumeAll (P := P) hc
  unfold sendRunPullAllConsumeAll; repeat' shutting_step

theorem shutting_drain (hc : Shuts close) (r : Nat) : GivesUp (rowsDrain P close r) := by
  intro w hw
  have h1 := shutting_discard (P := P) hc
  have h2 := shutting_multiple (P := P) hc
  unfold rowsDrain
  simp only
  split
  · exact (show GivesUp (_ : M σ (Option GoErr)) by repeat' shutting_step) w hw
  · split
    · refine (show GivesUp (_ : M σ (Option GoErr)) from ?_) w hw
      have h3 := h2 (numConsume (w.stmt (w.row r).stmt).queries.length (w.row r).idx).toNat
      repeat' shutting_step
    · exact GivesUp.pure none w hw

theorem stmt_set {w : World σ} {s s' : Nat} {f : Stmt → Stmt} (h : s' < w.stmts.length) :
    (w.setStmt s f).stmt s' = if s = s' then f (w.stmt s') else w.stmt s' := by
  unfold World.stmt World.setStmt
  rw [List.getElem?_modify, List.getElem?_eq_getElem h]
  by_cases hs : s = s' <;> simp [hs]

theorem lt_of_conn {w : World σ} {s : Nat} (h : (w.stmt s).conn = true) : s < w.stmts.length := by
  by_cases hs : s < w.stmts.length
  · exact hs
  · unfold World.stmt at h
    rw [List.getElem?_eq_none (Nat.le_of_not_lt hs)] at h
    cases h

theorem shutting_mark (r : Nat) : GivesUp (rowsMark r : M σ Unit) := by
  refine .modify (fun _ => rfl) (fun _ h => h) fun w h => .inl ⟨h.tx, fun s e => ?_⟩
  obtain ⟨h1, h2, h3⟩ := h.cur s e
  have hlt : s < (w.setRow r fun x => { x with closed := true }).stmts.length := lt_of_conn h2
  rw [stmt_set hlt]
  by_cases hs : (w.row r).stmt = s
  · rw [if_pos hs]
    exact ⟨h1, h2, fun r' e' => by cases e'⟩
  · rw [if_neg hs]
    exact ⟨h1, h2, fun r' e' => row_closeStmt (fun _ h => h) (h3 r' e')⟩

theorem shutting_rowsClose0 (hc : Shuts close) (r : Nat) : GivesUp (rowsClose0 P close r) := by
  have h1 := shutting_drain (P := P) hc r
  have h2 := shutting_mark (σ := σ) r
  unfold rowsClose0; repeat' shutting_step

theorem shutting_stmtMark (s : Nat) : GivesUp (stmtMark s : M σ Unit) := by
  intro w hw
  unfold stmtMark
  split
  · refine .silent rfl rfl id fun _ _ _ h => ?_
    cases h
    rcases hw with hw | hw
    · exact .inl ⟨hw.tx, fun s e => by cases e⟩
    · exact .inr hw
  · exact .silent rfl rfl id fun _ _ _ h => by cases h

theorem shutting_stmtClose (hc : Shuts close) (s : Nat) : GivesUp (stmtClose P close s) := by
  have h1 := shutting_rowsClose0 (P := P) hc
  have h2 := shutting_stmtMark (σ := σ) s
  unfold stmtClose
  repeat' first | apply h1 | shutting_step

theorem shutting_rowsClose (hc : Shuts close) (r : Nat) : GivesUp (rowsClose P close r) := by
  have h1 := shutting_drain (P := P) hc r
  have h2 := shutting_mark (σ := σ) r
  have h3 := shutting_stmtClose (P := P) hc
  unfold rowsClose
  repeat' first | apply h3 | shutting_step

theorem shutting_txFinish (hc : Shuts close) (q : Str) (t : Nat) : GivesUp (txFinish P close q t) := by
  have h1 := shutting_stmtClose (P := P) hc
  have h2 := shutting_single (P := P) hc (q := q) (kvs := [])
  unfold txFinish
  repeat' first | apply h1 | exact GivesUp.tx (f := fun l => l.set t true) | shutting_step

theorem shutting_shut : GivesUp (M.modify fun w : World σ => { w with
          closed := true
          connErr := w.connErr || w.sockCloseErr
          sink := { w.sink with budget := some 0 }
          inbox := [] } : M σ Unit) := .modify (fun _ => rfl) (fun _ _ => rfl) fun _ _ => .inr rfl

theorem shutting_connClose (hc : Shuts close) : GivesUp (connClose P close) := by
  have h1 := shutting_stmtClose (P := P) hc
  have h2 := shutting_txFinish (P := P) hc qRollback
  unfold connClose
  repeat' first | apply h1 | apply h2 | exact shutting_shut | shutting_step

/-! ## Closing -/

theorem stmtClose_fair {w : World σ} (h : w.Fair) {s : Nat} (e : w.statement = some s) : ∃ w1, stmtClose P close s w = .ok none w1 ∧ w1.log = w.log ∧
    w1.transaction = none ∧ w1.closed = w.closed ∧ w1.sockCloseErr = w.sockCloseErr := by
  obtain ⟨h1, h2, h3⟩ := h.cur s e
  have hm : stmtMark s w = .ok () ({ w with statement := none }.setStmt s fun x => { x with closed := true, conn := false }) := by
    unfold stmtMark; rw [if_pos h2]
  refine ⟨{ w with statement := none }.setStmt s fun x => { x with closed := true, conn := false }, ?_, rfl, h.tx, rfl, rfl⟩
  cases hx : (w.stmt s).rows with
  | none => simp [stmtClose, mbind_run, M.get, M.pure, h1, hx, hm]
  | some r => simp [stmtClose, mbind_run, M.get, M.pure, h1, hx, h3 r hx, hm]

theorem connClose_well {w : World σ} (h : w.Well) : (connClose P close w).world.log = w.log ∧ (connClose P close w).world.closed = true := by
  cases hcl : w.closed with
  | true => simp [connClose, mbind_run, M.get, M.pure, hcl, Out.world]
  | false =>
    have h : w.Fair := h.resolve_right (by rw [hcl]; simp)
    cases hx : w.statement with
    | none => 
      simp only [connClose, mbind_run, M.get, M.pure, M.modify, hcl, hx, h.tx, Bool.false_eq_true, if_false]
      split <;> exact ⟨rfl, rfl⟩
    | some s =>
      obtain ⟨w1, h1, h2, h3, _, _⟩ := stmtClose_fair (P := P) (close := close) h hx
      simp only [connClose, mbind_run, M.get, M.pure, M.modify, hcl, hx, h1, h3, Bool.false_eq_true, if_false]
      split <;> exact ⟨h2, rfl⟩

theorem shuts_closeN (n : Nat) : Shuts (closeN P (n + 1)) := fun _ hw => connClose_well hw

/-! ## The calls -/

theorem shutting_newStmt {q : Str} {qs : List Str} : GivesUp (newStmt q qs : M σ Nat) := by
  intro w hw
  refine .silent rfl rfl id fun _ _ _ h => ?_
  cases h
  rcases hw with hw | hw
  · refine .inl ⟨hw.tx, fun s e => ?_⟩
    have hlt := lt_of_conn (hw.cur s e).2.1
    have : ({ w with stmts := w.stmts ++ [{ query := q, queries := qs, conn := true, closed := false, rows := none }] } : World σ).stmt s = w.stmt s := by
      unfold World.stmt; rw [List.getElem?_append_left hlt]
    rw [this]
    exact hw.cur s e
  · exact .inr hw

/-- A new current statement. -/
theorem fin_current {β : Type} {b : Bool} {q : Str} {qs : List Str} {k : Nat → M σ β} (hk : ∀ s w, w.Well → Fin b .no w (k s w)) {w : World σ} (hw : w.Well) :
    Fin b .no w ((newStmt q qs >>= fun s => (M.modify fun w => { w with statement := some s }) >>= fun _ => k s) w) := by
  refine Fin.pre (l := []) (a' := .no) (hk w.stmts.length
    { w with stmts := w.stmts ++ [{ query := q, queries := qs, conn := true, closed := false, rows := none }], statement := some w.stmts.length } ?_) (by simp) rfl id (fun h => by cases h)
  rcases hw with hw | hw
  · refine .inl ⟨hw.tx, fun s e => ?_⟩
    cases e
    have : ({ w with stmts := w.stmts ++ [{ query := q, queries := qs, conn := true, closed := false, rows := none }], statement := some w.stmts.length } : World σ).stmt w.stmts.length
        = { query := q, queries := qs, conn := true, closed := false, rows := none } := by
      unfold World.stmt; simp
    rw [this]
    exact ⟨rfl, rfl, fun r h => by cases h⟩
  · exact .inr hw

theorem shutting_current {β : Type} {q : Str} {qs : List Str} {k : Nat → M σ β} (hk : ∀ s, GivesUp (k s)) :
    GivesUp (newStmt q qs >>= fun s => (M.modify fun w => { w with statement := some s }) >>= fun _ => k s) := fun _ hw => fin_current hk hw
theorem last_current {β : Type} {q : Str} {qs : List Str} {k : Nat → M σ β} (hk : ∀ s, Last (k s)) :
    Last (newStmt q qs >>= fun s => (M.modify fun w => { w with statement := some s }) >>= fun _ => k s) := fun _ hw => fin_current hk hw

/-- New rows of a statement. -/
theorem last_open {β : Type} {row : Rows} {s : Nat} {res : Nat → β} :
    Last (σ := σ) (newRowsObj row >>= fun r => (M.modify fun w => w.setStmt s fun x => { x with rows := some r }) >>= fun _ => M.pure (res r)) :=
  fun _ _ => .silent rfl rfl id fun h => by cases h

theorem shutting_open {β : Type} {row : Rows} (hr : row.closeStmt = true) {s : Nat} {res : Nat → β} :
    GivesUp (σ := σ) (newRowsObj row >>= fun r => (M.modify fun w => w.setStmt s fun x => { x with rows := some r }) >>= fun _ => M.pure (res r)) := by
  intro w hw
  refine .silent rfl rfl id fun _ _ _ h => ?_
  cases h
  rcases hw with hw | hw
  · refine .inl ⟨hw.tx, fun s' e => ?_⟩
    obtain ⟨h1, h2, h3⟩ := hw.cur s' e
    rw [stmt_set (w := { w with rows := w.rows ++ [row] }) (lt_of_conn h2)]
    by_cases hs : s = s'
    · rw [if_pos hs]
      refine ⟨h1, h2, fun r' e' => ?_⟩
      cases e'
      show (((w.rows ++ [row])[w.rows.length]?).getD default).closeStmt = true
      simpa using hr
    · rw [if_neg hs]
      refine ⟨h1, h2, fun r' e' => ?_⟩
      have h4 := h3 r' e'
      have hlt : r' < w.rows.length := by
        by_cases hlt : r' < w.rows.length
        · exact hlt
        · unfold World.row at h4
          rw [List.getElem?_eq_none (Nat.le_of_not_lt hlt)] at h4
          cases h4
      show (((w.rows ++ [row])[r']?).getD default).closeStmt = true
      rw [List.getElem?_append_left hlt]
      exact h4
  · exact .inr hw

theorem shutting_guardConn : GivesUp (guardConn : M σ _) := by
  intro w hw; unfold guardConn; repeat' split
  all_goals exact GivesUp.pure _ w hw
theorem shutting_guardStmt {s : Nat} : GivesUp (guardStmt s : M σ _) := by
  intro w hw; unfold guardStmt; repeat' split
  all_goals exact GivesUp.pure _ w hw

macro "last_step" : tactic => `(tactic| first
  | exact GivesUp.last (GivesUp.pure _) | exact GivesUp.last (GivesUp.get _) | exact GivesUp.last (GivesUp.panic _)
  | assumption
  | exact last_open
  | refine Last.bind ?_ (fun _ => ?_)
  | apply Last.ite
  | shutting_step)

theorem shutting_prepare {q : Str} {qs : List Str} : GivesUp (prepare q qs : M σ _) := by
  unfold prepare
  refine shutting_guardConn.bind fun a => ?_
  cases a with
  | some e => exact GivesUp.pure _
  | none => exact shutting_current fun _ => GivesUp.pure _

theorem shutting_stmtExecNeo (hc : Shuts close) {s : Nat} {kvs : KVs} : GivesUp (stmtExecNeo P close s kvs) := by
  have h := fun q => shutting_runAll (P := P) hc (q := q) (kvs := kvs)
  unfold stmtExecNeo
  repeat' first | apply h | exact shutting_guardStmt | shutting_step

theorem shutting_sendAll {msg : String} : ∀ l, GivesUp (sendAll P msg l)
  | [] => GivesUp.pure _
  | (q, ps) :: rest => by
    have h := shutting_sendRunPullAll (P := P) (q := q) (kvs := ps)
    have ih := shutting_sendAll (msg := msg) rest
    unfold sendAll; repeat' shutting_step

theorem shutting_collect (hc : Shuts close) : ∀ n, GivesUp (collect P close n)
  | 0 => GivesUp.pure _
  | n + 1 => by
    have h1 := shutting_consume (P := P) hc
    have h2 := shutting_consumeAll (P := P) hc
    have ih := shutting_collect hc n
    unfold collect; repeat' shutting_step

theorem shutting_stmtExecPipeline (hc : Shuts close) {s : Nat} {l : List KVs} : GivesUp (stmtExecPipeline P close s l) := by
  unfold stmtExecPipeline
  repeat' first | apply shutting_sendAll | exact shutting_collect hc _ | exact shutting_guardStmt | shutting_step

theorem last_stmtQueryNeo (hc : Shuts close) {s : Nat} {kvs : KVs} : Last (stmtQueryNeo P close s kvs) := by
  unfold stmtQueryNeo
  repeat' first | exact shutting_sendRunConsume hc | exact shutting_guardStmt | last_step

theorem last_stmtQueryPipeline (hc : Shuts close) {s : Nat} {l : List KVs} : Last (stmtQueryPipeline P close s l) := by
  unfold stmtQueryPipeline
  repeat' first | apply shutting_sendAll | exact shutting_consume hc | exact shutting_guardStmt | last_step

theorem shutting_stmtCloseCurrent (hc : Shuts close) : GivesUp (queryNeo.stmtCloseCurrent P close) := by
  unfold queryNeo.stmtCloseCurrent
  repeat' first | exact shutting_stmtClose hc _ | shutting_step

theorem shutting_queryNeo (hc : Shuts close) {q : Str} {kvs : KVs} : GivesUp (queryNeo P close q kvs) := by
  unfold queryNeo
  refine shutting_guardConn.bind fun a => ?_
  cases a with
  | some e => exact GivesUp.pure _
  | none =>
    refine shutting_current fun s => ?_
    repeat' first | exact shutting_run hc | exact shutting_stmtCloseCurrent hc | exact shutting_open rfl | shutting_step

theorem shutting_nextNeo (hc : Shuts close) {r : Nat} : GivesUp (nextNeo P close r) := by
  unfold nextNeo
  repeat' first | exact shutting_sendPullAll | exact shutting_consume hc | shutting_step

theorem shutting_allLoop (hc : Shuts close) {r : Nat} : ∀ f out, GivesUp (allLoop P close r f out)
  | 0, _ => fun w _ => .silent rfl rfl id fun _ _ _ h => by cases h
  | f + 1, out => by
    have ih := shutting_allLoop hc (r := r) f
    unfold allLoop
    repeat' first | exact shutting_nextNeo hc | apply ih | shutting_step

theorem shutting_rowsAll (hc : Shuts close) {r : Nat} : GivesUp (rowsAll P close r) := fun w hw => shutting_allLoop hc _ _ w hw

theorem shutting_queryNeoAll (hc : Shuts close) {q : Str} {kvs : KVs} : GivesUp (queryNeoAll P close q kvs) := by
  unfold queryNeoAll
  repeat' first | exact shutting_queryNeo hc | exact shutting_rowsAll hc | exact shutting_rowsClose hc _ | shutting_step

theorem last_queryPipeline (hc : Shuts close) {qs : List Str} {l : List KVs} : Last (queryPipeline P close qs l) := by
  unfold queryPipeline
  refine Last.bind shutting_guardConn fun a => ?_
  cases a with
  | some e => exact (GivesUp.pure _).last
  | none =>
    refine last_current fun s => ?_
    refine (last_stmtQueryPipeline hc).done fun a w => ?_
    cases a <;> exact ⟨rfl, rfl⟩

theorem last_nextPipeline (hc : Shuts close) {r : Nat} : Last (nextPipeline P close r) := by
  unfold nextPipeline pipeHeader
  repeat' first | exact shutting_consume hc | last_step

theorem shutting_execNeo (hc : Shuts close) {q : Str} {kvs : KVs} : GivesUp (execNeo P close q kvs) := by
  unfold execNeo
  repeat' first | exact shutting_stmtExecNeo hc | exact shutting_stmtClose hc _ | exact shutting_newStmt | exact shutting_guardConn | shutting_step

theorem shutting_execPipeline (hc : Shuts close) {qs : List Str} {l : List KVs} : GivesUp (execPipeline P close qs l) := by
  unfold execPipeline
  repeat' first | exact shutting_stmtExecPipeline hc | exact shutting_stmtClose hc _ | exact shutting_newStmt | exact shutting_guardConn | shutting_step

theorem shutting_newTx : GivesUp (fun w : World σ => .ok (.ok w.txs.length : Except GoErr Nat) { w with txs := w.txs ++ [false] }) :=
  fun w hw => .silent rfl rfl id fun _ _ _ h => by cases h; exact SameState.well (w := w) ⟨rfl, rfl, rfl, rfl, rfl⟩ hw

theorem shutting_begin (hc : Shuts close) : GivesUp (begin_ P close) := by
  unfold begin_
  repeat' first
    | exact shutting_single hc
    | exact shutting_newTx
    | shutting_step

theorem last_op (hc : Shuts close) (op : Op) : Last (op.run P close) := by
  cases op <;> unfold Op.run <;> simp only
  case exec => exact ((shutting_execNeo hc).bind fun _ => GivesUp.pure _).last
  case query => exact ((shutting_queryNeo hc).bind fun _ => GivesUp.pure _).last
  case queryAll => refine GivesUp.last ?_; repeat' first | exact shutting_queryNeoAll hc | shutting_step
  case execPipe => exact ((shutting_execPipeline hc).bind fun _ => GivesUp.pure _).last
  case queryPipe => exact (last_queryPipeline hc).done fun _ _ => ⟨rfl, rfl⟩
  case prepare => exact (shutting_prepare.bind fun _ => GivesUp.pure _).last
  case preparePipe => exact (shutting_prepare.bind fun _ => GivesUp.pure _).last
  case begin => exact ((shutting_begin hc).bind fun _ => GivesUp.pure _).last
  case stExec => exact ((shutting_stmtExecNeo hc).bind fun _ => GivesUp.pure _).last
  case stQuery => exact (last_stmtQueryNeo hc).done fun _ _ => ⟨rfl, rfl⟩
  case stExecPipe => exact ((shutting_stmtExecPipeline hc).bind fun _ => GivesUp.pure _).last
  case stQueryPipe => exact (last_stmtQueryPipeline hc).done fun _ _ => ⟨rfl, rfl⟩
  case next => exact ((shutting_nextNeo hc).bind fun _ => GivesUp.pure _).last
  case all => exact ((shutting_rowsAll hc).bind fun _ => GivesUp.pure _).last
  case nextPipe => exact (last_nextPipeline hc).done fun _ _ => ⟨rfl, rfl⟩
  case closeRows => exact (shutting_rowsClose hc _).last
  case closeStmt => exact (shutting_stmtClose hc _).last
  case commit => exact (shutting_txFinish hc _ _).last
  case rollback => exact (shutting_txFinish hc _ _).last
  case close => exact (shutting_connClose hc).last
  case setChunkSize n => exact fun _ _ => .silent rfl rfl id fun h => by cases h

end Bolt
