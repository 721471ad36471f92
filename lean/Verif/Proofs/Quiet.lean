import Verif.Proofs.Refuse

/-! A call that returns no error has met no network error. -/

namespace Bolt

variable {σ : Type}

/-- Nothing went wrong with the socket. -/
def Event.quiet : Event → Bool
  | .send _ none => true
  | .send _ (some _) => false
  | .recv .ioerr => false
  | .recv .eof => false
  | .recv _ => true

/-- The record grew, by quiet events if `q`. -/
def Ext (w w' : World σ) (q : Prop) : Prop := ∃ l, w'.log = w.log ++ l ∧ (q → ∀ e ∈ l, Event.quiet e = true)

theorem Ext.refl (w : World σ) (q : Prop) : Ext w w q := ⟨[], by simp, fun _ _ h => by cases h⟩

theorem Ext.tr {a b c : World σ} {p q : Prop} (h : Ext a b p) (h' : Ext b c q) : Ext a c (p ∧ q) := by
  obtain ⟨l, h1, h2⟩ := h
  obtain ⟨l', h3, h4⟩ := h'
  refine ⟨l ++ l', by rw [h3, h1, List.append_assoc], fun hq e he => ?_⟩
  rcases List.mem_append.mp he with he | he
  · exact h2 hq.1 e he
  · exact h4 hq.2 e he

theorem Ext.mono {a b : World σ} {p q : Prop} (h : Ext a b p) (hq : q → p) : Ext a b q := by
  obtain ⟨l, h1, h2⟩ := h
  exact ⟨l, h1, fun x => h2 (hq x)⟩

/-- The call's record grows, quietly if its result is `g`. -/
def Hon {α : Type} (x : M σ α) (w : World σ) (g : α → Prop) : Prop := ∀ a w', x w = .ok a w' → Ext w w' (g a)

/-- The call does not give `g`. -/
def Bad {α : Type} (x : M σ α) (w : World σ) (g : α → Prop) : Prop := ∀ a w', x w = .ok a w' → Ext w w' False ∧ ¬ g a

/-- Only growth. -/
abbrev Grow {α : Type} (x : M σ α) (w : World σ) : Prop := Hon x w fun _ => False

variable {α β : Type} {x : M σ α} {f : α → M σ β} {w : World σ} {g : α → Prop} {k : β → Prop}

theorem Hon.grow (h : Hon x w g) : Grow x w := fun a w' e => (h a w' e).mono False.elim

theorem Bad.hon (h : Bad x w g) : Hon x w g := fun a w' e => (h a w' e).1.mono (h a w' e).2

theorem Hon.pure (a : α) : Hon (M.pure a) w g := fun _ _ e => by cases e; exact Ext.refl _ _
theorem Hon.get {γ : Type} (f : World σ → γ) {g : γ → Prop} : Hon (M.get f) w g := fun _ _ e => by cases e; exact Ext.refl _ _
theorem Hon.panic (p : Panic) : Hon (M.panic p : M σ α) w g := fun _ _ e => nomatch e
theorem Bad.panic (p : Panic) : Bad (M.panic p : M σ α) w g := fun _ _ e => nomatch e
theorem Bad.pure {a : α} (h : ¬ g a) : Bad (M.pure a) w g := fun _ _ e => by cases e; exact ⟨Ext.refl _ _, h⟩
theorem Hon.mod {f : World σ → World σ} {g : Unit → Prop} (h : (f w).log = w.log) : Hon (M.modify f) w g := fun _ _ e => by
  cases e; exact ⟨[], by simp [h], fun _ _ h => by cases h⟩

theorem run_inv {a : β} {w' : World σ} (h : (x >>= f) w = .ok a w') : ∃ b w1, x w = .ok b w1 ∧ f b w1 = .ok a w' := by
  rw [mbind_run] at h
  cases hx : x w with
  | ok b w1 => rw [hx] at h; exact ⟨b, w1, rfl, h⟩
  | panic p w1 => rw [hx] at h; cases h
  | deep w1 => rw [hx] at h; cases h

theorem Hon.bind (h : Hon x w g) (hg : ∀ a w1, x w = .ok a w1 → g a → Hon (f a) w1 k) (hb : ∀ a w1, x w = .ok a w1 → ¬ g a → Bad (f a) w1 k) :
    Hon (x >>= f) w k := fun a w' e => by
  obtain ⟨b, w1, h1, h2⟩ := run_inv e
  by_cases hgb : g b
  · exact ((h b w1 h1).tr (hg b w1 h1 hgb a w' h2)).mono fun hk => ⟨hgb, hk⟩
  · have h3 := hb b w1 h1 hgb a w' h2
    exact ((h b w1 h1).tr h3.1).mono fun hk => absurd hk h3.2

theorem Bad.bind (h : Grow x w) (hb : ∀ a w1, x w = .ok a w1 → Bad (f a) w1 k) : Bad (x >>= f) w k := fun a w' e => by
  obtain ⟨b, w1, h1, h2⟩ := run_inv e
  have h3 := hb b w1 h1 a w' h2
  exact ⟨((h b w1 h1).tr h3.1).mono False.elim, h3.2⟩

/-- First something that is always quiet. -/
theorem Hon.seq (h : Hon x w fun _ => True) (hf : ∀ a w1, x w = .ok a w1 → Hon (f a) w1 k) : Hon (x >>= f) w k :=
  h.bind (fun a w1 e _ => hf a w1 e) fun _ _ _ h => absurd trivial h

theorem Grow.bind (h : Grow x w) (hf : ∀ a w1, x w = .ok a w1 → Grow (f a) w1) : Grow (x >>= f) w := fun a w' e => by
  obtain ⟨b, w1, h1, h2⟩ := run_inv e
  exact ((h b w1 h1).tr (hf b w1 h1 a w' h2)).mono False.elim

/-! ### The socket -/

/-- No error. -/
abbrev okE : Option GoErr → Prop := fun a => a = none
/-- No error with the value. -/
abbrev okV : Val × Option GoErr → Prop := fun a => a.2 = none
/-- No error with the two values. -/
abbrev okVV {γ δ : Type} : γ × δ × Option GoErr → Prop := fun a => a.2.2 = none

variable (P : Peer σ)

theorem hon_send (v : Val) (w : World σ) : Hon (send P v) w okE := fun a w' e => by
  cases e
  refine ⟨[.send v _], rfl, fun h e he => ?_⟩
  rw [List.mem_singleton] at he
  rw [he]
  change (encodeTo w.chunkSize w.sink v).2 = none at h
  rw [h]; rfl

theorem hon_recv (w : World σ) : Hon (recv P) w okV := fun a w' e => by
  unfold recv at e
  simp only at e
  cases hn : nextItem P w <;> rw [hn] at e <;> cases e <;> refine ⟨[.recv _], rfl, fun h e he => ?_⟩ <;>
    first | (cases h; done) | (rw [List.mem_singleton] at he; rw [he]; rfl)

theorem hon_skip (w : World σ) : Hon (skipIgnored (σ := σ)) w fun _ => True := fun a w' e => by
  cases e
  refine ⟨_, rfl, fun _ e he => ?_⟩
  obtain ⟨i, hi, rfl⟩ := List.mem_map.mp he
  have := List.all_takeWhile (p := Item.isIgnored) (l := w.inbox)
  rw [List.all_eq_true] at this
  have h2 := this i hi
  cases i <;> first | rfl | cases h2

variable {P} {close : M σ (Option GoErr)} (hc : ∀ w, Grow close w)
include hc

theorem hon_reset (w : World σ) : Hon (reset P close) w okE := by
  refine (hon_send P _ w).bind (fun a w1 _ h => ?_) (fun a w1 _ h => ?_)
  · cases h
    refine (hon_skip w1).seq fun _ w2 _ => (hon_recv P w2).bind (fun x w3 _ h => ?_) (fun x w3 _ h => ?_)
    · obtain ⟨v, e⟩ := x
      cases h
      cases v with
      | success md => exact Hon.pure _
      | failure md => exact (Bad.bind (hc w3) fun _ _ _ => Bad.pure (by simp)).hon
      | _ => exact (Bad.bind (Hon.mod rfl) fun _ w4 _ => Bad.bind (hc w4) fun _ _ _ => Bad.pure (by simp)).hon
    · obtain ⟨v, e⟩ := x
      cases e with
      | none => exact absurd rfl h
      | some e => exact Bad.pure (by simp)
  · cases a with
    | none => exact absurd rfl h
    | some e => exact Bad.pure (by simp)

theorem hon_ack (w : World σ) : Hon (ackFailure P close) w okE := by
  refine (hon_send P _ w).bind (fun a w1 _ h => ?_) (fun a w1 _ h => ?_)
  · cases h
    refine (hon_skip w1).seq fun _ w2 _ => (hon_recv P w2).bind (fun x w3 _ h => ?_) (fun x w3 _ h => ?_)
    · obtain ⟨v, e⟩ := x
      cases h
      cases v with
      | success md => exact Hon.pure _
      | failure md => exact hon_reset hc w3
      | _ => exact (Bad.bind (Hon.mod rfl) fun _ w4 _ => Bad.bind (hc w4) fun _ _ _ => Bad.pure (by simp)).hon
    · obtain ⟨v, e⟩ := x
      cases e with
      | none => exact absurd rfl h
      | some e => exact Bad.pure (by simp)
  · cases a with
    | none => exact absurd rfl h
    | some e => exact Bad.pure (by simp)

theorem hon_consume (w : World σ) : Hon (consume P close) w okV := by
  refine (hon_recv P w).bind (fun x w3 _ h => ?_) (fun x w3 _ h => ?_)
  · obtain ⟨v, e⟩ := x
    cases h
    cases v with
    | failure md =>
      refine (Bad.bind (hon_ack hc w3).grow fun a _ _ => ?_).hon
      cases a <;> exact Bad.pure (by simp)
    | _ => exact Hon.pure _
  · obtain ⟨v, e⟩ := x
    cases e with
    | none => exact absurd rfl h
    | some e => exact Bad.pure (by simp)

theorem hon_consumeAll (w : World σ) : Hon (consumeAll P close) w okVV := by
  intro a w' e
  unfold consumeAll at e
  simp only at e
  have h1 : Ext w { w with inbox := w.inbox.dropWhile Item.isPlain, log := w.log ++ (w.inbox.takeWhile Item.isPlain).map .recv } True := by
    refine ⟨_, rfl, fun _ e he => ?_⟩
    obtain ⟨i, hi, rfl⟩ := List.mem_map.mp he
    have := List.all_takeWhile (p := Item.isPlain) (l := w.inbox)
    rw [List.all_eq_true] at this
    have h2 := this i hi
    cases i <;> first | rfl | cases h2
  obtain ⟨b, w1, h2, h3⟩ := run_inv e
  refine (h1.tr ((hon_consume hc _ b w1 h2).tr (?_ : Ext w1 w' True))).mono fun hk => ⟨trivial, ?_, trivial⟩
  · obtain ⟨v, e⟩ := b
    cases e <;> cases h3 <;> exact Ext.refl _ _
  · obtain ⟨v, e⟩ := b
    cases e with
    | none => rfl
    | some e => cases h3; exact hk

theorem hon_consumeMultiple (n : Nat) : ∀ w : World σ, Hon (consumeAllMultiple P close n) w okE := by
  induction n with
  | zero => intro w; exact Hon.pure _
  | succ n ih =>
    intro w
    refine (hon_consumeAll hc w).bind (fun x w3 _ h => ?_) (fun x w3 _ h => ?_)
    · obtain ⟨v, v', e⟩ := x
      cases h
      exact ih w3
    · obtain ⟨v, v', e⟩ := x
      cases e with
      | none => exact absurd rfl h
      | some e => exact Bad.pure (by simp)

omit hc in
theorem hon_sendRun (q : Str) (kvs : KVs) (w : World σ) : Hon (sendRun P q kvs) w okE :=
  (hon_send P _ w).bind (fun a _ _ h => by cases h; exact Hon.pure _) (fun a _ _ h => by
    cases a with
    | none => exact absurd rfl h
    | some e => exact Bad.pure (by simp))
omit hc in
theorem hon_sendPullAll (w : World σ) : Hon (sendPullAll P) w okE :=
  (hon_send P _ w).bind (fun a _ _ h => by cases h; exact Hon.pure _) (fun a _ _ h => by
    cases a with
    | none => exact absurd rfl h
    | some e => exact Bad.pure (by simp))
omit hc in
theorem hon_sendDiscardAll (w : World σ) : Hon (sendDiscardAll P) w okE :=
  (hon_send P _ w).bind (fun a _ _ h => by cases h; exact Hon.pure _) (fun a _ _ h => by
    cases a with
    | none => exact absurd rfl h
    | some e => exact Bad.pure (by simp))
omit hc in
theorem hon_sendRunPullAll (q : Str) (kvs : KVs) (w : World σ) : Hon (sendRunPullAll P q kvs) w okE :=
  (hon_sendRun q kvs w).bind (fun a w1 _ h => by cases h; exact hon_sendPullAll w1) (fun a _ _ h => by
    cases a with
    | none => exact absurd rfl h
    | some e => exact Bad.pure (by simp))

theorem hon_sendRunConsume (q : Str) (kvs : KVs) (w : World σ) : Hon (sendRunConsume P close q kvs) w okV :=
  (hon_sendRun q kvs w).bind (fun a w1 _ h => by cases h; exact hon_consume hc w1) (fun a _ _ h => by
    cases a with
    | none => exact absurd rfl h
    | some e => exact Bad.pure (by simp))

theorem hon_sendDiscardAllConsume (w : World σ) : Hon (sendDiscardAllConsume P close) w okV :=
  (hon_sendDiscardAll w).bind (fun a w1 _ h => by cases h; exact hon_consume hc w1) (fun a _ _ h => by
    cases a with
    | none => exact absurd rfl h
    | some e => exact Bad.pure (by simp))

theorem hon_sendRunPullAllConsumeRun (q : Str) (kvs : KVs) (w : World σ) : Hon (sendRunPullAllConsumeRun P close q kvs) w okV :=
  (hon_sendRunPullAll q kvs w).bind (fun a w1 _ h => by cases h; exact hon_consume hc w1) (fun a _ _ h => by
    cases a with
    | none => exact absurd rfl h
    | some e => exact Bad.pure (by simp))

theorem hon_sendRunPullAllConsumeSingle (q : Str) (kvs : KVs) (w : World σ) : Hon (sendRunPullAllConsumeSingle P close q kvs) w okVV :=
  (hon_sendRunPullAll q kvs w).bind (fun a w1 _ h => by
    cases h
    refine (hon_consume hc w1).bind (fun x w2 _ h => ?_) (fun x w2 _ h => ?_)
    · obtain ⟨v, e⟩ := x
      cases h
      refine (hon_consume hc w2).bind (fun x w2 _ h => Hon.pure _) (fun x w2 _ h => ?_)
      obtain ⟨v, e⟩ := x
      exact Bad.pure h
    · obtain ⟨v, e⟩ := x
      cases e with
      | none => exact absurd rfl h
      | some e => exact Bad.pure (by simp)) (fun a _ _ h => by
    cases a with
    | none => exact absurd rfl h
    | some e => exact Bad.pure (by simp))

theorem hon_sendRunPullAllConsumeAll (q : Str) (kvs : KVs) (w : World σ) : Hon (sendRunPullAllConsumeAll P close q kvs) w okVV :=
  (hon_sendRunPullAll q kvs w).bind (fun a w1 _ h => by
    cases h
    refine (hon_consume hc w1).bind (fun x w2 _ h => ?_) (fun x w2 _ h => ?_)
    · obtain ⟨v, e⟩ := x
      cases h
      refine (hon_consumeAll hc w2).bind (fun x w2 _ h => Hon.pure _) (fun x w2 _ h => ?_)
      obtain ⟨v, v', e⟩ := x
      exact Bad.pure h
    · obtain ⟨v, e⟩ := x
      cases e with
      | none => exact absurd rfl h
      | some e => exact Bad.pure (by simp)) (fun a _ _ h => by
    cases a with
    | none => exact absurd rfl h
    | some e => exact Bad.pure (by simp))

/-! ### Closing -/

omit hc in
theorem hon_withConn {γ : Type} {s : Nat} {y : M σ γ} {g : γ → Prop} (h : Hon y w g) : Hon (withConn s y) w g := fun a w' e => by
  unfold withConn at e
  split at e
  · exact h a w' e
  · cases e

theorem hon_rowsDrain (r : Nat) (w : World σ) : Hon (rowsDrain P close r) w okE := by
  intro a w' e
  unfold rowsDrain at e
  simp only at e
  split at e
  · refine ((hon_withConn (hon_sendDiscardAllConsume hc w)).bind (fun x w3 _ h => ?_) (fun x w3 _ h => ?_) : Hon _ _ _) a w' e
    · obtain ⟨v, e⟩ := x
      cases h
      cases v <;> exact Hon.pure _
    · obtain ⟨v, e⟩ := x
      cases e with
      | none => exact absurd rfl h
      | some e => exact Bad.pure (by simp)
  · split at e
    · change (if numConsume _ _ < 0 then _ else _ : M σ (Option GoErr)) w = _ at e
      split at e
      · exact hon_withConn (Hon.panic _) a w' e
      · refine ((hon_withConn (hon_consumeMultiple hc _ w)).bind (fun x w3 _ h => ?_) (fun x w3 _ h => ?_) : Hon _ _ _) a w' e
        · cases h; exact Hon.pure _
        · cases x with
          | none => exact absurd rfl h
          | some e => exact Bad.pure (by simp)
    · cases e; exact Ext.refl _ _

omit hc in
theorem hon_rowsMark (r : Nat) (w : World σ) : Hon (rowsMark r) w fun _ => True := Hon.mod rfl

theorem hon_rowsClose0 (r : Nat) (w : World σ) : Hon (rowsClose0 P close r) w okE := by
  refine (Hon.get _).seq fun b w0 _ => ?_
  split
  · exact Hon.pure _
  · refine (hon_rowsDrain hc r w0).bind (fun x w3 _ h => ?_) (fun x w3 _ h => ?_)
    · cases h; exact (hon_rowsMark r w3).seq fun _ _ _ => Hon.pure _
    · cases x with
      | none => exact absurd rfl h
      | some e => exact Bad.pure (by simp)

omit hc in
theorem hon_stmtMark (s : Nat) (w : World σ) : Hon (stmtMark s) w fun _ => True := fun a w' e => by
  unfold stmtMark at e
  split at e
  · cases e; exact ⟨[], by simp [World.setStmt], fun _ _ h => by cases h⟩
  · cases e

theorem hon_stmtClose (s : Nat) (w : World σ) : Hon (stmtClose P close s) w okE := by
  intro a w' e
  rw [stmtClose_def] at e
  split at e
  · cases e; exact Ext.refl _ _
  · refine (Hon.bind (g := okE) ?_ (fun x w3 _ h => ?_) (fun x w3 _ h => ?_) : Hon _ _ _) a w' e
    · refine (Hon.get _).seq fun b w0 _ => ?_
      cases b with
      | none => exact Hon.pure _
      | some r =>
        refine (Hon.get _).seq fun b w0 _ => ?_
        split
        · exact Hon.pure _
        · exact hon_rowsClose0 hc r _
    · cases h; exact (hon_stmtMark s w3).seq fun _ _ _ => Hon.pure _
    · cases x with
      | none => exact absurd rfl h
      | some e => exact Bad.pure (by simp)

theorem hon_rowsClose (r : Nat) (w : World σ) : Hon (rowsClose P close r) w okE := by
  refine (Hon.get _).seq fun b w0 _ => ?_
  split
  · exact Hon.pure _
  · refine (hon_rowsDrain hc r w0).bind (fun x w3 _ h => ?_) (fun x w3 _ h => ?_)
    · cases h
      refine (hon_rowsMark r w3).seq fun _ _ _ => (Hon.get _).seq fun b w0 _ => ?_
      split
      · exact (Hon.get _).seq fun b w0 _ => hon_stmtClose hc _ _
      · exact Hon.pure _
    · cases x with
      | none => exact absurd rfl h
      | some e => exact Bad.pure (by simp)

theorem hon_closeCurrent (w : World σ) : Hon (closeCurrent P close) w okE := by
  refine (Hon.get _).seq fun b w0 _ => ?_
  cases b with
  | none => exact Hon.pure _
  | some s => exact hon_stmtClose hc s w0

theorem hon_txFinish (q : Str) (t : Nat) (w : World σ) : Hon (txFinish P close q t) w okE := by
  unfold txFinish
  refine (Hon.get _).seq fun b w0 _ => ?_
  split
  · exact Hon.pure _
  · refine Hon.bind (hon_closeCurrent hc w0) (fun x w3 _ h => ?_) (fun x w3 _ h => ?_)
    · cases h
      refine (hon_sendRunPullAllConsumeSingle hc q [] w3).bind (fun x w3 _ h => ?_) (fun x w3 _ h => ?_)
      · obtain ⟨run, pull, e⟩ := x
        cases h
        simp only
        split
        · exact Hon.pure _
        · split
          · exact Hon.pure _
          · exact (Hon.mod (g := fun _ => True) rfl).seq fun _ _ _ => Hon.pure _
      · obtain ⟨run, pull, e⟩ := x
        cases e with
        | none => exact absurd rfl h
        | some e => exact Bad.pure (by simp)
    · cases x with
      | none => exact absurd rfl h
      | some e => exact Bad.pure (by simp)

theorem hon_connClose (w : World σ) : Hon (connClose P close) w okE := by
  unfold connClose
  refine (Hon.get _).seq fun b w0 _ => ?_
  split
  · exact Hon.pure _
  · refine Hon.bind (hon_closeCurrent hc w0) (fun x w3 _ h => ?_) (fun x w3 _ h => ?_)
    · cases h
      refine Hon.bind (g := okE) ?_ (fun x w3 _ h => ?_) (fun x w3 _ h => ?_)
      · refine (Hon.get _).seq fun b w0 _ => ?_
        cases b with
        | none => exact Hon.pure _
        | some t => exact hon_txFinish hc _ t w0
      · cases h
        refine (Hon.mod (g := fun _ => True) rfl).seq fun _ _ _ => (Hon.get _).seq fun b w0 _ => ?_
        split <;> exact Hon.pure _
      · cases x with
        | none => exact absurd rfl h
        | some e => exact Bad.pure (by simp)
    · cases x with
      | none => exact absurd rfl h
      | some e => exact Bad.pure (by simp)

omit hc in
theorem grow_closeN (n : Nat) : ∀ w : World σ, Grow (closeN P n) w := by
  induction n with
  | zero => exact fun w a w' e => nomatch e
  | succ n ih => exact fun w => (hon_connClose ih w).grow

end Bolt
