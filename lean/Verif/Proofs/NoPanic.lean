import Verif.Proofs.Safety
import Verif.Spec.Panics

/-!
# When calls panic

`Pan x w C Q`: when `x` is run in `w`, a panic satisfies `C` and a result satisfies `Q`.
-/

namespace Bolt

variable {σ : Type}

/-- Outcome conditions. -/
def Pan {α : Type} (x : M σ α) (w : World σ) (C : Panic → World σ → Prop) (Q : α → World σ → Prop) : Prop :=
  match x w with
  | .ok a w' => Q a w'
  | .panic p w' => C p w'
  | .deep _ => True

/-- No panic at all. -/
abbrev Never : Panic → World σ → Prop := fun _ _ => False

section
variable {α β : Type} {w : World σ} {C C' : Panic → World σ → Prop}

theorem Pan.pure {a : α} {Q : α → World σ → Prop} (h : Q a w) : Pan (M.pure a) w C Q := h
theorem Pan.pure' {a : α} {Q : α → World σ → Prop} (h : Q a w) : Pan (Pure.pure a : M σ α) w C Q := h

theorem Pan.bind {x : M σ α} {f : α → M σ β} {R : α → World σ → Prop} {Q : β → World σ → Prop}
    (hx : Pan x w C R) (hf : ∀ a w', R a w' → Pan (f a) w' C Q) : Pan (x >>= f) w C Q := by
  unfold Pan at hx ⊢
  show match M.bind x f w with | .ok a w' => Q a w' | .panic p w' => C p w' | .deep _ => True
  unfold M.bind
  cases h : x w with
  | ok a w' => rw [h] at hx; exact hf a w' hx
  | panic p w' => rw [h] at hx; exact hx
  | deep w' => trivial

theorem Pan.mono {x : M σ α} {Q R : α → World σ → Prop} (hx : Pan x w C R) (hC : ∀ p w', C p w' → C' p w')
    (hQ : ∀ a w', R a w' → Q a w') : Pan x w C' Q := by
  unfold Pan at hx ⊢
  cases h : x w with
  | ok a w' => rw [h] at hx; exact hQ _ _ hx
  | panic p w' => rw [h] at hx; exact hC _ _ hx
  | deep w' => trivial

theorem Pan.cons {x : M σ α} {Q R : α → World σ → Prop} (hx : Pan x w C R)
    (hQ : ∀ a w', R a w' → Q a w') : Pan x w C Q := hx.mono (fun _ _ h => h) hQ

theorem Pan.never {x : M σ α} {Q R : α → World σ → Prop} (hx : Pan x w Never R)
    (hQ : ∀ a w', R a w' → Q a w') : Pan x w C Q := hx.mono (fun _ _ h => h.elim) hQ

theorem Pan.get {f : World σ → α} {g : α → M σ β} {Q : β → World σ → Prop} (h : Pan (g (f w)) w C Q) :
    Pan (M.get f >>= g) w C Q := h

theorem Pan.modify {f : World σ → World σ} {g : Unit → M σ β} {Q : β → World σ → Prop} (h : Pan (g ()) (f w) C Q) :
    Pan (M.modify f >>= g) w C Q := h

end

/-- What holds in every reachable state. -/
structure Whole (w : World σ) : Prop where
  tame : ∀ i ∈ w.inbox, i.Tame
  conn : ∀ i, i < w.stmts.length → (w.stmt i).closed = false → (w.stmt i).conn = true
  cur : ∀ i, w.statement = some i → i < w.stmts.length ∧ (w.stmt i).closed = false
  srow : ∀ i r, i < w.stmts.length → (w.stmt i).rows = some r → r < w.rows.length ∧ (w.row r).stmt = i
  rstmt : ∀ r, r < w.rows.length → (w.row r).stmt < w.stmts.length
  ridx : ∀ r, r < w.rows.length → (w.stmt (w.row r).stmt).queries.length = 0 ∨
    (w.row r).idx < (w.stmt (w.row r).stmt).queries.length
  tx : w.transaction = none

/-- Only the socket was used. -/
structure Same (w w' : World σ) : Prop where
  stmts : w'.stmts = w.stmts
  rows : w'.rows = w.rows
  statement : w'.statement = w.statement
  closed : w'.closed = w.closed

theorem Same.refl (w : World σ) : Same w w := ⟨rfl, rfl, rfl, rfl⟩

theorem Same.tr {a b c : World σ} (h : Same a b) (h' : Same b c) : Same a c :=
  ⟨h'.stmts.trans h.stmts, h'.rows.trans h.rows, h'.statement.trans h.statement, h'.closed.trans h.closed⟩

theorem Same.stmt {w w' : World σ} (h : Same w w') (s : Nat) : w'.stmt s = w.stmt s := by
  unfold World.stmt; rw [h.stmts]

theorem Same.row {w w' : World σ} (h : Same w w') (s : Nat) : w'.row s = w.row s := by
  unfold World.row; rw [h.rows]

theorem Same.whole {w w' : World σ} (h : Same w w') (hw : Whole w) (ht : ∀ i ∈ w'.inbox, i.Tame)
    (hx : w'.transaction = none) : Whole w' where
  tame := ht
  conn i hi hc := by rw [h.stmt] at hc ⊢; rw [h.stmts] at hi; exact hw.conn i hi hc
  cur i hi := by rw [h.statement] at hi; rw [h.stmt, h.stmts]; exact hw.cur i hi
  srow i r hi hr := by rw [h.stmts] at hi; rw [h.stmt] at hr; rw [h.rows, h.row]; exact hw.srow i r hi hr
  rstmt r hr := by rw [h.rows] at hr; rw [h.row, h.stmts]; exact hw.rstmt r hr
  ridx r hr := by rw [h.rows] at hr; rw [h.row, h.stmt]; exact hw.ridx r hr
  tx := hx

/-- Objects are only added, and keep their statement; a closed connection stays closed. -/
structure Add (w w' : World σ) : Prop where
  whole : Whole w'
  nst : w.stmts.length ≤ w'.stmts.length
  nrows : w.rows.length ≤ w'.rows.length
  rst : ∀ r, r < w.rows.length → (w'.row r).stmt = (w.row r).stmt
  cl : w.closed = true → w'.closed = true

/-- In addition, statements stay as they are unless the connection has been closed. -/
structure Keep (w w' : World σ) : Prop extends Add w w' where
  st : w'.statement = w.statement ∨ w'.closed = true
  cn : ∀ s, s < w.stmts.length → (w.stmt s).conn = true → (w'.stmt s).conn = true ∨ w'.closed = true

theorem Add.tr {a b c : World σ} (h : Add a b) (h' : Add b c) : Add a c where
  whole := h'.whole
  nst := Nat.le_trans h.nst h'.nst
  nrows := Nat.le_trans h.nrows h'.nrows
  rst r hr := (h'.rst r (Nat.lt_of_lt_of_le hr h.nrows)).trans (h.rst r hr)
  cl hc := h'.cl (h.cl hc)

theorem Keep.tr {a b c : World σ} (h : Keep a b) (h' : Keep b c) : Keep a c where
  toAdd := h.toAdd.tr h'.toAdd
  st := by
    rcases h'.st with e | e
    · rcases h.st with e' | e'
      · exact .inl (e.trans e')
      · exact .inr (h'.cl e')
    · exact .inr e
  cn s hs hc := by
    rcases h.cn s hs hc with e | e
    · exact h'.cn s (Nat.lt_of_lt_of_le hs h.nst) e
    · exact .inr (h'.cl e)

theorem Same.keep {w w' : World σ} (h : Same w w') (hw : Whole w') : Keep w w' where
  whole := hw
  nst := by rw [h.stmts]; exact Nat.le_refl _
  nrows := by rw [h.rows]; exact Nat.le_refl _
  rst r _ := by rw [h.row]
  cl hc := by rw [h.closed]; exact hc
  st := .inl h.statement
  cn s _ hc := .inl (by rw [h.stmt]; exact hc)

theorem Keep.refl {w : World σ} (hw : Whole w) : Keep w w := (Same.refl w).keep hw

/-- A clean step. -/
structure Step (w w' : World σ) : Prop where
  whole : Whole w'
  same : Same w w'

theorem Step.sock {w w' : World σ} (hw : Whole w) (ht : ∀ i ∈ w'.inbox, i.Tame) (hx : w'.transaction = none)
    (hs : Same w w') : Step w w' := ⟨hs.whole hw ht hx, hs⟩

theorem Step.keep {w w' : World σ} (h : Step w w') : Keep w w' := h.same.keep h.whole
theorem Step.tr {a b c : World σ} (h : Step a b) (h' : Step b c) : Step a c := ⟨h'.whole, h.same.tr h'.same⟩

/-- After a call that can fail: a failure keeps, success is clean. -/
def After {α : Type} (err : α → Option GoErr) (w : World σ) (a : α) (w' : World σ) : Prop :=
  Keep w w' ∧ (err a = none → Step w w')

theorem After.of {α : Type} {err : α → Option GoErr} {w w' : World σ} {a : α} (h : Step w w') : After err w a w' :=
  ⟨h.keep, fun _ => h⟩

theorem After.err {α : Type} {err : α → Option GoErr} {w w' : World σ} {a : α} (h : Keep w w') (he : err a ≠ none) :
    After err w a w' := ⟨h, fun h' => (he h').elim⟩

section
variable {P : Peer σ} (hP : P.Tame) {close : M σ (Option GoErr)} (hc : ∀ w, Whole w → Pan close w Never (fun _ => Keep w))

include hP in
theorem pan_send (v : Val) {w : World σ} (hw : Whole w) : Pan (send P v) w Never (fun _ => Step w) := by
  unfold Pan send
  dsimp only
  have hs : Same w { w with
      sink := (encodeTo w.chunkSize w.sink v).1
      srv := (if (encodeTo w.chunkSize w.sink v).1.out.drop w.sink.out.length = [] then (w.srv, []) else P.react w.srv ((encodeTo w.chunkSize w.sink v).1.out.drop w.sink.out.length)).1
      inbox := w.inbox ++ (if (encodeTo w.chunkSize w.sink v).1.out.drop w.sink.out.length = [] then (w.srv, []) else P.react w.srv ((encodeTo w.chunkSize w.sink v).1.out.drop w.sink.out.length)).2
      connErr := w.connErr || streamFails w.chunkSize w.sink v
      log := w.log ++ [.send v (encodeTo w.chunkSize w.sink v).2] } := ⟨rfl, rfl, rfl, rfl⟩
  refine ⟨hs.whole hw ?_ hw.tx, hs⟩
  intro i hi
  rcases List.mem_append.1 hi with h | h
  · exact hw.tame i h
  · split at h
    · cases h
    · exact hP _ _ i h

theorem pan_recv {w : World σ} (hw : Whole w) : Pan (recv P) w Never (fun _ => Step w) := by
  have ht : ∀ i ∈ w.inbox.tail, i.Tame := fun i hi => hw.tame i (List.mem_of_mem_tail hi)
  have hi : (nextItem P w).Tame := by
    unfold nextItem
    cases h : w.inbox with
    | nil =>
      show Item.Tame (if w.closed then .ioerr else if P.ended w.srv then .eof else .ioerr)
      split
      · trivial
      · split <;> trivial
    | cons i l => exact hw.tame i (by rw [h]; exact List.mem_cons_self)
  unfold Pan recv
  dsimp only
  cases h : nextItem P w with
  | boom p => rw [h] at hi; exact hi.elim
  | val v => exact Step.sock hw ht hw.tx ⟨rfl, rfl, rfl, rfl⟩
  | bad v => exact Step.sock hw ht hw.tx ⟨rfl, rfl, rfl, rfl⟩
  | ioerr => exact Step.sock hw ht hw.tx ⟨rfl, rfl, rfl, rfl⟩
  | eof => exact Step.sock hw ht hw.tx ⟨rfl, rfl, rfl, rfl⟩

theorem mem_of_mem_dropWhile {α : Type} {p : α → Bool} {a : α} : ∀ {l : List α}, a ∈ l.dropWhile p → a ∈ l
  | [], h => h
  | b :: l, h => by
    rw [List.dropWhile_cons] at h
    split at h
    · exact List.mem_cons_of_mem _ (mem_of_mem_dropWhile h)
    · exact h

theorem pan_skip {w : World σ} (hw : Whole w) : Pan (skipIgnored (σ := σ)) w Never (fun _ => Step w) :=
  Step.sock hw (fun i hi => hw.tame i (mem_of_mem_dropWhile hi)) hw.tx ⟨rfl, rfl, rfl, rfl⟩

theorem step_connErr {w : World σ} (hw : Whole w) : Step w { w with connErr := true } :=
  Step.sock hw hw.tame hw.tx ⟨rfl, rfl, rfl, rfl⟩

include hP hc

theorem pan_reset {w : World σ} (hw : Whole w) : Pan (reset P close) w Never (After id w) := by
  unfold reset
  refine (pan_send hP .reset hw).bind fun a w1 h1 => ?_
  cases a with
  | some e => exact After.of h1
  | none =>
    refine (pan_skip h1.whole).bind fun _ w2 h2 => ?_
    refine (pan_recv h2.whole).bind fun a w3 h3 => ?_
    have h := (h1.tr h2).tr h3
    have hbad : Pan (do
        M.modify fun w => { w with connErr := true }
        let _ ← close
        M.pure (some GoErr.badConn)) w3 Never (After id w) :=
      .modify ((hc _ (step_connErr h.whole).whole).bind fun _ w4 h4 =>
        .pure (.err (h.keep.tr ((step_connErr h.whole).keep.tr h4)) nofun))
    obtain ⟨v, e⟩ := a
    cases e with
    | some e => exact After.of h
    | none =>
      cases v with
      | success md => exact After.of h
      | failure md => exact (hc _ h.whole).bind fun _ w4 h4 => .pure (.err (h.keep.tr h4) nofun)
      | _ => exact hbad

theorem pan_ack {w : World σ} (hw : Whole w) : Pan (ackFailure P close) w Never (After id w) := by
  unfold ackFailure
  refine (pan_send hP .ackFailure hw).bind fun a w1 h1 => ?_
  cases a with
  | some e => exact After.of h1
  | none =>
    refine (pan_skip h1.whole).bind fun _ w2 h2 => ?_
    refine (pan_recv h2.whole).bind fun a w3 h3 => ?_
    have h := (h1.tr h2).tr h3
    have hbad : Pan (do
        M.modify fun w => { w with connErr := true }
        let _ ← close
        M.pure (some GoErr.badConn)) w3 Never (After id w) :=
      .modify ((hc _ (step_connErr h.whole).whole).bind fun _ w4 h4 =>
        .pure (.err (h.keep.tr ((step_connErr h.whole).keep.tr h4)) nofun))
    obtain ⟨v, e⟩ := a
    cases e with
    | some e => exact After.of h
    | none =>
      cases v with
      | success md => exact After.of h
      | failure md => exact (pan_reset hP hc h.whole).cons fun a w' h' => ⟨h.keep.tr h'.1, fun ha => h.tr (h'.2 ha)⟩
      | _ => exact hbad

theorem pan_consume {w : World σ} (hw : Whole w) : Pan (consume P close) w Never (After Prod.snd w) := by
  unfold consume
  refine (pan_recv hw).bind fun a w1 h1 => ?_
  obtain ⟨v, e⟩ := a
  cases e with
  | some e => exact After.of h1
  | none =>
    cases v with
    | failure md =>
      refine (pan_ack hP hc h1.whole).bind fun a w2 h2 => ?_
      cases a with
      | some e => exact .pure (.err (h1.keep.tr h2.1) nofun)
      | none => exact .pure (.err (h1.keep.tr h2.1) nofun)
    | _ => exact After.of h1

theorem pan_consumeAll {w : World σ} (hw : Whole w) : Pan (consumeAll P close) w Never (After (fun x => x.2.2) w) := by
  have h0 : Step w { w with inbox := w.inbox.dropWhile Item.isPlain, log := w.log ++ (w.inbox.takeWhile Item.isPlain).map .recv } :=
    Step.sock hw (fun i hi => hw.tame i (mem_of_mem_dropWhile hi)) hw.tx ⟨rfl, rfl, rfl, rfl⟩
  have h : Pan (consume P close >>= fun
      | (r, some e) => M.pure ([], r, some e)
      | (r, none) => M.pure ((w.inbox.takeWhile Item.isPlain).map Item.value, r, none))
      { w with inbox := w.inbox.dropWhile Item.isPlain, log := w.log ++ (w.inbox.takeWhile Item.isPlain).map .recv } Never
      (After (fun x => x.2.2) w) := by
    refine (pan_consume hP hc h0.whole).bind fun a w1 h1 => ?_
    obtain ⟨v, e⟩ := a
    cases e with
    | some e => exact .pure (.err (h0.keep.tr h1.1) nofun)
    | none => exact .pure (.of (h0.tr (h1.2 rfl)))
  exact h

theorem pan_multiple (n : Nat) : ∀ {w : World σ}, Whole w → Pan (consumeAllMultiple P close n) w Never (After id w) := by
  induction n with
  | zero => exact fun hw => .pure (.of ⟨hw, .refl _⟩)
  | succ n ih =>
    intro w hw
    unfold consumeAllMultiple
    refine (pan_consumeAll hP hc hw).bind fun a w1 h1 => ?_
    obtain ⟨x, y, e⟩ := a
    cases e with
    | some e => exact .pure (.err h1.1 nofun)
    | none => exact (ih h1.1.whole).cons fun a w' h' => ⟨h1.1.tr h'.1, fun ha => (h1.2 rfl).tr (h'.2 ha)⟩

omit hc
theorem pan_run (q : Str) (kvs : KVs) {w : World σ} (hw : Whole w) : Pan (sendRun P q kvs) w Never (fun _ => Step w) := by
  unfold sendRun
  refine (pan_send hP _ hw).bind fun a w1 h1 => ?_
  cases a <;> exact .pure h1

theorem pan_pullAll {w : World σ} (hw : Whole w) : Pan (sendPullAll P) w Never (fun _ => Step w) := by
  unfold sendPullAll
  refine (pan_send hP _ hw).bind fun a w1 h1 => ?_
  cases a <;> exact .pure h1

theorem pan_discard {w : World σ} (hw : Whole w) : Pan (sendDiscardAll P) w Never (fun _ => Step w) := by
  unfold sendDiscardAll
  refine (pan_send hP _ hw).bind fun a w1 h1 => ?_
  cases a <;> exact .pure h1

theorem pan_runPull (q : Str) (kvs : KVs) {w : World σ} (hw : Whole w) :
    Pan (sendRunPullAll P q kvs) w Never (fun _ => Step w) := by
  unfold sendRunPullAll
  refine (pan_run hP q kvs hw).bind fun a w1 h1 => ?_
  cases a with
  | some e => exact .pure h1
  | none => exact (pan_pullAll hP h1.whole).cons fun _ w' h => h1.tr h

include hc
theorem pan_runConsume (q : Str) (kvs : KVs) {w : World σ} (hw : Whole w) :
    Pan (sendRunConsume P close q kvs) w Never (After Prod.snd w) := by
  unfold sendRunConsume
  refine (pan_run hP q kvs hw).bind fun a w1 h1 => ?_
  cases a with
  | some e => exact .pure (.of h1)
  | none => exact (pan_consume hP hc h1.whole).cons fun _ _ h => ⟨h1.keep.tr h.1, fun ha => h1.tr (h.2 ha)⟩

theorem pan_discardConsume {w : World σ} (hw : Whole w) :
    Pan (sendDiscardAllConsume P close) w Never (After Prod.snd w) := by
  unfold sendDiscardAllConsume
  refine (pan_discard hP hw).bind fun a w1 h1 => ?_
  cases a with
  | some e => exact .pure (.of h1)
  | none => exact (pan_consume hP hc h1.whole).cons fun _ _ h => ⟨h1.keep.tr h.1, fun ha => h1.tr (h.2 ha)⟩

theorem pan_runPullConsume (q : Str) (kvs : KVs) {w : World σ} (hw : Whole w) :
    Pan (sendRunPullAllConsumeRun P close q kvs) w Never (After Prod.snd w) := by
  unfold sendRunPullAllConsumeRun
  refine (pan_runPull hP q kvs hw).bind fun a w1 h1 => ?_
  cases a with
  | some e => exact .pure (.of h1)
  | none => exact (pan_consume hP hc h1.whole).cons fun _ _ h => ⟨h1.keep.tr h.1, fun ha => h1.tr (h.2 ha)⟩

theorem pan_single (q : Str) (kvs : KVs) {w : World σ} (hw : Whole w) :
    Pan (sendRunPullAllConsumeSingle P close q kvs) w Never (After (fun x => x.2.2) w) := by
  unfold sendRunPullAllConsumeSingle
  refine (pan_runPull hP q kvs hw).bind fun a w1 h1 => ?_
  cases a with
  | some e => exact .pure (.of h1)
  | none =>
    refine (pan_consume hP hc h1.whole).bind fun a w2 h2 => ?_
    obtain ⟨v, e⟩ := a
    cases e with
    | some e => exact .pure (.err (h1.keep.tr h2.1) nofun)
    | none =>
      refine (pan_consume hP hc h2.1.whole).bind fun a w3 h3 => ?_
      exact .pure ⟨h1.keep.tr (h2.1.tr h3.1), fun ha => h1.tr ((h2.2 rfl).tr (h3.2 ha))⟩

theorem pan_runPullAll (q : Str) (kvs : KVs) {w : World σ} (hw : Whole w) :
    Pan (sendRunPullAllConsumeAll P close q kvs) w Never (After (fun x => x.2.2) w) := by
  unfold sendRunPullAllConsumeAll
  refine (pan_runPull hP q kvs hw).bind fun a w1 h1 => ?_
  cases a with
  | some e => exact .pure (.of h1)
  | none =>
    refine (pan_consume hP hc h1.whole).bind fun a w2 h2 => ?_
    obtain ⟨v, e⟩ := a
    cases e with
    | some e => exact .pure (.err (h1.keep.tr h2.1) nofun)
    | none =>
      refine (pan_consumeAll hP hc h2.1.whole).bind fun a w3 h3 => ?_
      exact .pure ⟨h1.keep.tr (h2.1.tr h3.1), fun ha => h1.tr ((h2.2 rfl).tr (h3.2 ha))⟩

end

end Bolt
