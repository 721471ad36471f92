import Verif.Spec.Reach
import Mathlib.Data.List.Forall2

/-!
# The log is a ghost, and calls only see the bytes of their parameters

`Sim x y`: started on connections that differ at most in the ghost log, `x` and `y` do the same up to the log.
`kvs` and `kvs'` being `Alike` (their RUN messages are encoded alike), calls with `kvs` and calls with `kvs'` are
`Sim`. With `kvs' = kvs` this says that nothing depends on the log.
-/

namespace Bolt

variable {σ : Type}

/-- Without the ghost log. -/
def World.noLog (w : World σ) : World σ := { w with log := [] }

/-- Without the ghost log. -/
def Out.noLog {α : Type} : Out σ α → Out σ α
  | .ok a w => .ok a w.noLog
  | .panic p w => .panic p w.noLog
  | .deep w => .deep w.noLog

/-- The same up to the log. -/
def Sim {α : Type} (x y : M σ α) : Prop := ∀ w w', w.noLog = w'.noLog → (x w).noLog = (y w').noLog

/-- RUN messages with these parameters are encoded alike. -/
def Alike (kvs kvs' : KVs) : Prop := ∀ q, encOps (.run q kvs) = encOps (.run q kvs')

theorem Alike.refl (kvs : KVs) : Alike kvs kvs := fun _ => rfl

theorem Sim.of {α : Type} {x : M σ α} (h : ∀ w, (x w).noLog = (x w.noLog).noLog) : Sim x x := by
  intro w w' e
  rw [h w, e, ← h w']

theorem Sim.pure {α : Type} (a : α) : Sim (M.pure a : M σ α) (M.pure a) := .of fun _ => rfl
theorem Sim.panic {α : Type} (p : Panic) : Sim (M.panic p : M σ α) (M.panic p) := .of fun _ => rfl

theorem Sim.get {α : Type} {f : World σ → α} (h : ∀ w, f w = f w.noLog) : Sim (M.get f) (M.get f) :=
  .of fun w => by unfold M.get; rw [h w]; rfl

theorem Sim.modify {f : World σ → World σ} (h : ∀ w, (f w).noLog = (f w.noLog).noLog) : Sim (M.modify f) (M.modify f) :=
  .of fun w => by unfold M.modify; unfold Out.noLog; dsimp only; rw [h w]

theorem Sim.bind {α β : Type} {x y : M σ α} {f g : α → M σ β} (h : Sim x y) (hf : ∀ a, Sim (f a) (g a)) : Sim (x >>= f) (y >>= g) := by
  intro w w' e
  show (M.bind x f w).noLog = (M.bind y g w').noLog
  unfold M.bind
  have := h w w' e
  cases hx : x w <;> cases hy : y w' <;> rw [hx, hy] at this <;> simp only [Out.noLog, Out.ok.injEq, Out.panic.injEq, Out.deep.injEq, reduceCtorEq] at this
  · obtain ⟨rfl, this⟩ := this
    exact hf _ _ _ this
  · simp only [Out.noLog, this]
  · simp only [Out.noLog, this]

theorem Sim.ite {α : Type} {c : Prop} [Decidable c] {x y x' y' : M σ α} (h : Sim x y) (h' : Sim x' y') :
    Sim (if c then x else x') (if c then y else y') := by
  split
  · exact h
  · exact h'

theorem stmt_noLog (w : World σ) (s : Nat) : w.noLog.stmt s = w.stmt s := rfl
theorem row_noLog (w : World σ) (r : Nat) : w.noLog.row r = w.row r := rfl

theorem Sim.withConn {α : Type} {x y : M σ α} (s : Nat) (h : Sim x y) : Sim (withConn s x) (withConn s y) := by
  intro w w' e
  unfold Bolt.withConn
  rw [← stmt_noLog w, e, stmt_noLog]
  split
  · exact h w w' e
  · simp only [Out.noLog, e]

/-- Sequences of calls, returns and branches. -/
syntax "sim" : tactic
macro_rules
  | `(tactic| sim) => `(tactic| repeat' (first
      | exact Sim.pure _
      | exact Sim.panic _
      | exact Sim.get fun _ => rfl
      | exact Sim.modify fun _ => rfl
      | refine Sim.ite ?_ ?_
      | refine Sim.bind ?_ fun _ => ?_))

section
variable {P : Peer σ}

theorem like_send {v v' : Val} (h : encOps v = encOps v') : Sim (send P v) (send P v') := by
  intro w w' e
  have e1 : encodeTo w.chunkSize w.sink v = encodeTo w'.chunkSize w'.sink v' := by
    have : w.chunkSize = w'.chunkSize := by have := congrArg World.chunkSize e; exact this
    have h2 : w.sink = w'.sink := by have := congrArg World.sink e; exact this
    unfold encodeTo; rw [h, this, h2]
  have e2 : streamFails w.chunkSize w.sink v = streamFails w'.chunkSize w'.sink v' := by
    have : w.chunkSize = w'.chunkSize := by have := congrArg World.chunkSize e; exact this
    have h2 : w.sink = w'.sink := by have := congrArg World.sink e; exact this
    unfold streamFails; rw [h, this, h2]
  unfold send
  dsimp only
  rw [e1, e2]
  cases w; cases w'
  simp only [World.noLog, World.mk.injEq] at e
  obtain ⟨rfl, rfl, rfl, rfl, rfl, rfl, rfl, rfl, rfl, rfl, rfl, rfl, -⟩ := e
  rfl

theorem like_recv : Sim (recv P) (recv P) := .of fun w => by
  unfold recv
  dsimp only
  have : nextItem P w.noLog = nextItem P w := rfl
  rw [this]
  cases nextItem P w <;> rfl

theorem like_skip : Sim (skipIgnored : M σ Unit) skipIgnored := .of fun _ => rfl

section
variable {c d : M σ (Option GoErr)} (h : Sim c d)
include h

theorem like_reset : Sim (reset P c) (reset P d) := by
  unfold reset
  refine .bind (like_send rfl) fun a => ?_
  cases a with
  | some e => sim
  | none =>
    refine .bind like_skip fun _ => .bind like_recv fun a => ?_
    obtain ⟨v, e⟩ := a
    cases e with
    | some e => sim
    | none =>
      cases v with
      | success => sim
      | failure => exact h.bind fun _ => .pure _
      | _ => exact .bind (.modify fun _ => rfl) fun _ => h.bind fun _ => .pure _

theorem like_ack : Sim (ackFailure P c) (ackFailure P d) := by
  unfold ackFailure
  refine .bind (like_send rfl) fun a => ?_
  cases a with
  | some e => sim
  | none =>
    refine .bind like_skip fun _ => .bind like_recv fun a => ?_
    obtain ⟨v, e⟩ := a
    cases e with
    | some e => sim
    | none =>
      cases v with
      | success => sim
      | failure => exact like_reset h
      | _ => exact .bind (.modify fun _ => rfl) fun _ => h.bind fun _ => .pure _

theorem like_consume : Sim (consume P c) (consume P d) := by
  unfold consume
  refine .bind like_recv fun a => ?_
  obtain ⟨v, e⟩ := a
  cases e with
  | some e => sim
  | none =>
    cases v with
    | failure => refine (like_ack h).bind fun a => ?_; cases a <;> sim
    | _ => sim

theorem like_consumeAll : Sim (consumeAll P c) (consumeAll P d) := by
  intro w w' e
  unfold consumeAll
  have hi : w.inbox = w'.inbox := by have := congrArg World.inbox e; exact this
  dsimp only
  rw [hi]
  refine Sim.bind (like_consume h) (fun a => ?_) _ _ ?_
  · obtain ⟨v, x⟩ := a
    cases x <;> sim
  · cases w; cases w'
    simp only [World.noLog, World.mk.injEq] at e
    obtain ⟨rfl, rfl, rfl, rfl, rfl, rfl, rfl, rfl, rfl, rfl, rfl, rfl, -⟩ := e
    rfl

theorem like_multiple (n : Nat) : Sim (consumeAllMultiple P c n) (consumeAllMultiple P d n) := by
  induction n with
  | zero => sim
  | succ n ih =>
    unfold consumeAllMultiple
    refine (like_consumeAll h).bind fun a => ?_
    obtain ⟨x, y, e⟩ := a
    cases e with
    | some e => sim
    | none => exact ih

end

theorem like_run {q : Str} {kvs kvs' : KVs} (ha : Alike kvs kvs') : Sim (sendRun P q kvs) (sendRun P q kvs') := by
  unfold sendRun
  refine .bind (like_send (ha q)) fun a => ?_
  cases a <;> sim

theorem like_pull : Sim (sendPullAll P) (sendPullAll P) := by
  unfold sendPullAll
  refine .bind (like_send rfl) fun a => ?_
  cases a <;> sim

theorem like_discard : Sim (sendDiscardAll P) (sendDiscardAll P) := by
  unfold sendDiscardAll
  refine .bind (like_send rfl) fun a => ?_
  cases a <;> sim

theorem like_runPull {q : Str} {kvs kvs' : KVs} (ha : Alike kvs kvs') : Sim (sendRunPullAll P q kvs) (sendRunPullAll P q kvs') := by
  unfold sendRunPullAll
  refine .bind (like_run ha) fun a => ?_
  cases a with
  | some e => sim
  | none => exact like_pull

theorem like_sendAll (m : String) {l l' : List (Str × KVs)} (hl : List.Forall₂ (fun a b => a.1 = b.1 ∧ Alike a.2 b.2) l l') :
    Sim (sendAll P m l) (sendAll P m l') := by
  induction hl with
  | nil => sim
  | @cons a b _ _ hab _ ih =>
    obtain ⟨q, kvs⟩ := a
    obtain ⟨q', kvs'⟩ := b
    obtain ⟨rfl, hab⟩ := hab
    unfold sendAll
    refine .bind (like_runPull hab) fun a => ?_
    cases a with
    | some e => sim
    | none => exact ih

section
variable {c d : M σ (Option GoErr)} (h : Sim c d)
include h

theorem like_runConsume {q : Str} {kvs kvs' : KVs} (ha : Alike kvs kvs') : Sim (sendRunConsume P c q kvs) (sendRunConsume P d q kvs') := by
  unfold sendRunConsume
  refine .bind (like_run ha) fun a => ?_
  cases a with
  | some e => sim
  | none => exact like_consume h

theorem like_discardConsume : Sim (sendDiscardAllConsume P c) (sendDiscardAllConsume P d) := by
  unfold sendDiscardAllConsume
  refine .bind like_discard fun a => ?_
  cases a with
  | some e => sim
  | none => exact like_consume h

theorem like_runPullConsume {q : Str} {kvs kvs' : KVs} (ha : Alike kvs kvs') : Sim (sendRunPullAllConsumeRun P c q kvs) (sendRunPullAllConsumeRun P d q kvs') := by
  unfold sendRunPullAllConsumeRun
  refine .bind (like_runPull ha) fun a => ?_
  cases a with
  | some e => sim
  | none => exact like_consume h

theorem like_single {q : Str} {kvs kvs' : KVs} (ha : Alike kvs kvs') : Sim (sendRunPullAllConsumeSingle P c q kvs) (sendRunPullAllConsumeSingle P d q kvs') := by
  unfold sendRunPullAllConsumeSingle
  refine .bind (like_runPull ha) fun a => ?_
  cases a with
  | some e => sim
  | none =>
    refine (like_consume h).bind fun a => ?_
    obtain ⟨v, e⟩ := a
    cases e with
    | some e => sim
    | none => exact (like_consume h).bind fun _ => .pure _

theorem like_runPullAll {q : Str} {kvs kvs' : KVs} (ha : Alike kvs kvs') : Sim (sendRunPullAllConsumeAll P c q kvs) (sendRunPullAllConsumeAll P d q kvs') := by
  unfold sendRunPullAllConsumeAll
  refine .bind (like_runPull ha) fun a => ?_
  cases a with
  | some e => sim
  | none =>
    refine (like_consume h).bind fun a => ?_
    obtain ⟨v, e⟩ := a
    cases e with
    | some e => sim
    | none => exact (like_consumeAll h).bind fun _ => .pure _

theorem like_drain (r : Nat) : Sim (rowsDrain P c r) (rowsDrain P d r) := by
  intro w w' e
  unfold rowsDrain
  have hr : w.row r = w'.row r := by rw [← row_noLog w, e, row_noLog]
  have hs : ∀ s, w.stmt s = w'.stmt s := fun s => by rw [← stmt_noLog w, e, stmt_noLog]
  dsimp only
  rw [hr, hs]
  split
  · refine (Sim.bind ((like_discardConsume h).withConn _) fun a => ?_ : Sim _ _) w w' e
    obtain ⟨v, x⟩ := a
    cases x with
    | some x => sim
    | none => cases v <;> sim
  · split
    · refine (Sim.ite (.withConn _ (.panic _)) (Sim.bind ((like_multiple h _).withConn _) fun a => ?_) : Sim _ _) w w' e
      cases a <;> sim
    · simp only [Out.noLog, e]

omit h in
theorem like_rowsMark (r : Nat) : Sim (rowsMark r : M σ Unit) (rowsMark r) := .modify fun _ => rfl

theorem like_rowsClose0 (r : Nat) : Sim (rowsClose0 P c r) (rowsClose0 P d r) := by
  unfold rowsClose0
  refine .bind (.get fun _ => rfl) fun a => .ite (.pure _) ((like_drain h r).bind fun a => ?_)
  cases a with
  | some e => sim
  | none => exact (like_rowsMark r).bind fun _ => .pure _

omit h in
theorem like_stmtMark (s : Nat) : Sim (stmtMark s : M σ Unit) (stmtMark s) := .of fun w => by
  unfold stmtMark
  rw [stmt_noLog]
  split <;> rfl

theorem like_stmtClose (s : Nat) : Sim (stmtClose P c s) (stmtClose P d s) := by
  unfold stmtClose
  refine .bind (.get fun _ => rfl) fun a => .ite (.pure _) (.bind (.bind (.get fun _ => rfl) fun a => ?_) fun a => ?_)
  · cases a with
    | none => sim
    | some r => exact .bind (.get fun _ => rfl) fun a => .ite (.pure _) (like_rowsClose0 h r)
  · cases a with
    | some e => sim
    | none => exact (like_stmtMark s).bind fun _ => .pure _

theorem like_rowsClose (r : Nat) : Sim (rowsClose P c r) (rowsClose P d r) := by
  unfold rowsClose
  refine .bind (.get fun _ => rfl) fun a => .ite (.pure _) ((like_drain h r).bind fun a => ?_)
  cases a with
  | some e => sim
  | none =>
    exact .bind (like_rowsMark r) fun _ => .bind (.get fun _ => rfl) fun a =>
      .ite (.bind (.get fun _ => rfl) fun s => like_stmtClose h s) (.pure _)

theorem like_current : Sim (do
      match ← M.get fun w => w.statement with
      | none => M.pure none
      | some s => stmtClose P c s : M σ (Option GoErr)) (do
      match ← M.get fun w => w.statement with
      | none => M.pure none
      | some s => stmtClose P d s : M σ (Option GoErr)) := by
  refine .bind (.get fun _ => rfl) fun a => ?_
  cases a with
  | none => sim
  | some s => exact like_stmtClose h s

theorem like_txFinish (q : Str) (t : Nat) : Sim (txFinish P c q t) (txFinish P d q t) := by
  unfold txFinish
  refine .bind (.get fun _ => rfl) fun a => .ite (.pure _) ((like_current h).bind fun a => ?_)
  cases a with
  | some e => sim
  | none =>
    refine (like_single h (.refl [])).bind fun a => ?_
    obtain ⟨x, y, e⟩ := a
    cases e <;> sim

theorem like_connClose : Sim (connClose P c) (connClose P d) := by
  unfold connClose
  refine .bind (.get fun _ => rfl) fun a => .ite (.pure _) ((like_current h).bind fun a => ?_)
  cases a with
  | some e => sim
  | none =>
    refine .bind (.bind (.get fun _ => rfl) fun a => ?_) fun a => ?_
    · cases a with
      | none => sim
      | some t => exact like_txFinish h _ t
    · cases a <;> sim

end

omit P in
theorem like_guardConn : Sim (guardConn : M σ (Option GoErr)) guardConn := .of fun w => by
  unfold guardConn
  show _ = Out.noLog (if w.statement.isSome then _ else if w.closed then _ else _)
  split
  · rfl
  · split <;> rfl

omit P in
theorem like_guardStmt (s : Nat) : Sim (guardStmt s : M σ (Option GoErr)) (guardStmt s) := .of fun w => by
  unfold guardStmt
  rw [stmt_noLog]
  split
  · rfl
  · split <;> rfl

omit P in
theorem like_newStmt (q : Str) (qs : List Str) : Sim (newStmt q qs : M σ Nat) (newStmt q qs) := .of fun _ => rfl
omit P in
theorem like_newRows (x : Rows) : Sim (newRowsObj x : M σ Nat) (newRowsObj x) := .of fun _ => rfl

omit P in
theorem like_prepare (q : Str) (qs : List Str) : Sim (prepare q qs : M σ _) (prepare q qs) := by
  unfold prepare
  refine .bind like_guardConn fun a => ?_
  cases a with
  | some e => sim
  | none => exact .bind (like_newStmt _ _) fun _ => .bind (.modify fun _ => rfl) fun _ => .pure _

theorem like_closeN (n : Nat) : Sim (closeN P n) (closeN P n) := by
  induction n with
  | zero => exact .of fun _ => rfl
  | succ n ih => exact like_connClose ih

section
variable {c d : M σ (Option GoErr)} (h : Sim c d)
include h

theorem like_stmtExec (s : Nat) {kvs kvs' : KVs} (ha : Alike kvs kvs') : Sim (stmtExecNeo P c s kvs) (stmtExecNeo P d s kvs') := by
  unfold stmtExecNeo
  refine .bind (like_guardStmt s) fun a => ?_
  cases a with
  | some e => sim
  | none =>
    refine .bind (.get fun _ => rfl) fun q => .bind ((like_runPullAll h ha).withConn s) fun a => ?_
    obtain ⟨x, y, e⟩ := a
    cases e with
    | some e => sim
    | none => refine .ite (.pure _) ?_; cases y <;> sim

theorem like_collect (n : Nat) : Sim (collect P c n) (collect P d n) := by
  induction n with
  | zero => sim
  | succ n ih =>
    unfold collect
    refine (like_consume h).bind fun a => ?_
    obtain ⟨v, e⟩ := a
    cases e with
    | some e => sim
    | none =>
      refine .ite (.pure _) ((like_consumeAll h).bind fun a => ?_)
      obtain ⟨x, y, e⟩ := a
      cases e with
      | some e => sim
      | none =>
        cases y with
        | success md => refine ih.bind fun a => ?_; cases a <;> sim
        | _ => sim

omit h in
theorem zip_alike : ∀ (qs : List Str) {l l' : List KVs}, List.Forall₂ Alike l l' →
    List.Forall₂ (fun a b => a.1 = b.1 ∧ Alike a.2 b.2) (qs.zip l) (qs.zip l')
  | [], _, _, _ => by simp
  | _ :: _, _, _, .nil => by simp
  | _ :: qs, _, _, .cons ha hl => .cons ⟨rfl, ha⟩ (zip_alike qs hl)

theorem like_stmtExecPipe (s : Nat) {l l' : List KVs} (hl : List.Forall₂ Alike l l') : Sim (stmtExecPipeline P c s l) (stmtExecPipeline P d s l') := by
  unfold stmtExecPipeline
  refine .bind (like_guardStmt s) fun a => ?_
  cases a with
  | some e => sim
  | none =>
    refine .bind (.get fun _ => rfl) fun q => ?_
    rw [hl.length_eq]
    refine .ite (.pure _) (.bind (.withConn s (like_sendAll _ (zip_alike q hl))) fun a => ?_)
    cases a with
    | some e => sim
    | none => exact (like_collect h _).withConn s

theorem like_stmtQuery (s : Nat) {kvs kvs' : KVs} (ha : Alike kvs kvs') : Sim (stmtQueryNeo P c s kvs) (stmtQueryNeo P d s kvs') := by
  unfold stmtQueryNeo
  refine .bind (like_guardStmt s) fun a => ?_
  cases a with
  | some e => sim
  | none =>
    refine .bind (.get fun _ => rfl) fun q => .bind ((like_runConsume h ha).withConn s) fun a => ?_
    obtain ⟨v, e⟩ := a
    cases e with
    | some e => sim
    | none =>
      cases v with
      | success md => exact .bind (like_newRows _) fun r => .bind (.modify fun _ => rfl) fun _ => .pure _
      | _ => sim

theorem like_stmtQueryPipe (s : Nat) {l l' : List KVs} (hl : List.Forall₂ Alike l l') : Sim (stmtQueryPipeline P c s l) (stmtQueryPipeline P d s l') := by
  unfold stmtQueryPipeline
  refine .bind (like_guardStmt s) fun a => ?_
  cases a with
  | some e => sim
  | none =>
    refine .bind (.get fun _ => rfl) fun q => ?_
    rw [hl.length_eq]
    refine .ite (.pure _) (.bind (.withConn s (like_sendAll _ (zip_alike q hl))) fun a => ?_)
    cases a with
    | some e => sim
    | none =>
      refine .bind ((like_consume h).withConn s) fun a => ?_
      obtain ⟨v, e⟩ := a
      cases e with
      | some e => sim
      | none =>
        cases v with
        | success md => exact .bind (like_newRows _) fun r => .bind (.modify fun _ => rfl) fun _ => .pure _
        | _ => sim

theorem like_closeCurrent : Sim (queryNeo.stmtCloseCurrent P c) (queryNeo.stmtCloseCurrent P d) := by
  unfold queryNeo.stmtCloseCurrent
  refine .bind (.get fun _ => rfl) fun a => ?_
  cases a with
  | none => sim
  | some s => exact like_stmtClose h s

theorem like_queryNeo (q : Str) {kvs kvs' : KVs} (ha : Alike kvs kvs') : Sim (queryNeo P c q kvs) (queryNeo P d q kvs') := by
  unfold queryNeo
  refine .bind like_guardConn fun a => ?_
  cases a with
  | some e => sim
  | none =>
    refine .bind (like_newStmt _ _) fun s => .bind (.modify fun _ => rfl) fun _ => (like_runPullConsume h ha).bind fun a => ?_
    obtain ⟨v, e⟩ := a
    cases e with
    | some e => exact (like_closeCurrent h).bind fun _ => .pure _
    | none =>
      cases v with
      | success md => exact .bind (like_newRows _) fun r => .bind (.modify fun _ => rfl) fun _ => .pure _
      | _ => exact (like_closeCurrent h).bind fun _ => .pure _

theorem like_nextNeo (r : Nat) : Sim (nextNeo P c r) (nextNeo P d r) := by
  unfold nextNeo
  refine .bind (.get fun _ => rfl) fun row => .ite (.pure _) (.bind (.ite (.bind (.modify fun _ => rfl) fun _ =>
    .bind (.withConn _ like_pull) fun a => ?_) (.pure _)) fun a => ?_)
  · cases a <;> sim
  · cases a with
    | some e => sim
    | none =>
      refine .bind ((like_consume h).withConn _) fun a => ?_
      obtain ⟨v, e⟩ := a
      cases e with
      | some e => sim
      | none => cases v <;> sim

theorem like_allLoop (r f : Nat) : ∀ out, Sim (allLoop P c r f out) (allLoop P d r f out) := by
  induction f with
  | zero => exact fun _ => .of fun _ => rfl
  | succ f ih =>
    intro out
    unfold allLoop
    refine (like_nextNeo h r).bind fun a => ?_
    obtain ⟨row, md, e⟩ := a
    cases e with
    | some e => cases row <;> sim
    | none =>
      cases row with
      | none => sim
      | some row => exact ih _

theorem like_rowsAll (r : Nat) : Sim (rowsAll P c r) (rowsAll P d r) := by
  intro w w' e
  unfold rowsAll
  dsimp only
  have e1 : w.chunkSize = w'.chunkSize := by have := congrArg World.chunkSize e; exact this
  have e2 : w.sink = w'.sink := by have := congrArg World.sink e; exact this
  have e3 : w.srv = w'.srv := by have := congrArg World.srv e; exact this
  have e4 : w.inbox = w'.inbox := by have := congrArg World.inbox e; exact this
  rw [e1, e2, e3, e4]
  exact like_allLoop h r _ [] w w' e

theorem like_queryNeoAll (q : Str) {kvs kvs' : KVs} (ha : Alike kvs kvs') : Sim (queryNeoAll P c q kvs) (queryNeoAll P d q kvs') := by
  unfold queryNeoAll
  refine (like_queryNeo h q ha).bind fun a => ?_
  cases a with
  | error e => sim
  | ok r => exact (like_rowsAll h r).bind fun a => .bind (.get fun _ => rfl) fun hdr => (like_rowsClose h r).bind fun _ => .pure _

theorem like_queryPipeline (qs : List Str) {l l' : List KVs} (hl : List.Forall₂ Alike l l') : Sim (queryPipeline P c qs l) (queryPipeline P d qs l') := by
  unfold queryPipeline
  refine .bind like_guardConn fun a => ?_
  cases a with
  | some e => sim
  | none =>
    refine .bind (like_newStmt _ _) fun s => .bind (.modify fun _ => rfl) fun _ => (like_stmtQueryPipe h s hl).bind fun a => ?_
    cases a <;> sim

omit h in
theorem like_pipeHeader (row : Rows) (v : Val) : Sim (pipeHeader row v : M σ PipeRes) (pipeHeader row v) := by
  unfold pipeHeader
  split
  · exact .bind (like_newRows _) fun r => .bind (.modify fun _ => rfl) fun _ => .pure _
  · exact .pure _

theorem like_nextPipeline (r : Nat) : Sim (nextPipeline P c r) (nextPipeline P d r) := by
  unfold nextPipeline
  refine .bind (.get fun _ => rfl) fun row => .ite (.pure _) (((like_consume h).withConn _).bind fun a => ?_)
  obtain ⟨v, e⟩ := a
  cases e with
  | some e => sim
  | none =>
    cases v with
    | success md =>
      refine .bind (.get fun _ => rfl) fun n => .ite (.bind (.modify fun _ => rfl) fun _ => .pure _) (.bind ((like_consume h).withConn _) fun a => ?_)
      obtain ⟨v, e⟩ := a
      cases e with
      | some e => exact .ite (like_pipeHeader _ v) (.pure _)
      | none => exact like_pipeHeader _ v
    | _ => sim

theorem like_execNeo (q : Str) {kvs kvs' : KVs} (ha : Alike kvs kvs') : Sim (execNeo P c q kvs) (execNeo P d q kvs') := by
  unfold execNeo
  refine .bind like_guardConn fun a => ?_
  cases a with
  | some e => sim
  | none => exact .bind (like_newStmt _ _) fun s => (like_stmtExec h s ha).bind fun _ => (like_stmtClose h s).bind fun _ => .pure _

theorem like_execPipeline (qs : List Str) {l l' : List KVs} (hl : List.Forall₂ Alike l l') : Sim (execPipeline P c qs l) (execPipeline P d qs l') := by
  unfold execPipeline
  refine .bind like_guardConn fun a => ?_
  cases a with
  | some e => sim
  | none => exact .bind (like_newStmt _ _) fun s => (like_stmtExecPipe h s hl).bind fun _ => (like_stmtClose h s).bind fun _ => .pure _

theorem like_begin : Sim (begin_ P c) (begin_ P d) := by
  unfold begin_
  refine .bind (.get fun _ => rfl) fun _ => .ite (.pure _) (.bind (.get fun _ => rfl) fun _ => .ite (.pure _)
    (.bind (.get fun _ => rfl) fun _ => .ite (.pure _) ((like_single h (.refl [])).bind fun a => ?_)))
  obtain ⟨x, y, e⟩ := a
  cases e with
  | some e => sim
  | none => exact .ite (.pure _) (.ite (.pure _) (.of fun _ => rfl))

end

end

/-- The same call up to parameters that are encoded alike. -/
inductive Op.Alike : Op → Op → Prop where
  | exec (q : Str) {kvs kvs' : KVs} : Bolt.Alike kvs kvs' → Op.Alike (.exec q kvs) (.exec q kvs')
  | query (q : Str) {kvs kvs' : KVs} : Bolt.Alike kvs kvs' → Op.Alike (.query q kvs) (.query q kvs')
  | queryAll (q : Str) {kvs kvs' : KVs} : Bolt.Alike kvs kvs' → Op.Alike (.queryAll q kvs) (.queryAll q kvs')
  | execPipe (qs : List Str) {l l' : List KVs} : List.Forall₂ Bolt.Alike l l' → Op.Alike (.execPipe qs l) (.execPipe qs l')
  | queryPipe (qs : List Str) {l l' : List KVs} : List.Forall₂ Bolt.Alike l l' → Op.Alike (.queryPipe qs l) (.queryPipe qs l')
  | stExec (s : Nat) {kvs kvs' : KVs} : Bolt.Alike kvs kvs' → Op.Alike (.stExec s kvs) (.stExec s kvs')
  | stQuery (s : Nat) {kvs kvs' : KVs} : Bolt.Alike kvs kvs' → Op.Alike (.stQuery s kvs) (.stQuery s kvs')
  | stExecPipe (s : Nat) {l l' : List KVs} : List.Forall₂ Bolt.Alike l l' → Op.Alike (.stExecPipe s l) (.stExecPipe s l')
  | stQueryPipe (s : Nat) {l l' : List KVs} : List.Forall₂ Bolt.Alike l l' → Op.Alike (.stQueryPipe s l) (.stQueryPipe s l')
  | same (op : Op) : Op.Alike op op

/-- The log is a ghost: no call depends on it. -/
theorem log_ghost (P : Peer σ) {c d : M σ (Option GoErr)} (h : Sim c d) (op : Op) : Sim (op.run P c) (op.run P d) := by
  have hl : ∀ l : List KVs, List.Forall₂ Alike l l := fun l => by induction l <;> constructor <;> first | exact .refl _ | assumption
  cases op with
  | exec q kvs => exact (like_execNeo h q (.refl _)).bind fun _ => .pure _
  | query q kvs => exact (like_queryNeo h q (.refl _)).bind fun _ => .pure _
  | queryAll q kvs => refine (like_queryNeoAll h q (.refl _)).bind fun a => ?_; cases a <;> sim
  | execPipe qs l => exact (like_execPipeline h qs (hl l)).bind fun _ => .pure _
  | queryPipe qs l => exact (like_queryPipeline h qs (hl l)).bind fun _ => .pure _
  | prepare q => exact (like_prepare q []).bind fun _ => .pure _
  | preparePipe qs => exact (like_prepare [] qs).bind fun _ => .pure _
  | begin => exact (like_begin h).bind fun _ => .pure _
  | stExec s kvs => exact (like_stmtExec h s (.refl _)).bind fun _ => .pure _
  | stQuery s kvs => exact (like_stmtQuery h s (.refl _)).bind fun _ => .pure _
  | stExecPipe s l => exact (like_stmtExecPipe h s (hl l)).bind fun _ => .pure _
  | stQueryPipe s l => exact (like_stmtQueryPipe h s (hl l)).bind fun _ => .pure _
  | next r => exact (like_nextNeo h r).bind fun _ => .pure _
  | all r => exact (like_rowsAll h r).bind fun _ => .pure _
  | nextPipe r => exact (like_nextPipeline h r).bind fun _ => .pure _
  | closeRows r => exact like_rowsClose h r
  | closeStmt s => exact like_stmtClose h s
  | commit t => exact like_txFinish h _ t
  | rollback t => exact like_txFinish h _ t
  | close => exact like_connClose h
  | setChunkSize n => exact .bind (.modify fun _ => rfl) fun _ => .pure _

/-- No call tells apart parameters that are encoded alike. -/
theorem alike_op (P : Peer σ) {c d : M σ (Option GoErr)} (h : Sim c d) {op op' : Op} (ha : op.Alike op') : Sim (op.run P c) (op'.run P d) := by
  cases ha with
  | exec q ha => exact (like_execNeo h q ha).bind fun _ => .pure _
  | query q ha => exact (like_queryNeo h q ha).bind fun _ => .pure _
  | queryAll q ha => refine (like_queryNeoAll h q ha).bind fun a => ?_; cases a <;> sim
  | execPipe qs hl => exact (like_execPipeline h qs hl).bind fun _ => .pure _
  | queryPipe qs hl => exact (like_queryPipeline h qs hl).bind fun _ => .pure _
  | stExec s ha => exact (like_stmtExec h s ha).bind fun _ => .pure _
  | stQuery s ha => exact (like_stmtQuery h s ha).bind fun _ => .pure _
  | stExecPipe s hl => exact (like_stmtExecPipe h s hl).bind fun _ => .pure _
  | stQueryPipe s hl => exact (like_stmtQueryPipe h s hl).bind fun _ => .pure _
  | same => exact log_ghost P h _

end Bolt
