import Verif.Spec.Reach

/-!
# The bound on the nesting of closes does not matter

`Le x y`: `x` gives up or does what `y` does.
-/

namespace Bolt

variable {σ : Type}

/-- `x` gives up or does what `y` does. -/
def Le {α : Type} (x y : M σ α) : Prop := ∀ w, (∃ w', x w = .deep w') ∨ x w = y w

theorem Le.refl {α : Type} (x : M σ α) : Le x x := fun _ => .inr rfl

theorem Le.bind {α β : Type} {x y : M σ α} {f g : α → M σ β} (h : Le x y) (hf : ∀ a, Le (f a) (g a)) : Le (x >>= f) (y >>= g) := by
  intro w
  show (∃ w', M.bind x f w = .deep w') ∨ M.bind x f w = M.bind y g w
  unfold M.bind
  rcases h w with ⟨w', e⟩ | e
  · rw [e]; exact .inl ⟨w', rfl⟩
  · rw [e]
    cases y w with
    | ok a w1 => exact hf a w1
    | panic p w1 => exact .inr rfl
    | deep w1 => exact .inr rfl

theorem Le.bind' {α β : Type} {x : M σ α} {f g : α → M σ β} (hf : ∀ a, Le (f a) (g a)) : Le (x >>= f) (x >>= g) :=
  (Le.refl x).bind hf

theorem Le.bindL {α β : Type} {x y : M σ α} {f : α → M σ β} (h : Le x y) : Le (x >>= f) (y >>= f) :=
  h.bind fun _ => .refl _

theorem Le.ite {α : Type} {c : Prop} [Decidable c] {x y x' y' : M σ α} (h : Le x y) (h' : Le x' y') :
    Le (if c then x else x') (if c then y else y') := by
  split
  · exact h
  · exact h'

theorem Le.withConn {α : Type} {x y : M σ α} (s : Nat) (h : Le x y) : Le (withConn s x) (withConn s y) := by
  intro w
  unfold Bolt.withConn
  split
  · exact h w
  · exact .inr rfl

section
variable {P : Peer σ} {c d : M σ (Option GoErr)} (h : Le c d)
include h

theorem le_reset : Le (reset P c) (reset P d) := by
  unfold reset
  refine .bind' fun a => ?_
  cases a with
  | some e => exact .refl _
  | none =>
    refine .bind' fun _ => .bind' fun a => ?_
    obtain ⟨v, e⟩ := a
    cases e with
    | some e => exact .refl _
    | none =>
      cases v with
      | success => exact .refl _
      | failure => exact h.bindL
      | _ => exact .bind' fun _ => h.bindL

theorem le_ack : Le (ackFailure P c) (ackFailure P d) := by
  unfold ackFailure
  refine .bind' fun a => ?_
  cases a with
  | some e => exact .refl _
  | none =>
    refine .bind' fun _ => .bind' fun a => ?_
    obtain ⟨v, e⟩ := a
    cases e with
    | some e => exact .refl _
    | none =>
      cases v with
      | success => exact .refl _
      | failure => exact le_reset h
      | _ => exact .bind' fun _ => h.bindL

theorem le_consume : Le (consume P c) (consume P d) := by
  unfold consume
  refine .bind' fun a => ?_
  obtain ⟨v, e⟩ := a
  cases e with
  | some e => exact .refl _
  | none =>
    cases v with
    | failure => exact (le_ack h).bindL
    | _ => exact .refl _

theorem le_consumeAll : Le (consumeAll P c) (consumeAll P d) := by
  intro w
  unfold consumeAll
  exact (le_consume h).bindL _

theorem le_multiple (n : Nat) : Le (consumeAllMultiple P c n) (consumeAllMultiple P d n) := by
  induction n with
  | zero => exact .refl _
  | succ n ih =>
    unfold consumeAllMultiple
    refine (le_consumeAll h).bind fun a => ?_
    obtain ⟨x, y, e⟩ := a
    cases e with
    | some e => exact .refl _
    | none => exact ih

theorem le_runConsume (q : Str) (kvs : KVs) : Le (sendRunConsume P c q kvs) (sendRunConsume P d q kvs) := by
  unfold sendRunConsume
  refine .bind' fun a => ?_
  cases a with
  | some e => exact .refl _
  | none => exact le_consume h

theorem le_discardConsume : Le (sendDiscardAllConsume P c) (sendDiscardAllConsume P d) := by
  unfold sendDiscardAllConsume
  refine .bind' fun a => ?_
  cases a with
  | some e => exact .refl _
  | none => exact le_consume h

theorem le_runPullConsume (q : Str) (kvs : KVs) : Le (sendRunPullAllConsumeRun P c q kvs) (sendRunPullAllConsumeRun P d q kvs) := by
  unfold sendRunPullAllConsumeRun
  refine .bind' fun a => ?_
  cases a with
  | some e => exact .refl _
  | none => exact le_consume h

theorem le_single (q : Str) (kvs : KVs) : Le (sendRunPullAllConsumeSingle P c q kvs) (sendRunPullAllConsumeSingle P d q kvs) := by
  unfold sendRunPullAllConsumeSingle
  refine .bind' fun a => ?_
  cases a with
  | some e => exact .refl _
  | none =>
    refine (le_consume h).bind fun a => ?_
    obtain ⟨v, e⟩ := a
    cases e with
    | some e => exact .refl _
    | none => exact (le_consume h).bindL

theorem le_runPullAll (q : Str) (kvs : KVs) : Le (sendRunPullAllConsumeAll P c q kvs) (sendRunPullAllConsumeAll P d q kvs) := by
  unfold sendRunPullAllConsumeAll
  refine .bind' fun a => ?_
  cases a with
  | some e => exact .refl _
  | none =>
    refine (le_consume h).bind fun a => ?_
    obtain ⟨v, e⟩ := a
    cases e with
    | some e => exact .refl _
    | none => exact (le_consumeAll h).bindL

theorem le_drain (r : Nat) : Le (rowsDrain P c r) (rowsDrain P d r) := by
  intro w
  unfold rowsDrain
  dsimp only
  split
  · exact (Le.bindL ((le_discardConsume h).withConn _) : Le _ _) w
  · split
    · exact (Le.ite (.refl _) (Le.bindL ((le_multiple h _).withConn _)) : Le _ _) w
    · exact .inr rfl

theorem le_rowsClose0 (r : Nat) : Le (rowsClose0 P c r) (rowsClose0 P d r) := by
  unfold rowsClose0
  exact .bind' fun a => .ite (.refl _) (le_drain h r).bindL

theorem le_stmtClose (s : Nat) : Le (stmtClose P c s) (stmtClose P d s) := by
  unfold stmtClose
  refine .bind' fun a => .ite (.refl _) (.bindL (.bind' fun a => ?_))
  cases a with
  | none => exact .refl _
  | some r => exact .bind' fun a => .ite (.refl _) (le_rowsClose0 h r)

theorem le_rowsClose (r : Nat) : Le (rowsClose P c r) (rowsClose P d r) := by
  unfold rowsClose
  refine .bind' fun a => .ite (.refl _) ((le_drain h r).bind fun a => ?_)
  cases a with
  | some e => exact .refl _
  | none => exact .bind' fun _ => .bind' fun a => .ite (.bind' fun s => le_stmtClose h s) (.refl _)

theorem le_current : Le (do
      match ← M.get fun w => w.statement with
      | none => M.pure none
      | some s => stmtClose P c s : M σ (Option GoErr)) (do
      match ← M.get fun w => w.statement with
      | none => M.pure none
      | some s => stmtClose P d s : M σ (Option GoErr)) := by
  refine .bind' fun a => ?_
  cases a with
  | none => exact .refl _
  | some s => exact le_stmtClose h s

theorem le_txFinish (q : Str) (t : Nat) : Le (txFinish P c q t) (txFinish P d q t) := by
  unfold txFinish
  refine .bind' fun a => .ite (.refl _) ((le_current h).bind fun a => ?_)
  cases a with
  | some e => exact .refl _
  | none => exact (le_single h q []).bindL

theorem le_connClose : Le (connClose P c) (connClose P d) := by
  unfold connClose
  refine .bind' fun a => .ite (.refl _) ((le_current h).bind fun a => ?_)
  cases a with
  | some e => exact .refl _
  | none =>
    refine .bindL (.bind' fun a => ?_)
    cases a with
    | none => exact .refl _
    | some t => exact le_txFinish h _ t

theorem le_stmtExec (s : Nat) (kvs : KVs) : Le (stmtExecNeo P c s kvs) (stmtExecNeo P d s kvs) := by
  unfold stmtExecNeo
  refine .bind' fun a => ?_
  cases a with
  | some e => exact .refl _
  | none => exact .bind' fun q => .bindL ((le_runPullAll h q kvs).withConn s)

theorem le_collect (n : Nat) : Le (collect P c n) (collect P d n) := by
  induction n with
  | zero => exact .refl _
  | succ n ih =>
    unfold collect
    refine (le_consume h).bind fun a => ?_
    obtain ⟨v, e⟩ := a
    cases e with
    | some e => exact .refl _
    | none =>
      refine .ite (.refl _) ((le_consumeAll h).bind fun a => ?_)
      obtain ⟨x, y, e⟩ := a
      cases e with
      | some e => exact .refl _
      | none =>
        cases y with
        | success md => exact ih.bindL
        | _ => exact .refl _

theorem le_stmtExecPipe (s : Nat) (l : List KVs) : Le (stmtExecPipeline P c s l) (stmtExecPipeline P d s l) := by
  unfold stmtExecPipeline
  refine .bind' fun a => ?_
  cases a with
  | some e => exact .refl _
  | none =>
    refine .bind' fun q => .ite (.refl _) (.bind' fun a => ?_)
    cases a with
    | some e => exact .refl _
    | none => exact (le_collect h _).withConn s

theorem le_stmtQuery (s : Nat) (kvs : KVs) : Le (stmtQueryNeo P c s kvs) (stmtQueryNeo P d s kvs) := by
  unfold stmtQueryNeo
  refine .bind' fun a => ?_
  cases a with
  | some e => exact .refl _
  | none => exact .bind' fun q => .bindL ((le_runConsume h q kvs).withConn s)

theorem le_stmtQueryPipe (s : Nat) (l : List KVs) : Le (stmtQueryPipeline P c s l) (stmtQueryPipeline P d s l) := by
  unfold stmtQueryPipeline
  refine .bind' fun a => ?_
  cases a with
  | some e => exact .refl _
  | none =>
    refine .bind' fun q => .ite (.refl _) (.bind' fun a => ?_)
    cases a with
    | some e => exact .refl _
    | none => exact .bindL ((le_consume h).withConn s)

theorem le_closeCurrent : Le (queryNeo.stmtCloseCurrent P c) (queryNeo.stmtCloseCurrent P d) := by
  unfold queryNeo.stmtCloseCurrent
  refine .bind' fun a => ?_
  cases a with
  | none => exact .refl _
  | some s => exact le_stmtClose h s

theorem le_queryNeo (q : Str) (kvs : KVs) : Le (queryNeo P c q kvs) (queryNeo P d q kvs) := by
  unfold queryNeo
  refine .bind' fun a => ?_
  cases a with
  | some e => exact .refl _
  | none =>
    refine .bind' fun s => .bind' fun _ => (le_runPullConsume h q kvs).bind fun a => ?_
    obtain ⟨v, e⟩ := a
    cases e with
    | some e => exact (le_closeCurrent h).bindL
    | none =>
      cases v with
      | success md => exact .refl _
      | _ => exact (le_closeCurrent h).bindL

theorem le_nextNeo (r : Nat) : Le (nextNeo P c r) (nextNeo P d r) := by
  unfold nextNeo
  refine .bind' fun row => .ite (.refl _) (.bind' fun a => ?_)
  cases a with
  | some e => exact .refl _
  | none => exact .bindL ((le_consume h).withConn _)

theorem le_allLoop (r f : Nat) : ∀ out, Le (allLoop P c r f out) (allLoop P d r f out) := by
  induction f with
  | zero => exact fun _ => .refl _
  | succ f ih =>
    intro out
    unfold allLoop
    refine (le_nextNeo h r).bind fun a => ?_
    obtain ⟨row, md, e⟩ := a
    cases e with
    | some e => cases row <;> exact .refl _
    | none =>
      cases row with
      | none => exact .refl _
      | some row => exact ih _

theorem le_rowsAll (r : Nat) : Le (rowsAll P c r) (rowsAll P d r) := by
  intro w
  unfold rowsAll
  exact le_allLoop h r _ [] w

theorem le_queryNeoAll (q : Str) (kvs : KVs) : Le (queryNeoAll P c q kvs) (queryNeoAll P d q kvs) := by
  unfold queryNeoAll
  refine (le_queryNeo h q kvs).bind fun a => ?_
  cases a with
  | error e => exact .refl _
  | ok r => exact (le_rowsAll h r).bind fun a => .bind' fun hdr => (le_rowsClose h r).bindL

theorem le_queryPipeline (qs : List Str) (l : List KVs) : Le (queryPipeline P c qs l) (queryPipeline P d qs l) := by
  unfold queryPipeline
  refine .bind' fun a => ?_
  cases a with
  | some e => exact .refl _
  | none => exact .bind' fun s => .bind' fun _ => (le_stmtQueryPipe h s l).bindL

theorem le_nextPipeline (r : Nat) : Le (nextPipeline P c r) (nextPipeline P d r) := by
  unfold nextPipeline pipeHeader
  refine .bind' fun row => .ite (.refl _) (((le_consume h).withConn _).bind fun a => ?_)
  obtain ⟨v, e⟩ := a
  cases e with
  | some e => exact .refl _
  | none =>
    cases v with
    | success md => exact .bind' fun n => .ite (.refl _) (.bindL ((le_consume h).withConn _))
    | _ => exact .refl _

theorem le_execNeo (q : Str) (kvs : KVs) : Le (execNeo P c q kvs) (execNeo P d q kvs) := by
  unfold execNeo
  refine .bind' fun a => ?_
  cases a with
  | some e => exact .refl _
  | none => exact .bind' fun s => (le_stmtExec h s kvs).bind fun _ => (le_stmtClose h s).bindL

theorem le_execPipeline (qs : List Str) (l : List KVs) : Le (execPipeline P c qs l) (execPipeline P d qs l) := by
  unfold execPipeline
  refine .bind' fun a => ?_
  cases a with
  | some e => exact .refl _
  | none => exact .bind' fun s => (le_stmtExecPipe h s l).bind fun _ => (le_stmtClose h s).bindL

theorem le_begin : Le (begin_ P c) (begin_ P d) := by
  unfold begin_
  exact .bind' fun _ => .ite (.refl _) (.bind' fun _ => .ite (.refl _) (.bind' fun _ => .ite (.refl _) (le_single h qBegin []).bindL))

theorem le_op (op : Op) : Le (op.run P c) (op.run P d) := by
  cases op with
  | exec q kvs => exact (le_execNeo h q kvs).bindL
  | query q kvs => exact (le_queryNeo h q kvs).bindL
  | queryAll q kvs => exact (le_queryNeoAll h q kvs).bindL
  | execPipe qs l => exact (le_execPipeline h qs l).bindL
  | queryPipe qs l => exact (le_queryPipeline h qs l).bindL
  | begin => exact (le_begin h).bindL
  | stExec s kvs => exact (le_stmtExec h s kvs).bindL
  | stQuery s kvs => exact (le_stmtQuery h s kvs).bindL
  | stExecPipe s l => exact (le_stmtExecPipe h s l).bindL
  | stQueryPipe s l => exact (le_stmtQueryPipe h s l).bindL
  | next r => exact (le_nextNeo h r).bindL
  | all r => exact (le_rowsAll h r).bindL
  | nextPipe r => exact (le_nextPipeline h r).bindL
  | closeRows r => exact le_rowsClose h r
  | closeStmt s => exact le_stmtClose h s
  | commit t => exact le_txFinish h _ t
  | rollback t => exact le_txFinish h _ t
  | close => exact le_connClose h
  | _ => exact .refl _

end

theorem le_closeN (P : Peer σ) (n k : Nat) : Le (closeN P n) (closeN P (n + k)) := by
  induction n with
  | zero => exact fun w => .inl ⟨w, rfl⟩
  | succ n ih => rw [Nat.add_right_comm]; exact le_connClose ih

end Bolt
