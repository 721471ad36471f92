import Verif.Proofs.Safety

/-!
Every call is a sequence of steps: changes to the driver's own objects, sends, receives, and the closing of the
socket. An invariant of the steps is an invariant of all calls.
-/

namespace Bolt

variable {σ : Type}

/-- A closed statement has no connection. -/
def World.Dead (w : World σ) : Prop := ∀ x ∈ w.stmts, x.closed = true → x.conn = false

theorem World.Dead.modify {w w' : World σ} {s : Nat} {f : Stmt → Stmt} (hw : w'.stmts = w.stmts.modify s f)
    (hf : ∀ x, (x.closed = true → x.conn = false) → (f x).closed = true → (f x).conn = false) (h : w.Dead) : w'.Dead := by
  intro x hx hc
  rw [hw] at hx
  obtain ⟨i, hi, rfl⟩ := List.mem_iff_getElem.mp hx
  rw [List.getElem_modify] at hc ⊢
  split at hc
  · rename_i h1
    rw [if_pos h1]
    exact hf _ (h _ (List.getElem_mem _)) hc
  · rename_i h1
    rw [if_neg h1]
    exact h _ (List.getElem_mem _) hc

theorem World.Dead.append {w w' : World σ} {x : Stmt} (hw : w'.stmts = w.stmts ++ [x]) (hx : x.closed = true → x.conn = false) (h : w.Dead) : w'.Dead := by
  intro y hy hc
  rw [hw] at hy
  rcases List.mem_append.mp hy with hy | hy
  · exact h y hy hc
  · rw [List.mem_singleton.mp hy] at hc ⊢
    exact hx hc

/-- Closing a statement that has no connection. -/
theorem World.Dead.shut {w : World σ} {s : Nat} (hn : ¬(w.stmt s).conn = true) (h : w.Dead) : (w.setStmt s fun x => { x with closed := true }).Dead := by
  intro x hx hc
  obtain ⟨i, hi, rfl⟩ := List.mem_iff_getElem.mp (show x ∈ w.stmts.modify s _ from hx)
  rw [List.getElem_modify] at hc ⊢
  have hi' : i < w.stmts.length := by simpa using hi
  split
  · rename_i h1
    subst h1
    have : w.stmt s = w.stmts[s] := by simp [World.stmt, List.getElem?_eq_getElem hi']
    rw [this] at hn
    simpa using hn
  · rename_i h1
    rw [if_neg h1] at hc
    exact h _ (List.getElem_mem _) hc

/-- One step. -/
inductive Move (P : Peer σ) : World σ → World σ → Prop where
  /-- the driver's own objects -/
  | own {w w' : World σ} : w'.sink = w.sink → w'.inbox = w.inbox → w'.srv = w.srv → w'.log = w.log → w'.closed = w.closed →
      w'.chunkSize = w.chunkSize → w'.sockCloseErr = w.sockCloseErr → (w.connErr = true → w'.connErr = true) → (w.Dead → w'.Dead) → Move P w w'
  | send (w : World σ) (v : Val) : Move P w (send P v w).world
  | recv (w : World σ) : Move P w (recv P w).world
  | shut (w : World σ) : Move P w { w with closed := true, connErr := w.connErr || w.sockCloseErr, sink := { w.sink with budget := some 0 }, inbox := [] }

/-- Any number of steps. -/
inductive Moves (P : Peer σ) : World σ → World σ → Prop where
  | refl (w : World σ) : Moves P w w
  | tail {w w1 w2 : World σ} : Moves P w w1 → Move P w1 w2 → Moves P w w2

variable {P : Peer σ}

theorem Moves.tr {a b c : World σ} (h : Moves P a b) (h' : Moves P b c) : Moves P a c := by
  induction h' with
  | refl => exact h
  | tail _ s ih => exact .tail ih s

theorem Move.one {a b : World σ} (h : Move P a b) : Moves P a b := .tail (.refl a) h

/-- The call consists of steps. -/
def Does {α : Type} (P : Peer σ) (x : M σ α) : Prop := ∀ w, Moves P w (x w).world

theorem Does.bind {α β : Type} {x : M σ α} {f : α → M σ β} (h : Does P x) (hf : ∀ a, Does P (f a)) : Does P (x >>= f) := by
  intro w
  have h := h w
  rw [mbind_run]
  cases hx : x w with
  | ok a w' => rw [hx] at h; exact Moves.tr h (hf a w')
  | panic p w' => rw [hx] at h; exact h
  | deep w' => rw [hx] at h; exact h

theorem own_steps {w w' : World σ} (h1 : w'.sink = w.sink) (h2 : w'.inbox = w.inbox) (h3 : w'.srv = w.srv) (h4 : w'.log = w.log) (h5 : w'.closed = w.closed)
    (h6 : w'.chunkSize = w.chunkSize) (h7 : w'.sockCloseErr = w.sockCloseErr) (h8 : w.connErr = true → w'.connErr = true)
    (h9 : w.Dead → w'.Dead) : Moves P w w' :=
  (Move.own h1 h2 h3 h4 h5 h6 h7 h8 h9).one

theorem Does.pure {α : Type} (a : α) : Does P (M.pure a : M σ α) := fun w => .refl w
theorem Does.get {α : Type} (f : World σ → α) : Does P (M.get f) := fun w => .refl w
theorem Does.panic {α : Type} (p : Panic) : Does P (M.panic p : M σ α) := fun w => .refl w
theorem Does.send (v : Val) : Does P (Bolt.send P v) := fun w => (Move.send w v).one
theorem Does.recv : Does P (Bolt.recv P) := fun w => (Move.recv w).one
theorem Does.setRow {r : Nat} {f : Rows → Rows} : Does P (M.modify fun w => w.setRow r f) := fun _ => own_steps rfl rfl rfl rfl rfl rfl rfl id id
theorem Does.setStmt {s : Nat} {f : Stmt → Stmt} (hf : ∀ x, (f x).closed = x.closed ∧ (f x).conn = x.conn) : Does P (M.modify fun w => w.setStmt s f) :=
  fun _ => own_steps rfl rfl rfl rfl rfl rfl rfl id (World.Dead.modify rfl fun x h hc => by rw [(hf x).2]; exact h ((hf x).1 ▸ hc))
theorem Does.statement {s : Option Nat} : Does P (M.modify fun w => { w with statement := s }) := fun _ => own_steps rfl rfl rfl rfl rfl rfl rfl id id
theorem Does.connErr : Does P (M.modify fun w => { w with connErr := true }) := fun _ => own_steps rfl rfl rfl rfl rfl rfl rfl (fun _ => rfl) id
theorem Does.tx {f : List Bool → List Bool} : Does P (M.modify fun w => { w with transaction := none, txs := f w.txs }) :=
  fun _ => own_steps rfl rfl rfl rfl rfl rfl rfl id id

theorem Does.withConn {α : Type} {s : Nat} {k : M σ α} (h : Does P k) : Does P (Bolt.withConn s k) := by
  intro w
  unfold Bolt.withConn
  split
  · exact h w
  · exact .refl w

theorem Does.ite {α : Type} {c : Prop} [Decidable c] {x y : M σ α} (hx : Does P x) (hy : Does P y) : Does P (if c then x else y) := by
  split
  · exact hx
  · exact hy

/-- Reading messages that are there. -/
theorem steps_read {p : Item → Bool} (hp : ∀ i, p i = true → ∃ v, i = .val v) : ∀ (l : List Item) (w : World σ), w.inbox = l →
    Moves P w { w with inbox := l.dropWhile p, log := w.log ++ (l.takeWhile p).map .recv }
  | [], w, h => by
    have : ({ w with inbox := List.dropWhile p [], log := w.log ++ (List.takeWhile p []).map .recv } : World σ) = w := by
      cases w; simp_all
    rw [this]
    exact .refl w
  | i :: l, w, h => by
    cases hi : p i with
    | false =>
      have : ({ w with inbox := List.dropWhile p (i :: l), log := w.log ++ (List.takeWhile p (i :: l)).map .recv } : World σ) = w := by
        cases w; simp_all
      rw [this]
      exact .refl w
    | true =>
      obtain ⟨v, rfl⟩ := hp i hi
      have h1 : Move P w { w with inbox := l, log := w.log ++ [.recv (.val v)] } := by
        have := Move.recv (P := P) w
        simpa [Bolt.recv, nextItem, h, Out.world] using this
      have h2 := steps_read hp l { w with inbox := l, log := w.log ++ [.recv (.val v)] } rfl
      have h3 := Moves.tr h1.one h2
      simpa [List.dropWhile_cons, List.takeWhile_cons, hi] using h3

theorem does_skip : Does P skipIgnored := by
  intro w
  exact steps_read (fun i h => by cases i with | val v => exact ⟨v, rfl⟩ | _ => cases h) _ w rfl

macro "does_step" : tactic => `(tactic| first
  | exact Does.pure _ | exact Does.get _ | exact Does.panic _ | exact Does.send _ | exact Does.recv
  | exact Does.setRow | exact Does.setStmt (fun _ => ⟨rfl, rfl⟩) | exact Does.statement | exact Does.connErr | exact Does.tx | exact does_skip
  | assumption
  | apply Does.withConn
  | refine Does.bind ?_ (fun _ => ?_)
  | apply Does.ite
  | split)

variable {close : M σ (Option GoErr)}

theorem does_reset (hc : Does P close) : Does P (reset P close) := by
  unfold reset; repeat' does_step

theorem does_ack (hc : Does P close) : Does P (ackFailure P close) := by
  have h := does_reset hc
  unfold ackFailure; repeat' does_step

theorem does_consume (hc : Does P close) : Does P (consume P close) := by
  have h := does_ack hc
  unfold consume; repeat' does_step

theorem does_consumeAll (hc : Does P close) : Does P (consumeAll P close) := by
  intro w
  refine Moves.tr (steps_read (p := Item.isPlain) (fun i h => by cases i with | val v => exact ⟨v, rfl⟩ | _ => cases h) _ w rfl) ?_
  have h := does_consume hc
  exact (show Does P (consume P close >>= _) by repeat' does_step) _

theorem does_multiple (hc : Does P close) : ∀ n, Does P (consumeAllMultiple P close n)
  | 0 => Does.pure _
  | n + 1 => by
    have h := does_consumeAll hc
    have ih := does_multiple hc n
    unfold consumeAllMultiple; repeat' does_step

theorem does_sendRun {q : Str} {kvs : KVs} : Does P (sendRun P q kvs) := by unfold sendRun; repeat' does_step
theorem does_sendPullAll : Does P (sendPullAll P) := by unfold sendPullAll; repeat' does_step
theorem does_sendDiscardAll : Does P (sendDiscardAll P) := by unfold sendDiscardAll; repeat' does_step
theorem does_sendRunConsume (hc : Does P close) {q : Str} {kvs : KVs} : Does P (sendRunConsume P close q kvs) := by
  have h1 := does_sendRun (P := P) (q := q) (kvs := kvs)
  have h2 := does_consume hc
  unfold sendRunConsume; repeat' does_step
theorem does_discard (hc : Does P close) : Does P (sendDiscardAllConsume P close) := by
  have h1 := does_sendDiscardAll (P := P)
  have h2 := does_consume hc
  unfold sendDiscardAllConsume; repeat' does_step
theorem does_sendRunPullAll {q : Str} {kvs : KVs} : Does P (sendRunPullAll P q kvs) := by
  have h1 := does_sendRun (P := P) (q := q) (kvs := kvs)
  have h2 := does_sendPullAll (P := P)
  unfold sendRunPullAll; repeat' does_step
theorem does_run (hc : Does P close) {q : Str} {kvs : KVs} : Does P (sendRunPullAllConsumeRun P close q kvs) := by
  have h1 := does_sendRunPullAll (P := P) (q := q) (kvs := kvs)
  have h2 := does_consume hc
  unfold sendRunPullAllConsumeRun; repeat' does_step
theorem does_single (hc : Does P close) {q : Str} {kvs : KVs} : Does P (sendRunPullAllConsumeSingle P close q kvs) := by
  have h1 := does_sendRunPullAll (P := P) (q := q) (kvs := kvs)
  have h2 := does_consume hc
  unfold sendRunPullAllConsumeSingle; repeat' does_step
theorem does_runAll (hc : Does P close) {q : Str} {kvs : KVs} : Does P (sendRunPullAllConsumeAll P close q kvs) := by
  have h1 := does_sendRunPullAll (P := P) (q := q) (kvs := kvs)
  have h2 := does_consume hc
  have h3 := does_consumeAll hc
  unfold sendRunPullAllConsumeAll; repeat' does_step

theorem does_drain (hc : Does P close) (r : Nat) : Does P (rowsDrain P close r) := by
  intro w
  have h1 := does_discard hc
  have h2 := does_multiple hc
  unfold rowsDrain
  simp only
  split
  · exact (show Does P (_ : M σ (Option GoErr)) by repeat' does_step) w
  · split
    · refine (show Does P (_ : M σ (Option GoErr)) from ?_) w
      have h3 := h2 (numConsume (w.stmt (w.row r).stmt).queries.length (w.row r).idx).toNat
      repeat' does_step
    · exact .refl w

theorem does_mark (r : Nat) : Does P (rowsMark r) :=
  fun _ => own_steps rfl rfl rfl rfl rfl rfl rfl id (World.Dead.modify rfl fun _ h => h)

theorem does_rowsClose0 (hc : Does P close) (r : Nat) : Does P (rowsClose0 P close r) := by
  have h1 := does_drain hc r
  have h2 := does_mark (P := P) r
  unfold rowsClose0; repeat' does_step

theorem does_stmtMark (s : Nat) : Does P (stmtMark s) := by
  intro w
  unfold stmtMark
  split
  · exact own_steps rfl rfl rfl rfl rfl rfl rfl id (World.Dead.modify rfl fun _ _ _ => rfl)
  · rename_i hn
    exact own_steps rfl rfl rfl rfl rfl rfl rfl id (World.Dead.shut hn)

theorem does_stmtClose (hc : Does P close) (s : Nat) : Does P (stmtClose P close s) := by
  have h1 := does_rowsClose0 hc
  have h2 := does_stmtMark (P := P) s
  unfold stmtClose
  repeat' first | apply h1 | does_step

theorem does_rowsClose (hc : Does P close) (r : Nat) : Does P (rowsClose P close r) := by
  have h1 := does_drain hc r
  have h2 := does_mark (P := P) r
  have h3 := does_stmtClose hc
  unfold rowsClose
  repeat' first | apply h3 | does_step

theorem does_txFinish (hc : Does P close) (q : Str) (t : Nat) : Does P (txFinish P close q t) := by
  have h1 := does_stmtClose hc
  have h2 := does_single hc (q := q) (kvs := [])
  unfold txFinish
  repeat' first | apply h1 | exact Does.tx (f := fun l => l.set t true) | does_step

theorem does_shut : Does P (M.modify fun w => { w with
          closed := true
          connErr := w.connErr || w.sockCloseErr
          sink := { w.sink with budget := some 0 }
          inbox := [] } : M σ Unit) := fun w => (Move.shut w).one

theorem does_connClose (hc : Does P close) : Does P (connClose P close) := by
  have h1 := does_stmtClose hc
  have h2 := does_txFinish hc qRollback
  unfold connClose
  repeat' first | apply h1 | apply h2 | exact does_shut | does_step

theorem does_closeN : ∀ n, Does P (closeN P n)
  | 0 => fun w => .refl w
  | n + 1 => does_connClose (does_closeN n)

theorem does_newStmt {q : Str} {qs : List Str} : Does P (newStmt q qs) :=
  fun _ => own_steps rfl rfl rfl rfl rfl rfl rfl id (World.Dead.append rfl fun h => nomatch h)
theorem does_newRows {row : Rows} : Does P (newRowsObj row) := fun _ => own_steps rfl rfl rfl rfl rfl rfl rfl id id
theorem does_guardConn : Does P (guardConn : M σ _) := by
  intro w; unfold guardConn; repeat' split
  all_goals exact .refl w
theorem does_guardStmt {s : Nat} : Does P (guardStmt s : M σ _) := by
  intro w; unfold guardStmt; repeat' split
  all_goals exact .refl w

macro "does_call" : tactic => `(tactic| repeat' first | exact does_newStmt | exact does_newRows | exact does_guardConn | exact does_guardStmt | does_step)

theorem does_prepare {q : Str} {qs : List Str} : Does P (prepare q qs : M σ _) := by unfold prepare; does_call

theorem does_stmtExecNeo (hc : Does P close) {s : Nat} {kvs : KVs} : Does P (stmtExecNeo P close s kvs) := by
  have h := fun q => does_runAll hc (q := q) (kvs := kvs)
  unfold stmtExecNeo
  repeat' first | apply h | exact does_guardStmt | does_step

theorem does_sendAll {msg : String} : ∀ l, Does P (sendAll P msg l)
  | [] => Does.pure _
  | (q, ps) :: rest => by
    have h := does_sendRunPullAll (P := P) (q := q) (kvs := ps)
    have ih := does_sendAll (msg := msg) rest
    unfold sendAll; does_call

theorem does_collect (hc : Does P close) : ∀ n, Does P (collect P close n)
  | 0 => Does.pure _
  | n + 1 => by
    have h1 := does_consume hc
    have h2 := does_consumeAll hc
    have ih := does_collect hc n
    unfold collect; does_call

theorem does_stmtExecPipeline (hc : Does P close) {s : Nat} {l : List KVs} : Does P (stmtExecPipeline P close s l) := by
  unfold stmtExecPipeline
  repeat' first | apply does_sendAll | exact does_collect hc _ | exact does_guardStmt | does_step

theorem does_stmtQueryNeo (hc : Does P close) {s : Nat} {kvs : KVs} : Does P (stmtQueryNeo P close s kvs) := by
  unfold stmtQueryNeo
  repeat' first | exact does_sendRunConsume hc | exact does_guardStmt | exact does_newRows | does_step

theorem does_stmtQueryPipeline (hc : Does P close) {s : Nat} {l : List KVs} : Does P (stmtQueryPipeline P close s l) := by
  unfold stmtQueryPipeline
  repeat' first | apply does_sendAll | exact does_consume hc | exact does_guardStmt | exact does_newRows | does_step

theorem does_stmtCloseCurrent (hc : Does P close) : Does P (queryNeo.stmtCloseCurrent P close) := by
  unfold queryNeo.stmtCloseCurrent
  repeat' first | exact does_stmtClose hc _ | does_step

theorem does_queryNeo (hc : Does P close) {q : Str} {kvs : KVs} : Does P (queryNeo P close q kvs) := by
  unfold queryNeo
  repeat' first | exact does_run hc | exact does_stmtCloseCurrent hc | exact does_newStmt | exact does_newRows | exact does_guardConn | does_step

theorem does_nextNeo (hc : Does P close) {r : Nat} : Does P (nextNeo P close r) := by
  unfold nextNeo
  repeat' first | exact does_sendPullAll | exact does_consume hc | does_step

theorem does_allLoop (hc : Does P close) {r : Nat} : ∀ f out, Does P (allLoop P close r f out)
  | 0, _ => fun w => .refl w
  | f + 1, out => by
    have ih := does_allLoop hc (r := r) f
    unfold allLoop
    repeat' first | exact does_nextNeo hc | apply ih | does_step

theorem does_rowsAll (hc : Does P close) {r : Nat} : Does P (rowsAll P close r) := fun w => does_allLoop hc _ _ w

theorem does_queryNeoAll (hc : Does P close) {q : Str} {kvs : KVs} : Does P (queryNeoAll P close q kvs) := by
  unfold queryNeoAll
  repeat' first | exact does_queryNeo hc | exact does_rowsAll hc | exact does_rowsClose hc _ | does_step

theorem does_queryPipeline (hc : Does P close) {qs : List Str} {l : List KVs} : Does P (queryPipeline P close qs l) := by
  unfold queryPipeline
  repeat' first | exact does_stmtQueryPipeline hc | exact does_newStmt | exact does_guardConn | does_step

theorem does_nextPipeline (hc : Does P close) {r : Nat} : Does P (nextPipeline P close r) := by
  unfold nextPipeline pipeHeader
  repeat' first | exact does_consume hc | exact does_newRows | does_step

theorem does_execNeo (hc : Does P close) {q : Str} {kvs : KVs} : Does P (execNeo P close q kvs) := by
  unfold execNeo
  repeat' first | exact does_stmtExecNeo hc | exact does_stmtClose hc _ | exact does_newStmt | exact does_guardConn | does_step

theorem does_execPipeline (hc : Does P close) {qs : List Str} {l : List KVs} : Does P (execPipeline P close qs l) := by
  unfold execPipeline
  repeat' first | exact does_stmtExecPipeline hc | exact does_stmtClose hc _ | exact does_newStmt | exact does_guardConn | does_step

theorem does_begin (hc : Does P close) : Does P (begin_ P close) := by
  unfold begin_
  repeat' first
    | exact does_single hc
    | exact (fun _ => own_steps rfl rfl rfl rfl rfl rfl rfl id id)
    | does_step

/-- Every call but `SetChunkSize` consists of steps. -/
theorem does_op (hc : Does P close) (op : Op) (hn : ∀ n, op ≠ .setChunkSize n) : Does P (op.run P close) := by
  cases op <;> unfold Op.run <;> simp only
  case exec => exact (does_execNeo hc).bind fun _ => Does.pure _
  case query => exact (does_queryNeo hc).bind fun _ => Does.pure _
  case queryAll => repeat' first | exact does_queryNeoAll hc | does_step
  case execPipe => exact (does_execPipeline hc).bind fun _ => Does.pure _
  case queryPipe => exact (does_queryPipeline hc).bind fun _ => Does.pure _
  case prepare => exact does_prepare.bind fun _ => Does.pure _
  case preparePipe => exact does_prepare.bind fun _ => Does.pure _
  case begin => exact (does_begin hc).bind fun _ => Does.pure _
  case stExec => exact (does_stmtExecNeo hc).bind fun _ => Does.pure _
  case stQuery => exact (does_stmtQueryNeo hc).bind fun _ => Does.pure _
  case stExecPipe => exact (does_stmtExecPipeline hc).bind fun _ => Does.pure _
  case stQueryPipe => exact (does_stmtQueryPipeline hc).bind fun _ => Does.pure _
  case next => exact (does_nextNeo hc).bind fun _ => Does.pure _
  case all => exact (does_rowsAll hc).bind fun _ => Does.pure _
  case nextPipe => exact (does_nextPipeline hc).bind fun _ => Does.pure _
  case closeRows => exact does_rowsClose hc _
  case closeStmt => exact does_stmtClose hc _
  case commit => exact does_txFinish hc _ _
  case rollback => exact does_txFinish hc _ _
  case close => exact does_connClose hc
  case setChunkSize n => exact absurd rfl (hn n)

/-- An invariant of the steps and of `SetChunkSize` holds after the calls. -/
theorem made_inv {n : Nat} {I : World σ → Prop} (hs : ∀ {w w'}, I w → Move P w w' → I w') {ops : List Op}
    (hk : ∀ {w} (m : UInt16), .setChunkSize m ∈ ops → I w → I { w with chunkSize := m.toNat }) {w w' : World σ} (h : Made P n w ops w') (h0 : I w) : I w' := by
  have steps : ∀ {w w' : World σ}, Moves P w w' → I w → I w' := by
    intro w w' h h0
    induction h with
    | refl => exact h0
    | tail _ s ih => exact hs ih s
  induction h with
  | nil => exact h0
  | @snoc w1 w2 ops op e _ _ hr ih =>
    have ih := ih (fun m hm => hk m (by simp [hm]))
    by_cases hop : ∃ m, op = .setChunkSize m
    · obtain ⟨m, rfl⟩ := hop
      cases hr
      exact hk m (by simp) ih
    · have h := does_op (does_closeN (P := P) n) op (fun m hm => hop ⟨m, hm⟩) w1
      rw [hr] at h
      exact steps h ih

/-- An invariant of the steps and of `SetChunkSize` holds after any calls. -/
theorem reach_inv {n : Nat} {I : World σ → Prop} (hs : ∀ {w w'}, I w → Move P w w' → I w')
    (hk : ∀ {w} (m : UInt16), I w → I { w with chunkSize := m.toNat }) {w w' : World σ} (h : Reach P n w w') (h0 : I w) : I w' := by
  have steps : ∀ {w w' : World σ}, Moves P w w' → I w → I w' := by
    intro w w' h h0
    induction h with
    | refl => exact h0
    | tail _ s ih => exact hs ih s
  induction h with
  | refl => exact h0
  | @step w1 w2 op e _ _ hr ih =>
    by_cases hop : ∃ m, op = .setChunkSize m
    · obtain ⟨m, rfl⟩ := hop
      cases hr
      exact hk m ih
    · have h := does_op (does_closeN (P := P) n) op (fun m hm => hop ⟨m, hm⟩) w1
      rw [hr] at h
      exact steps h ih

end Bolt
