import Verif.Spec.Reach
import Verif.Proofs.Run

/-! What no call does, whatever the peer sends. -/

namespace Bolt

variable {σ : Type}

/-- The world an outcome leaves. -/
def Out.world {α : Type} : Out σ α → World σ
  | .ok _ w | .panic _ w | .deep w => w

/-- The socket is closed. -/
def Shut (w : World σ) : Prop := w.closed = true ∧ w.sink.budget = some 0 ∧ w.inbox = []

/-- The current statement is open and attached, there is none once the socket is closed. -/
structure Sound (w : World σ) : Prop where
  good : w.closed = true → Shut w
  alive : ∀ i, w.statement = some i → (w.stmt i).closed = false ∧ (w.stmt i).conn = true
  fin : w.closed = true → w.statement = none

/-- What happens inside a call, apart from allocation. -/
structure Int (w w' : World σ) : Prop where
  nstmts : w'.stmts.length = w.stmts.length
  stmts : ∀ i, (w.stmt i).closed = true → (w'.stmt i).closed = true
  srows : ∀ i, (w.stmt i).rows = none → (w'.stmt i).rows = none
  nrows : w'.rows.length = w.rows.length
  rowc : ∀ r, (w.row r).closed = true → (w'.row r).closed = true
  rows : ∀ r, (w'.row r).stmt = (w.row r).stmt
  ntxs : w'.txs.length = w.txs.length
  txs : ∀ t, w.txClosed t = true → w'.txClosed t = true
  st : w'.statement = w.statement ∨ w'.statement = none
  own : ∀ i, i < w.stmts.length → w.statement = some i → w'.statement = some i ∨ (w'.stmt i).closed = true
  trans : w'.transaction = w.transaction ∨ w'.transaction = none
  closed : w.closed = true → w'.closed = true
  shut : Shut w → Shut w' ∧ (w'.sink.out, w'.srv) = (w.sink.out, w.srv)
  sound : Sound w → Sound w'

theorem Int.refl (w : World σ) : Int w w :=
  ⟨rfl, fun _ h => h, fun _ h => h, rfl, fun _ h => h, fun _ => rfl, rfl, fun _ h => h, .inl rfl, fun _ _ h => .inl h, .inl rfl, fun h => h, fun h => ⟨h, rfl⟩, fun h => h⟩

theorem Int.tr {a b c : World σ} (h : Int a b) (h' : Int b c) : Int a c where
  nstmts := h'.nstmts.trans h.nstmts
  stmts i x := h'.stmts i (h.stmts i x)
  srows i x := h'.srows i (h.srows i x)
  nrows := h'.nrows.trans h.nrows
  rowc i x := h'.rowc i (h.rowc i x)
  rows i := (h'.rows i).trans (h.rows i)
  ntxs := h'.ntxs.trans h.ntxs
  txs i x := h'.txs i (h.txs i x)
  st := by
    rcases h'.st with h1 | h1
    · rcases h.st with h2 | h2
      · exact .inl (h1.trans h2)
      · exact .inr (h1.trans h2)
    · exact .inr h1
  own i hi hs := by
    rcases h.own i hi hs with h1 | h1
    · exact h'.own i (by rw [h.nstmts]; exact hi) h1
    · exact .inr (h'.stmts i h1)
  trans := by
    rcases h'.trans with h1 | h1
    · rcases h.trans with h2 | h2
      · exact .inl (h1.trans h2)
      · exact .inr (h1.trans h2)
    · exact .inr h1
  closed x := h'.closed (h.closed x)
  shut x := ⟨(h'.shut (h.shut x).1).1, (h'.shut (h.shut x).1).2.trans (h.shut x).2⟩
  sound x := h'.sound (h.sound x)

/-- Only the socket side changed. -/
theorem Int.socket {w w' : World σ} (h1 : w'.stmts = w.stmts) (h2 : w'.rows = w.rows) (h3 : w'.txs = w.txs) (h4 : w'.statement = w.statement)
    (h5 : w'.transaction = w.transaction) (h6 : w'.closed = w.closed) (h7 : Shut w → w'.sink = w.sink ∧ w'.inbox = [] ∧ w'.srv = w.srv) : Int w w' where
  nstmts := by rw [h1]
  stmts i h := by unfold World.stmt at *; rw [h1]; exact h
  srows i h := by unfold World.stmt at *; rw [h1]; exact h
  nrows := by rw [h2]
  rowc i h := by unfold World.row at *; rw [h2]; exact h
  rows i := by unfold World.row; rw [h2]
  ntxs := by rw [h3]
  txs i h := by unfold World.txClosed at *; rw [h3]; exact h
  st := .inl h4
  own i _ h := .inl (by rw [h4]; exact h)
  trans := .inl h5
  closed h := by rw [h6]; exact h
  shut h := by
    obtain ⟨h8, h9, h10⟩ := h7 h
    exact ⟨⟨by rw [h6]; exact h.1, by rw [h8]; exact h.2.1, h9⟩, by rw [h8, h10]⟩
  sound h := by
    refine ⟨fun hc => ?_, fun i hi => ?_, fun hc => ?_⟩
    · have h10 := h.good (by rw [← h6]; exact hc)
      obtain ⟨h8, h9, _⟩ := h7 h10
      exact ⟨hc, by rw [h8]; exact h10.2.1, h9⟩
    · unfold World.stmt; rw [h1]; exact h.alive i (by rw [← h4]; exact hi)
    · rw [h4]; exact h.fin (by rw [← h6]; exact hc)

/-- The call does only that. -/
def Inner {α : Type} (x : M σ α) (w : World σ) : Prop := Sound w → Int w (x w).world

theorem Inner.bind {α β : Type} {x : M σ α} {f : α → M σ β} {w : World σ} (h : Inner x w) (hf : ∀ a w', x w = .ok a w' → Inner (f a) w') :
    Inner (x >>= f) w := by
  intro hs
  have h := h hs
  rw [mbind_run]
  cases hx : x w with
  | ok a w' => rw [hx] at h; exact Int.tr h (hf a w' hx (h.sound hs))
  | panic p w' => rw [hx] at h; exact h
  | deep w' => rw [hx] at h; exact h

theorem Inner.of {α : Type} {x : M σ α} {w : World σ} (h : Int w (x w).world) : Inner x w := fun _ => h

theorem Inner.int {α : Type} {x : M σ α} {w w' : World σ} {a : α} (h : Inner x w) (hs : Sound w) (hx : x w = .ok a w') : Int w w' := by
  have h := h hs
  rw [hx] at h
  exact h

theorem Inner.pure {α : Type} (a : α) (w : World σ) : Inner (M.pure a) w := .of (Int.refl w)
theorem Inner.get {α : Type} (f : World σ → α) (w : World σ) : Inner (M.get f) w := .of (Int.refl w)
theorem Inner.panic {α : Type} (p : Panic) (w : World σ) : Inner (M.panic p : M σ α) w := .of (Int.refl w)

/-! ### The socket -/

theorem write_dead (out p : Bytes) : ∃ b, (Sink.write ⟨out, some 0⟩ p) = (⟨out, some 0⟩, b) := by
  unfold Sink.write
  simp only
  by_cases h : p.length ≤ 0
  · have : p = [] := by simpa using h
    subst this
    exact ⟨true, by simp⟩
  · rw [if_neg h]
    exact ⟨false, by simp⟩

theorem encWrite_dead (cs : Nat) (buf out p : Bytes) : ∃ buf' b, Enc.write cs ⟨buf, ⟨out, some 0⟩⟩ p = (⟨buf', ⟨out, some 0⟩⟩, b) := by
  unfold Enc.write
  simp only
  obtain ⟨b1, h1⟩ := write_dead out (be 2 cs)
  obtain ⟨b2, h2⟩ := write_dead out ((buf ++ p).take cs)
  split
  · rw [h1]
    cases b1
    · exact ⟨_, _, rfl⟩
    · simp only [h2]
      exact ⟨_, _, rfl⟩
  · exact ⟨_, _, rfl⟩

theorem encRun_dead (cs : Nat) (out : Bytes) (ps : List Bytes) : ∀ buf, ∃ buf' b, Enc.run cs ⟨buf, ⟨out, some 0⟩⟩ ps = (⟨buf', ⟨out, some 0⟩⟩, b) := by
  induction ps with
  | nil => intro buf; exact ⟨buf, true, rfl⟩
  | cons p ps ih =>
    intro buf
    obtain ⟨buf', b, h⟩ := encWrite_dead cs buf out p
    unfold Enc.run
    rw [h]
    cases b
    · exact ⟨_, _, rfl⟩
    · exact ih buf'

theorem flush_dead (buf out : Bytes) : ∃ buf' b, Enc.flush ⟨buf, ⟨out, some 0⟩⟩ = (⟨buf', ⟨out, some 0⟩⟩, b) := by
  unfold Enc.flush
  simp only
  obtain ⟨b1, h1⟩ := write_dead out (be 2 buf.length)
  obtain ⟨b2, h2⟩ := write_dead out buf
  obtain ⟨b3, h3⟩ := write_dead out EndMessage
  split
  · rename_i w hw
    split at hw
    · rw [h1] at hw
      cases b1
      · simp only [Prod.mk.injEq] at hw; obtain ⟨rfl, _⟩ := hw; exact ⟨_, _, rfl⟩
      · simp only [h2, Prod.mk.injEq] at hw; obtain ⟨rfl, _⟩ := hw; exact ⟨_, _, rfl⟩
    · simp at hw
  · rename_i w hw
    have : w = ⟨out, some 0⟩ := by
      split at hw
      · rw [h1] at hw
        cases b1
        · simp at hw
        · simp only [h2, Prod.mk.injEq] at hw; exact hw.1.symm
      · simp only [Prod.mk.injEq] at hw; exact hw.1.symm
    subst this
    rw [h3]
    cases b3 <;> exact ⟨_, _, rfl⟩

theorem encodeTo_dead (cs : Nat) (out : Bytes) (v : Val) : (encodeTo cs ⟨out, some 0⟩ v).1 = ⟨out, some 0⟩ := by
  unfold encodeTo
  simp only
  obtain ⟨buf, b, h⟩ := encRun_dead cs out (encOps v).writes []
  rw [h]
  cases b
  · rfl
  · simp only
    cases (encOps v).err with
    | some e => rfl
    | none =>
      simp only
      obtain ⟨buf', b', h'⟩ := flush_dead buf out
      rw [h']
      cases b' <;> rfl

variable (P : Peer σ)

theorem inner_send (v : Val) (w : World σ) : Inner (send P v) w := by
  refine .of (Int.socket rfl rfl rfl rfl rfl rfl fun h => ?_)
  have hs : w.sink = ⟨w.sink.out, some 0⟩ := by rw [← h.2.1]
  have he : (encodeTo w.chunkSize w.sink v).1 = w.sink := by
    rw [hs]; exact encodeTo_dead _ _ _
  refine ⟨he, ?_, ?_⟩ <;> simp only [Out.world, send, he, List.drop_length, if_pos, h.2.2, List.append_nil]

theorem inner_recv (w : World σ) : Inner (recv P) w := by
  have key : ∀ b : Bool, Int w { w with inbox := w.inbox.tail, log := w.log ++ [.recv (nextItem P w)], connErr := b } := fun b =>
    Int.socket rfl rfl rfl rfl rfl rfl fun h => ⟨rfl, by simp [h.2.2], rfl⟩
  refine .of ?_
  unfold recv
  simp only
  cases hn : nextItem P w <;> rw [hn] at key <;> exact key _

theorem inner_skip (w : World σ) : Inner (skipIgnored (σ := σ)) w :=
  .of (Int.socket rfl rfl rfl rfl rfl rfl fun h => ⟨rfl, by simp [Out.world, skipIgnored, h.2.2], rfl⟩)

theorem inner_connErr (w : World σ) : Inner (M.modify fun w : World σ => { w with connErr := true }) w :=
  .of (Int.socket rfl rfl rfl rfl rfl rfl fun h => ⟨rfl, h.2.2, rfl⟩)

/-! ### Messages -/

variable {P} {close : M σ (Option GoErr)} (hc : ∀ w, Inner close w)
include hc

theorem inner_reset (w : World σ) : Inner (reset P close) w := by
  unfold reset
  refine (inner_send P _ w).bind fun a w1 _ => ?_
  cases a with
  | some e => exact Inner.pure _ _
  | none =>
    refine (inner_skip w1).bind fun _ w2 _ => (inner_recv P w2).bind fun x w3 _ => ?_
    obtain ⟨v, e⟩ := x
    cases e with
    | some e => exact Inner.pure _ _
    | none =>
      cases v with
      | success md => exact Inner.pure _ _
      | failure md => exact (hc w3).bind fun _ _ _ => Inner.pure _ _
      | _ => exact (inner_connErr w3).bind fun _ w4 _ => (hc w4).bind fun _ _ _ => Inner.pure _ _

theorem inner_ack (w : World σ) : Inner (ackFailure P close) w := by
  unfold ackFailure
  refine (inner_send P _ w).bind fun a w1 _ => ?_
  cases a with
  | some e => exact Inner.pure _ _
  | none =>
    refine (inner_skip w1).bind fun _ w2 _ => (inner_recv P w2).bind fun x w3 _ => ?_
    obtain ⟨v, e⟩ := x
    cases e with
    | some e => exact Inner.pure _ _
    | none =>
      cases v with
      | success md => exact Inner.pure _ _
      | failure md => exact inner_reset hc w3
      | _ => exact (inner_connErr w3).bind fun _ w4 _ => (hc w4).bind fun _ _ _ => Inner.pure _ _

theorem inner_consume (w : World σ) : Inner (consume P close) w := by
  unfold consume
  refine (inner_recv P w).bind fun x w3 _ => ?_
  obtain ⟨v, e⟩ := x
  cases e with
  | some e => exact Inner.pure _ _
  | none =>
    cases v with
    | failure md =>
      refine (inner_ack hc w3).bind fun a _ _ => ?_
      cases a <;> exact Inner.pure _ _
    | _ => exact Inner.pure _ _

theorem inner_consumeAll (w : World σ) : Inner (consumeAll P close) w := by
  have i1 : Int w { w with inbox := w.inbox.dropWhile Item.isPlain, log := w.log ++ (w.inbox.takeWhile Item.isPlain).map .recv } :=
    Int.socket rfl rfl rfl rfl rfl rfl fun h => ⟨rfl, by simp [h.2.2], rfl⟩
  intro hs
  refine i1.tr ?_
  refine ((inner_consume hc _).bind fun x w3 _ => ?_ : Inner _ _) (i1.sound hs)
  obtain ⟨v, e⟩ := x
  cases e <;> exact Inner.pure _ _

theorem inner_consumeMultiple (n : Nat) : ∀ w : World σ, Inner (consumeAllMultiple P close n) w := by
  induction n with
  | zero => intro w; exact Inner.pure _ _
  | succ n ih =>
    intro w
    unfold consumeAllMultiple
    refine (inner_consumeAll hc w).bind fun x w3 _ => ?_
    obtain ⟨v, v', e⟩ := x
    cases e with
    | some e => exact Inner.pure _ _
    | none => exact ih w3

omit hc in
theorem inner_sendRun (q : Str) (kvs : KVs) (w : World σ) : Inner (sendRun P q kvs) w :=
  (inner_send P _ w).bind fun a _ _ => by cases a <;> exact Inner.pure _ _
omit hc in
theorem inner_sendPullAll (w : World σ) : Inner (sendPullAll P) w :=
  (inner_send P _ w).bind fun a _ _ => by cases a <;> exact Inner.pure _ _
omit hc in
theorem inner_sendDiscardAll (w : World σ) : Inner (sendDiscardAll P) w :=
  (inner_send P _ w).bind fun a _ _ => by cases a <;> exact Inner.pure _ _
omit hc in
theorem inner_sendRunPullAll (q : Str) (kvs : KVs) (w : World σ) : Inner (sendRunPullAll P q kvs) w :=
  (inner_sendRun q kvs w).bind fun a w1 _ => by
    cases a with
    | some e => exact Inner.pure _ _
    | none => exact inner_sendPullAll w1

theorem inner_sendRunConsume (q : Str) (kvs : KVs) (w : World σ) : Inner (sendRunConsume P close q kvs) w :=
  (inner_sendRun q kvs w).bind fun a w1 _ => by
    cases a with
    | some e => exact Inner.pure _ _
    | none => exact inner_consume hc w1

theorem inner_sendDiscardAllConsume (w : World σ) : Inner (sendDiscardAllConsume P close) w :=
  (inner_sendDiscardAll w).bind fun a w1 _ => by
    cases a with
    | some e => exact Inner.pure _ _
    | none => exact inner_consume hc w1

theorem inner_sendRunPullAllConsumeRun (q : Str) (kvs : KVs) (w : World σ) : Inner (sendRunPullAllConsumeRun P close q kvs) w :=
  (inner_sendRunPullAll q kvs w).bind fun a w1 _ => by
    cases a with
    | some e => exact Inner.pure _ _
    | none => exact inner_consume hc w1

theorem inner_sendRunPullAllConsumeSingle (q : Str) (kvs : KVs) (w : World σ) : Inner (sendRunPullAllConsumeSingle P close q kvs) w :=
  (inner_sendRunPullAll q kvs w).bind fun a w1 _ => by
    cases a with
    | some e => exact Inner.pure _ _
    | none =>
      refine (inner_consume hc w1).bind fun x w2 _ => ?_
      obtain ⟨v, e⟩ := x
      cases e with
      | some e => exact Inner.pure _ _
      | none => exact (inner_consume hc w2).bind fun x w3 _ => Inner.pure _ _

theorem inner_sendRunPullAllConsumeAll (q : Str) (kvs : KVs) (w : World σ) : Inner (sendRunPullAllConsumeAll P close q kvs) w :=
  (inner_sendRunPullAll q kvs w).bind fun a w1 _ => by
    cases a with
    | some e => exact Inner.pure _ _
    | none =>
      refine (inner_consume hc w1).bind fun x w2 _ => ?_
      obtain ⟨v, e⟩ := x
      cases e with
      | some e => exact Inner.pure _ _
      | none => exact (inner_consumeAll hc w2).bind fun x w3 _ => Inner.pure _ _

/-! ### Closing -/

omit hc in
theorem inner_withConn {α : Type} {s : Nat} {k : M σ α} {w : World σ} (h : Inner k w) : Inner (withConn s k) w := by
  intro hs
  unfold withConn
  split
  · exact h hs
  · exact Int.refl w

theorem inner_rowsDrain (r : Nat) (w : World σ) : Inner (rowsDrain P close r) w := by
  intro hs
  unfold rowsDrain
  simp only
  split
  · refine (Inner.bind (inner_withConn (inner_sendDiscardAllConsume hc w)) fun x w3 _ => ?_ : Inner _ _) hs
    obtain ⟨v, e⟩ := x
    cases e with
    | some e => exact Inner.pure _ _
    | none => cases v <;> exact Inner.pure _ _
  · split
    · show Int w (Out.world ((if numConsume _ _ < 0 then _ else _ : M σ (Option GoErr)) w))
      split
      · exact inner_withConn (Inner.panic _ _) hs
      · refine (Inner.bind (inner_withConn (inner_consumeMultiple hc _ w)) fun x w3 _ => ?_ : Inner _ _) hs
        cases x <;> exact Inner.pure _ _
    · exact Int.refl w

omit hc in
theorem stmt_modify (w : World σ) (s : Nat) (f : Stmt → Stmt) (i : Nat) :
    (w.setStmt s f).stmt i = if s = i ∧ i < w.stmts.length then f (w.stmt i) else w.stmt i := by
  unfold World.setStmt World.stmt
  simp only [List.getElem?_modify]
  by_cases h1 : s = i
  · by_cases h2 : i < w.stmts.length
    · simp [h1, h2]
    · simp [h1, h2, List.getElem?_eq_none (Nat.le_of_not_lt h2)]
  · simp [h1]

omit hc in
theorem row_modify (w : World σ) (s : Nat) (f : Rows → Rows) (i : Nat) :
    (w.setRow s f).row i = if s = i ∧ i < w.rows.length then f (w.row i) else w.row i := by
  unfold World.setRow World.row
  simp only [List.getElem?_modify]
  by_cases h1 : s = i
  · by_cases h2 : i < w.rows.length
    · simp [h1, h2]
    · simp [h1, h2, List.getElem?_eq_none (Nat.le_of_not_lt h2)]
  · simp [h1]

omit hc in
/-- Fields of one statement change, not to unclosed. -/
theorem Int.setStmt (w : World σ) (s : Nat) (f : Stmt → Stmt) (hf : ∀ x, (f x).closed = x.closed) (hk : ∀ x, (f x).conn = x.conn)
    (hg : ∀ x, x.rows = none → (f x).rows = none) : Int w (w.setStmt s f) where
  nstmts := by simp [World.setStmt]
  stmts i h := by rw [stmt_modify]; split <;> first | exact (hf _).trans h | exact h
  srows i h := by rw [stmt_modify]; split <;> first | exact hg _ h | exact h
  nrows := rfl
  rowc i h := h
  rows i := rfl
  ntxs := rfl
  txs i h := h
  st := .inl rfl
  own i _ h := .inl h
  trans := .inl rfl
  closed h := h
  shut h := ⟨h, rfl⟩
  sound h := ⟨h.good, fun i hi => by rw [stmt_modify]; split <;> first | exact ⟨(hf _).trans (h.alive i hi).1, (hk _).trans (h.alive i hi).2⟩ | exact h.alive i hi, h.fin⟩

omit hc in
/-- Fields of one rows object change, not to unclosed. -/
theorem Int.setRow (w : World σ) (s : Nat) (f : Rows → Rows) (hf : ∀ x, x.closed = true → (f x).closed = true) (hs : ∀ x, (f x).stmt = x.stmt) :
    Int w (w.setRow s f) where
  nstmts := rfl
  stmts i h := h
  srows i h := h
  nrows := by simp [World.setRow]
  rowc i h := by rw [row_modify]; split <;> first | exact hf _ h | exact h
  rows i := by rw [row_modify]; split <;> first | exact hs _ | exact rfl
  ntxs := rfl
  txs i h := h
  st := .inl rfl
  own i _ h := .inl h
  trans := .inl rfl
  closed h := h
  shut h := ⟨h, rfl⟩
  sound h := ⟨h.good, h.alive, h.fin⟩

omit hc in
theorem inner_rowsMark (r : Nat) (w : World σ) : Inner (rowsMark r) w := by
  refine .of (Int.tr (b := w.setRow r fun x => { x with closed := true }) ?_ ?_)
  · exact Int.setRow w r _ (fun _ _ => rfl) (fun _ => rfl)
  · exact Int.setStmt _ _ _ (fun _ => rfl) (fun _ => rfl) (fun _ _ => rfl)

theorem inner_rowsClose0 (r : Nat) (w : World σ) : Inner (rowsClose0 P close r) w := by
  refine (Inner.get _ w).bind fun b w0 h0 => ?_
  split
  · exact Inner.pure _ _
  · refine (inner_rowsDrain hc r w0).bind fun a w1 _ => ?_
    cases a with
    | some e => exact Inner.pure _ _
    | none => exact (inner_rowsMark r w1).bind fun _ _ _ => Inner.pure _ _

/-- The statement may be closed without detaching another one. -/
def Mine (s : Nat) (w : World σ) : Prop := w.statement = some s ∨ w.statement = none

omit hc in
theorem Mine.int {s : Nat} {w w' : World σ} (h : Mine s w) (hi : Int w w') : Mine s w' := by
  rcases hi.st with h1 | h1
  · unfold Mine; rw [h1]; exact h
  · exact .inr h1

omit hc in
theorem inner_stmtMark {s : Nat} {w : World σ} (h' : Mine s w) : Inner (stmtMark s) w := by
  intro hs
  unfold stmtMark
  split
  · refine
      { nstmts := by simp [Out.world, World.setStmt], stmts := fun i hi => ?_, srows := fun i hi => ?_, nrows := rfl, rowc := fun _ h => h, rows := fun _ => rfl, ntxs := rfl,
        txs := fun _ h => h, st := .inr rfl, own := fun i hi hs => ?_, trans := .inl rfl, closed := fun h => h, shut := fun h => ⟨h, rfl⟩,
        sound := fun h => ⟨h.good, fun i hi => (nomatch hi), fun _ => rfl⟩ }
    · show ((World.setStmt { w with statement := none } s _).stmt i).closed = true
      rw [stmt_modify]; split <;> first | rfl | exact hi
    · show ((World.setStmt { w with statement := none } s _).stmt i).rows = none
      rw [stmt_modify]; split <;> exact hi
    · refine .inr ?_
      show ((World.setStmt { w with statement := none } s _).stmt i).closed = true
      have : s = i := by
        rcases h' with h' | h' <;> rw [h'] at hs <;> cases hs; rfl
      rw [stmt_modify, if_pos ⟨this, hi⟩]
  · rename_i hconn
    have hne : ∀ i, w.statement = some i → i ≠ s := fun i hi e => hconn (by rw [← e]; exact (hs.alive i hi).2)
    refine
      { nstmts := by simp [Out.world, World.setStmt], stmts := fun i hi => ?_, srows := fun i hi => ?_, nrows := rfl, rowc := fun _ h => h, rows := fun _ => rfl, ntxs := rfl,
        txs := fun _ h => h, st := .inl rfl, own := fun i hi hs => .inl hs, trans := .inl rfl, closed := fun h => h, shut := fun h => ⟨h, rfl⟩,
        sound := fun h => ⟨h.good, fun i hi => ?_, h.fin⟩ }
    · show ((World.setStmt w s _).stmt i).closed = true
      rw [stmt_modify]; split <;> first | rfl | exact hi
    · show ((World.setStmt w s _).stmt i).rows = none
      rw [stmt_modify]; split <;> exact hi
    · show ((World.setStmt w s _).stmt i).closed = false ∧ ((World.setStmt w s _).stmt i).conn = true
      rw [stmt_modify, if_neg (fun e => hne i hi e.1.symm)]
      exact h.alive i hi

/-- What happens before the statement is marked closed. -/
def stmtCloseRows (P : Peer σ) (close : M σ (Option GoErr)) (s : Nat) : M σ (Option GoErr) := do
  match ← M.get fun w => (w.stmt s).rows with
  | none => M.pure none
  | some r =>
    if ← M.get fun w => (w.row r).closeStmt then M.pure none
    else rowsClose0 P close r

omit hc in
theorem stmtClose_def (P : Peer σ) (close : M σ (Option GoErr)) (s : Nat) (w : World σ) : stmtClose P close s w =
    if (w.stmt s).closed then .ok none w else
      (stmtCloseRows P close s >>= fun
        | some e => M.pure (some e)
        | none => stmtMark s >>= fun _ => M.pure none) w := by
  unfold stmtClose
  show (if (w.stmt s).closed = true then _ else _ : M σ (Option GoErr)) w = _
  split <;> rfl

theorem inner_stmtCloseRows (s : Nat) (w : World σ) : Inner (stmtCloseRows P close s) w := by
  refine (Inner.get _ w).bind fun b w0 h0 => ?_
  cases b with
  | none => exact Inner.pure _ _
  | some r =>
    refine (Inner.get _ w0).bind fun b w1 _ => ?_
    split
    · exact Inner.pure _ _
    · exact inner_rowsClose0 hc r w1

theorem inner_stmtClose {s : Nat} {w : World σ} (h : Mine s w ∨ (w.stmt s).closed = true) : Inner (stmtClose P close s) w := by
  intro hs
  rw [stmtClose_def]
  split
  · exact Int.refl w
  · rename_i hn
    have h := h.resolve_right hn
    refine ((inner_stmtCloseRows hc s w).bind fun a w1 h1 => ?_ : Inner _ _) hs
    cases a with
    | some e => exact Inner.pure _ _
    | none => exact (inner_stmtMark (h.int ((inner_stmtCloseRows hc (P := P) s w).int hs h1))).bind fun _ _ _ => Inner.pure _ _

/-- `if c.statement != nil { err = c.statement.Close() }` -/
def closeCurrent (P : Peer σ) (close : M σ (Option GoErr)) : M σ (Option GoErr) := do
  match ← M.get fun w => w.statement with
  | none => M.pure none
  | some s => stmtClose P close s

theorem inner_closeCurrent (w : World σ) : Inner (closeCurrent P close) w := by
  intro hs
  unfold closeCurrent
  show Int w (Out.world ((match w.statement with | none => M.pure none | some s => stmtClose P close s : M σ (Option GoErr)) w))
  cases h : w.statement with
  | none => exact Int.refl w
  | some s => exact inner_stmtClose hc (.inl (.inl h)) hs

omit hc in
theorem int_txDone (t : Nat) (w : World σ) : Int w { w with transaction := none, txs := w.txs.set t true } where
  nstmts := rfl
  stmts i h := h
  srows i h := h
  nrows := rfl
  rowc i h := h
  rows i := rfl
  ntxs := by simp
  txs i h := by
    show (w.txs.set t true)[i]?.getD false = true
    unfold World.txClosed at h
    rw [List.getElem?_set]
    split
    · split
      · rfl
      · rename_i h1 h2; rw [← h1, List.getElem?_eq_none (Nat.le_of_not_lt h2)] at h; exact h
    · exact h
  st := .inl rfl
  own i _ h := .inl h
  trans := .inr rfl
  closed h := h
  shut h := ⟨h, rfl⟩
  sound h := ⟨h.good, h.alive, h.fin⟩

omit hc in
theorem inner_txDone (t : Nat) (w : World σ) : Inner (M.modify fun w : World σ => { w with transaction := none, txs := w.txs.set t true }) w :=
  .of (int_txDone t w)

theorem inner_txFinish (q : Str) (t : Nat) (w : World σ) : Inner (txFinish P close q t) w := by
  unfold txFinish
  refine (Inner.get _ w).bind fun b w0 h0 => ?_
  split
  · exact Inner.pure _ _
  · refine Inner.bind (inner_closeCurrent hc w0) fun a w1 _ => ?_
    cases a with
    | some e => exact Inner.pure _ _
    | none =>
      refine (inner_sendRunPullAllConsumeSingle hc q [] w1).bind fun x w2 _ => ?_
      obtain ⟨run, pull, e⟩ := x
      cases e with
      | some e => exact Inner.pure _ _
      | none =>
        simp only
        split
        · exact Inner.pure _ _
        · split
          · exact Inner.pure _ _
          · exact (inner_txDone t w2).bind fun _ _ _ => Inner.pure _ _

omit hc in
/-- Closing the socket. -/
theorem int_shut (w : World σ) (hn : w.statement = none) : Int w { w with
          closed := true
          connErr := w.connErr || w.sockCloseErr
          sink := { w.sink with budget := some 0 }
          inbox := [] } where
  nstmts := rfl
  stmts i h := h
  srows i h := h
  nrows := rfl
  rowc i h := h
  rows i := rfl
  ntxs := rfl
  txs i h := h
  st := .inl rfl
  own i _ h := .inl h
  trans := .inl rfl
  closed h := rfl
  shut h := ⟨⟨rfl, rfl, rfl⟩, rfl⟩
  sound h := ⟨fun _ => ⟨rfl, rfl, rfl⟩, h.alive, fun _ => hn⟩

omit hc in
theorem inner_shut (w : World σ) (hn : w.statement = none) : Inner (M.modify fun w : World σ => { w with
          closed := true
          connErr := w.connErr || w.sockCloseErr
          sink := { w.sink with budget := some 0 }
          inbox := [] }) w := .of (int_shut w hn)

omit hc in
/-- A statement closed without error is closed. -/
theorem stmtClose_ok {s : Nat} {w w' : World σ} (hw : w.statement = some s) (hs : Sound w) (h : stmtClose P close s w = .ok none w') :
    w'.statement = none := by
  rw [stmtClose_def, if_neg (by rw [(hs.alive s hw).1]; simp)] at h
  rw [mbind_run] at h
  cases hx : stmtCloseRows P close s w with
  | panic p w1 => rw [hx] at h; cases h
  | deep w1 => rw [hx] at h; cases h
  | ok a w1 =>
    rw [hx] at h
    cases a with
    | some e => cases h
    | none =>
      simp only [mbind_run] at h
      unfold stmtMark at h
      by_cases hconn : (w1.stmt s).conn = true
      · rw [if_pos hconn] at h; cases h; rfl
      · rw [if_neg hconn] at h; cases h

omit hc in
theorem closeCurrent_ok {w w' : World σ} (hs : Sound w) (h : closeCurrent P close w = .ok none w') : w'.statement = none := by
  unfold closeCurrent at h
  change (match w.statement with | none => M.pure none | some s => stmtClose P close s : M σ (Option GoErr)) w = _ at h
  cases hw : w.statement with
  | none => rw [hw] at h; cases h; exact hw
  | some s => rw [hw] at h; exact stmtClose_ok hw hs h

omit hc in
theorem Int.none {w w' : World σ} (h : Int w w') (hn : w.statement = none) : w'.statement = none :=
  h.st.elim (fun e => e.trans hn) id

/-- `if c.transaction != nil { err = c.transaction.Rollback() }` -/
def rollbackCurrent (P : Peer σ) (close : M σ (Option GoErr)) : M σ (Option GoErr) := do
  match ← M.get fun w => w.transaction with
  | none => M.pure none
  | some t => txFinish P close qRollback t

theorem inner_rollbackCurrent (w : World σ) : Inner (rollbackCurrent P close) w := by
  refine (Inner.get _ w).bind fun b w2 h0 => ?_
  cases b with
  | none => exact Inner.pure _ _
  | some t => exact inner_txFinish hc _ t w2

theorem inner_connClose (w : World σ) : Inner (connClose P close) w := by
  intro hs
  unfold connClose
  refine ((Inner.get _ w).bind fun b w0 h0 => ?_ : Inner _ _) hs
  cases h0
  split
  · exact Inner.pure _ _
  · refine Inner.bind (inner_closeCurrent hc w) fun a w1 h1 => ?_
    cases a with
    | some e => exact Inner.pure _ _
    | none =>
      have n1 := closeCurrent_ok hs h1
      refine Inner.bind (inner_rollbackCurrent hc w1) fun a w2 h2 => ?_
      intro hs2
      have n2 := ((inner_rollbackCurrent hc w1).int ((inner_closeCurrent hc w).int hs h1 |>.sound hs) h2).none n1
      refine (?_ : Inner _ _) hs2
      cases a with
      | some e => exact Inner.pure _ _
      | none =>
        refine (inner_shut w2 n2).bind fun _ w3 _ => (Inner.get _ w3).bind fun b w4 h0 => ?_
        split <;> exact Inner.pure _ _

omit hc in
theorem inner_closeN (n : Nat) : ∀ w : World σ, Inner (closeN P n) w := by
  induction n with
  | zero => intro w; exact .of (Int.refl w)
  | succ n ih => exact fun w => inner_connClose ih w

end Bolt
