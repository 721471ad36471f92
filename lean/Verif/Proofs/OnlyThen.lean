import Verif.Proofs.GiveUp

/-!
# The driver closes the connection by itself only when a failure cannot be cleared
-/

namespace Bolt
variable {σ : Type} {P : Peer σ} {close : M σ (Option GoErr)}

/-- The outcome has a closed connection only if it was closed before or the server denied something. -/
def Since {α : Type} (w : World σ) (o : Out σ α) : Prop :=
  ∃ l, o.world.log = w.log ++ l ∧ (o.world.closed = true → w.closed = true ∨ Hopeless l)

/-- The call closes the connection only if the server denied something. -/
def Only {α : Type} (x : M σ α) : Prop := ∀ w, Since w (x w)

theorem Since.pre {α : Type} {w w1 : World σ} {o : Out σ α} {l : List Event} (h : Since w1 o) (hl : w1.log = w.log ++ l)
    (hc : w1.closed = true → w.closed = true ∨ Hopeless l) : Since w o := by
  obtain ⟨l', h1, h2⟩ := h
  refine ⟨l ++ l', by rw [h1, hl, List.append_assoc], fun h => ?_⟩
  rcases h2 h with h | h
  · exact (hc h).imp id fun h => h.left l'
  · exact .inr (h.right l)

theorem Since.silent {α : Type} {w : World σ} {o : Out σ α} (hl : o.world.log = w.log) (hc : o.world.closed = w.closed) : Since w o :=
  ⟨[], by rw [hl, List.append_nil], fun h => .inl (hc ▸ h)⟩

theorem Only.bind {α β : Type} {x : M σ α} {f : α → M σ β} (h : Only x) (hf : ∀ a, Only (f a)) : Only (x >>= f) := by
  intro w
  have h := h w
  rw [mbind_run]
  cases hx : x w with
  | ok a w' =>
    rw [hx] at h
    obtain ⟨l, h1, h2⟩ := h
    exact (hf a w').pre h1 h2
  | panic p w' => rw [hx] at h; exact h
  | deep w' => rw [hx] at h; exact h

theorem Only.pure {α : Type} (a : α) : Only (M.pure a : M σ α) := fun _ => .silent rfl rfl
theorem Only.get {α : Type} (f : World σ → α) : Only (M.get f) := fun _ => .silent rfl rfl
theorem Only.panic {α : Type} (p : Panic) : Only (M.panic p : M σ α) := fun _ => .silent rfl rfl
theorem Only.modify {f : World σ → World σ} (hl : ∀ w, (f w).log = w.log) (hc : ∀ w, (f w).closed = w.closed) : Only (M.modify f) :=
  fun w => .silent (hl w) (hc w)
theorem Only.send (v : Val) : Only (Bolt.send P v) := fun w => ⟨_, rfl, .inl⟩
theorem Only.recv : Only (Bolt.recv P) := fun w => by
  obtain ⟨hl, ha, _⟩ := recv_alike (P := P) w
  exact ⟨_, hl, fun h => .inl (ha.closed ▸ h)⟩

theorem Only.withConn {α : Type} {s : Nat} {k : M σ α} (h : Only k) : Only (Bolt.withConn s k) := by
  intro w
  unfold Bolt.withConn
  split
  · exact h w
  · exact Only.panic _ w

theorem Only.ite {α : Type} {c : Prop} [Decidable c] {x y : M σ α} (hx : Only x) (hy : Only y) : Only (if c then x else y) := by
  split
  · exact hx
  · exact hy

/-! ## Failure handling -/

/-- Whatever `close` does, it comes after a denial. -/
theorem since_denied (hd : Does P close) {w w1 w2 : World σ} {l : List Event} (hl : w1.log = w.log ++ l) (hh : Hopeless l) (h2 : w2.log = w1.log)
    {res : Option GoErr} : Since w ((close >>= fun _ => M.pure res) w2 : Out σ (Option GoErr)) := by
  have hm : Moves P w2 ((close >>= fun _ => M.pure res) w2 : Out σ (Option GoErr)).world := (hd.bind fun _ => Does.pure _) w2
  obtain ⟨l', h'⟩ : ∃ l', ((close >>= fun _ => M.pure res) w2 : Out σ (Option GoErr)).world.log = w2.log ++ l' := by
    refine hm.inv (I := fun w' => ∃ l', w'.log = w2.log ++ l') ?_ ⟨[], by simp⟩
    rintro a b ⟨l', hl'⟩ hs
    cases hs with
    | own h1 h2 h3 h4 => exact ⟨l', h4.trans hl'⟩
    | send v => exact ⟨l' ++ [.send v _], by show a.log ++ _ = _; rw [hl', List.append_assoc]⟩
    | recv => exact ⟨l' ++ [_], by rw [(recv_alike a).1, hl', List.append_assoc]⟩
    | shut => exact ⟨l', hl'⟩
  exact ⟨l ++ l', by rw [h', h2, hl, List.append_assoc], fun _ => .inr (hh.left l')⟩

theorem only_reset (hd : Does P close) : Only (reset P close) := by
  intro w
  obtain ⟨e, w1, hs, hl, ha⟩ := send_alike (P := P) .reset w
  unfold reset
  rw [mbind_ok hs]
  cases e with
  | some e => exact ⟨_, hl, fun h => .inl (ha.closed ▸ h)⟩
  | none =>
    obtain ⟨w2, h1, h2, h3, ig, h4, h5⟩ := skip_next (P := P) w1
    simp only
    rw [mbind_ok h1]
    obtain ⟨h6, h7, h8⟩ := recv_alike (P := P) w2
    have hlog : (recv P w2).world.log = w.log ++ ([] ++ .send .reset none :: (ig ++ .recv (nextItem P w2) :: [])) := by
      rw [h6, h5, hl]; simp
    have hcl : (recv P w2).world.closed = w.closed := h7.closed.trans (h2.closed.trans ha.closed)
    rw [mbind_run]
    cases hr : recv P w2 with
    | panic p w3 => rw [hr] at hlog hcl; exact ⟨_, hlog, fun h => .inl (hcl ▸ h)⟩
    | deep w3 => rw [hr] at hlog hcl; exact ⟨_, hlog, fun h => .inl (hcl ▸ h)⟩
    | ok x w3 =>
      obtain ⟨v, e⟩ := x
      rw [hr] at hlog hcl
      obtain ⟨h9, _⟩ := h8 v e w3 hr
      cases e with
      | some e => exact ⟨_, hlog, fun h => .inl (hcl ▸ h)⟩
      | none =>
        have h9 := h9 rfl
        rw [h9] at hlog h3
        have deny : Denies v → Hopeless ([] ++ .send .reset none :: (ig ++ .recv (.val v) :: [])) := .reset h4
        cases v with
        | success md => exact ⟨_, hlog, fun h => .inl (hcl ▸ h)⟩
        | ignored => cases h3
        | failure md => exact since_denied hd hlog (deny ⟨nofun, nofun⟩) rfl
        | _ => exact since_denied hd hlog (deny ⟨nofun, nofun⟩) (w2 := { w3 with connErr := true }) rfl

theorem only_ack (hd : Does P close) : Only (ackFailure P close) := by
  intro w
  obtain ⟨e, w1, hs, hl, ha⟩ := send_alike (P := P) .ackFailure w
  unfold ackFailure
  rw [mbind_ok hs]
  cases e with
  | some e => exact ⟨_, hl, fun h => .inl (ha.closed ▸ h)⟩
  | none =>
    obtain ⟨w2, h1, h2, h3, ig, h4, h5⟩ := skip_next (P := P) w1
    simp only
    rw [mbind_ok h1]
    obtain ⟨h6, h7, h8⟩ := recv_alike (P := P) w2
    have hlog : (recv P w2).world.log = w.log ++ ([] ++ .send .ackFailure none :: (ig ++ .recv (nextItem P w2) :: [])) := by
      rw [h6, h5, hl]; simp
    have hcl : (recv P w2).world.closed = w.closed := h7.closed.trans (h2.closed.trans ha.closed)
    rw [mbind_run]
    cases hr : recv P w2 with
    | panic p w3 => rw [hr] at hlog hcl; exact ⟨_, hlog, fun h => .inl (hcl ▸ h)⟩
    | deep w3 => rw [hr] at hlog hcl; exact ⟨_, hlog, fun h => .inl (hcl ▸ h)⟩
    | ok x w3 =>
      obtain ⟨v, e⟩ := x
      rw [hr] at hlog hcl
      obtain ⟨h9, _⟩ := h8 v e w3 hr
      cases e with
      | some e => exact ⟨_, hlog, fun h => .inl (hcl ▸ h)⟩
      | none =>
        have h9 := h9 rfl
        rw [h9] at hlog h3
        have deny : Denies v → (∀ md, v ≠ .failure md) → Hopeless ([] ++ .send .ackFailure none :: (ig ++ .recv (.val v) :: [])) := .ack h4
        cases v with
        | success md => exact ⟨_, hlog, fun h => .inl (hcl ▸ h)⟩
        | ignored => cases h3
        | failure md => exact (only_reset hd w3).pre hlog fun h => .inl (hcl ▸ h)
        | _ => exact since_denied hd hlog (deny ⟨nofun, nofun⟩ nofun) (w2 := { w3 with connErr := true }) rfl

macro "only_step" : tactic => `(tactic| first
  | exact Only.pure _ | exact Only.get _ | exact Only.panic _ | exact Only.send _ | exact Only.recv
  | exact Only.modify (fun _ => rfl) (fun _ => rfl)
  | assumption
  | apply Only.withConn
  | refine Only.bind ?_ (fun _ => ?_)
  | apply Only.ite
  | split)

theorem only_consume (hd : Does P close) : Only (consume P close) := by
  have h := only_ack hd
  unfold consume; repeat' only_step

theorem only_consumeAll (hd : Does P close) : Only (consumeAll P close) := by
  intro w
  have h := only_consume hd
  exact Since.pre (l := (w.inbox.takeWhile Item.isPlain).map .recv) ((show Only (consume P close >>= _) by repeat' only_step) _) rfl .inl

theorem only_multiple (hd : Does P close) : ∀ n, Only (consumeAllMultiple P close n)
  | 0 => Only.pure _
  | n + 1 => by
    have h := only_consumeAll hd
    have ih := only_multiple hd n
    unfold consumeAllMultiple; repeat' only_step

theorem only_sendRun {q : Str} {kvs : KVs} : Only (sendRun P q kvs) := by unfold sendRun; repeat' only_step
theorem only_sendPullAll : Only (sendPullAll P) := by unfold sendPullAll; repeat' only_step
theorem only_sendDiscardAll : Only (sendDiscardAll P) := by unfold sendDiscardAll; repeat' only_step
theorem only_sendRunConsume (hd : Does P close) {q : Str} {kvs : KVs} : Only (sendRunConsume P close q kvs) := by
  have h1 := only_sendRun (P := P) (q := q) (kvs := kvs)
  have h2 := only_consume hd
  unfold sendRunConsume; repeat' only_step
theorem only_discard (hd : Does P close) : Only (sendDiscardAllConsume P close) := by
  have h1 := only_sendDiscardAll (P := P)
  have h2 := only_consume hd
  unfold sendDiscardAllConsume; repeat' only_step
theorem only_sendRunPullAll {q : Str} {kvs : KVs} : Only (sendRunPullAll P q kvs) := by
  have h1 := only_sendRun (P := P) (q := q) (kvs := kvs)
  have h2 := only_sendPullAll (P := P)
  unfold sendRunPullAll; repeat' only_step
theorem only_run (hd : Does P close) {q : Str} {kvs : KVs} : Only (sendRunPullAllConsumeRun P close q kvs) := by
  have h1 := only_sendRunPullAll (P := P) (q := q) (kvs := kvs)
  have h2 := only_consume hd
  unfold sendRunPullAllConsumeRun; repeat' only_step
theorem only_single (hd : Does P close) {q : Str} {kvs : KVs} : Only (sendRunPullAllConsumeSingle P close q kvs) := by
  have h1 := only_sendRunPullAll (P := P) (q := q) (kvs := kvs)
  have h2 := only_consume hd
  unfold sendRunPullAllConsumeSingle; repeat' only_step
theorem only_runAll (hd : Does P close) {q : Str} {kvs : KVs} : Only (sendRunPullAllConsumeAll P close q kvs) := by
  have h1 := only_sendRunPullAll (P := P) (q := q) (kvs := kvs)
  have h2 := only_consume hd
  have h3 := only_consumeAll hd
  unfold sendRunPullAllConsumeAll; repeat' only_step

theorem only_drain (hd : Does P close) (r : Nat) : Only (rowsDrain P close r) := by
  intro w
  have h1 := only_discard hd
  have h2 := only_multiple hd
  unfold rowsDrain
  simp only
  split
  · exact (show Only (_ : M σ (Option GoErr)) by repeat' only_step) w
  · split
    · refine (show Only (_ : M σ (Option GoErr)) from ?_) w
      have h3 := h2 (numConsume (w.stmt (w.row r).stmt).queries.length (w.row r).idx).toNat
      repeat' only_step
    · exact Only.pure none w

theorem only_mark (r : Nat) : Only (rowsMark r : M σ Unit) := .modify (fun _ => rfl) (fun _ => rfl)

theorem only_rowsClose0 (hd : Does P close) (r : Nat) : Only (rowsClose0 P close r) := by
  have h1 := only_drain hd r
  have h2 := only_mark (σ := σ) r
  unfold rowsClose0; repeat' only_step

theorem only_stmtMark (s : Nat) : Only (stmtMark s : M σ Unit) := by
  intro w
  unfold stmtMark
  split <;> exact .silent rfl rfl

theorem only_stmtClose (hd : Does P close) (s : Nat) : Only (stmtClose P close s) := by
  have h1 := only_rowsClose0 hd
  have h2 := only_stmtMark (σ := σ) s
  unfold stmtClose
  repeat' first | apply h1 | only_step

theorem only_rowsClose (hd : Does P close) (r : Nat) : Only (rowsClose P close r) := by
  have h1 := only_drain hd r
  have h2 := only_mark (σ := σ) r
  have h3 := only_stmtClose hd
  unfold rowsClose
  repeat' first | apply h3 | only_step

theorem only_txFinish (hd : Does P close) (q : Str) (t : Nat) : Only (txFinish P close q t) := by
  have h1 := only_stmtClose hd
  have h2 := only_single hd (q := q) (kvs := [])
  unfold txFinish
  repeat' first | apply h1 | only_step

theorem only_newStmt {q : Str} {qs : List Str} : Only (newStmt q qs : M σ Nat) := fun _ => .silent rfl rfl
theorem only_newRows {row : Rows} : Only (newRowsObj row : M σ Nat) := fun _ => .silent rfl rfl
theorem only_guardConn : Only (guardConn : M σ _) := by
  intro w; unfold guardConn; repeat' split
  all_goals exact .silent rfl rfl
theorem only_guardStmt {s : Nat} : Only (guardStmt s : M σ _) := by
  intro w; unfold guardStmt; repeat' split
  all_goals exact .silent rfl rfl

macro "only_call" : tactic => `(tactic| repeat' first | exact only_newStmt | exact only_newRows | exact only_guardConn | exact only_guardStmt | only_step)

theorem only_prepare {q : Str} {qs : List Str} : Only (prepare q qs : M σ _) := by unfold prepare; only_call

theorem only_stmtExecNeo (hd : Does P close) {s : Nat} {kvs : KVs} : Only (stmtExecNeo P close s kvs) := by
  have h := fun q => only_runAll hd (q := q) (kvs := kvs)
  unfold stmtExecNeo
  repeat' first | apply h | exact only_guardStmt | only_step

theorem only_sendAll {msg : String} : ∀ l, Only (sendAll P msg l)
  | [] => Only.pure _
  | (q, ps) :: rest => by
    have h := only_sendRunPullAll (P := P) (q := q) (kvs := ps)
    have ih := only_sendAll (msg := msg) rest
    unfold sendAll; only_call

theorem only_collect (hd : Does P close) : ∀ n, Only (collect P close n)
  | 0 => Only.pure _
  | n + 1 => by
    have h1 := only_consume hd
    have h2 := only_consumeAll hd
    have ih := only_collect hd n
    unfold collect; only_call

theorem only_stmtExecPipeline (hd : Does P close) {s : Nat} {l : List KVs} : Only (stmtExecPipeline P close s l) := by
  unfold stmtExecPipeline
  repeat' first | apply only_sendAll | exact only_collect hd _ | exact only_guardStmt | only_step

theorem only_stmtQueryNeo (hd : Does P close) {s : Nat} {kvs : KVs} : Only (stmtQueryNeo P close s kvs) := by
  unfold stmtQueryNeo
  repeat' first | exact only_sendRunConsume hd | exact only_guardStmt | exact only_newRows | only_step

theorem only_stmtQueryPipeline (hd : Does P close) {s : Nat} {l : List KVs} : Only (stmtQueryPipeline P close s l) := by
  unfold stmtQueryPipeline
  repeat' first | apply only_sendAll | exact only_consume hd | exact only_guardStmt | exact only_newRows | only_step

theorem only_stmtCloseCurrent (hd : Does P close) : Only (queryNeo.stmtCloseCurrent P close) := by
  unfold queryNeo.stmtCloseCurrent
  repeat' first | exact only_stmtClose hd _ | only_step

theorem only_queryNeo (hd : Does P close) {q : Str} {kvs : KVs} : Only (queryNeo P close q kvs) := by
  unfold queryNeo
  repeat' first | exact only_run hd | exact only_stmtCloseCurrent hd | exact only_newStmt | exact only_newRows | exact only_guardConn | only_step

theorem only_nextNeo (hd : Does P close) {r : Nat} : Only (nextNeo P close r) := by
  unfold nextNeo
  repeat' first | exact only_sendPullAll | exact only_consume hd | only_step

theorem only_allLoop (hd : Does P close) {r : Nat} : ∀ f out, Only (allLoop P close r f out)
  | 0, _ => fun _ => .silent rfl rfl
  | f + 1, out => by
    have ih := only_allLoop hd (r := r) f
    unfold allLoop
    repeat' first | exact only_nextNeo hd | apply ih | only_step

theorem only_rowsAll (hd : Does P close) {r : Nat} : Only (rowsAll P close r) := fun w => only_allLoop hd _ _ w

theorem only_queryNeoAll (hd : Does P close) {q : Str} {kvs : KVs} : Only (queryNeoAll P close q kvs) := by
  unfold queryNeoAll
  repeat' first | exact only_queryNeo hd | exact only_rowsAll hd | exact only_rowsClose hd _ | only_step

theorem only_queryPipeline (hd : Does P close) {qs : List Str} {l : List KVs} : Only (queryPipeline P close qs l) := by
  unfold queryPipeline
  repeat' first | exact only_stmtQueryPipeline hd | exact only_newStmt | exact only_guardConn | only_step

theorem only_nextPipeline (hd : Does P close) {r : Nat} : Only (nextPipeline P close r) := by
  unfold nextPipeline pipeHeader
  repeat' first | exact only_consume hd | exact only_newRows | only_step

theorem only_execNeo (hd : Does P close) {q : Str} {kvs : KVs} : Only (execNeo P close q kvs) := by
  unfold execNeo
  repeat' first | exact only_stmtExecNeo hd | exact only_stmtClose hd _ | exact only_newStmt | exact only_guardConn | only_step

theorem only_execPipeline (hd : Does P close) {qs : List Str} {l : List KVs} : Only (execPipeline P close qs l) := by
  unfold execPipeline
  repeat' first | exact only_stmtExecPipeline hd | exact only_stmtClose hd _ | exact only_newStmt | exact only_guardConn | only_step

theorem only_newTx : Only (fun w : World σ => .ok (.ok w.txs.length : Except GoErr Nat) { w with txs := w.txs ++ [false] }) := fun _ => .silent rfl rfl

theorem only_begin (hd : Does P close) : Only (begin_ P close) := by
  unfold begin_
  repeat' first | exact only_single hd | exact only_newTx | only_step

/-- Every call but `Close`. -/
theorem only_op (hd : Does P close) (op : Op) (hn : op ≠ .close) : Only (op.run P close) := by
  cases op <;> unfold Op.run <;> simp only
  case exec => exact (only_execNeo hd).bind fun _ => Only.pure _
  case query => exact (only_queryNeo hd).bind fun _ => Only.pure _
  case queryAll => repeat' first | exact only_queryNeoAll hd | only_step
  case execPipe => exact (only_execPipeline hd).bind fun _ => Only.pure _
  case queryPipe => exact (only_queryPipeline hd).bind fun _ => Only.pure _
  case prepare => exact only_prepare.bind fun _ => Only.pure _
  case preparePipe => exact only_prepare.bind fun _ => Only.pure _
  case begin => exact (only_begin hd).bind fun _ => Only.pure _
  case stExec => exact (only_stmtExecNeo hd).bind fun _ => Only.pure _
  case stQuery => exact (only_stmtQueryNeo hd).bind fun _ => Only.pure _
  case stExecPipe => exact (only_stmtExecPipeline hd).bind fun _ => Only.pure _
  case stQueryPipe => exact (only_stmtQueryPipeline hd).bind fun _ => Only.pure _
  case next => exact (only_nextNeo hd).bind fun _ => Only.pure _
  case all => exact (only_rowsAll hd).bind fun _ => Only.pure _
  case nextPipe => exact (only_nextPipeline hd).bind fun _ => Only.pure _
  case closeRows => exact only_rowsClose hd _
  case closeStmt => exact only_stmtClose hd _
  case commit => exact only_txFinish hd _ _
  case rollback => exact only_txFinish hd _ _
  case close => exact absurd rfl hn
  case setChunkSize n => exact fun _ => .silent rfl rfl

end Bolt
