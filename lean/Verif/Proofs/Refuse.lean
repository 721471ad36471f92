import Verif.Proofs.Safety2

/-! Calls that are refused before anything happens. -/

namespace Bolt

variable {σ : Type} {P : Peer σ} {close : M σ (Option GoErr)} {w : World σ}

theorem guardConn_refuses (h : w.statement.isSome = true ∨ w.closed = true) : ∃ e, guardConn w = .ok (some e) w := by
  rcases guardConn_cases w with h1 | ⟨_, h2, h3⟩
  · exact h1
  · rcases h with h | h
    · rw [h2] at h; cases h
    · rw [h3] at h; cases h

theorem guardStmt_refuses {s : Nat} (h : (w.stmt s).closed = true ∨ (w.stmt s).rows.isSome = true) : ∃ e, guardStmt s w = .ok (some e) w := by
  rcases guardStmt_cases s w with h1 | ⟨_, h2, h3⟩
  · exact h1
  · rcases h with h | h
    · rw [h2] at h; cases h
    · rw [h3] at h; cases h

theorem begin_refuses (h : w.statement.isSome = true ∨ w.closed = true) : ∃ e, begin_ P close w = .ok (.error e) w := by
  unfold begin_
  show ∃ e, (if w.transaction.isSome = true then _ else _ : M σ (Except GoErr Nat)) w = _
  by_cases h1 : w.transaction.isSome = true
  · rw [if_pos h1]; exact ⟨_, rfl⟩
  · rw [if_neg h1]
    show ∃ e, (if w.statement.isSome = true then _ else _ : M σ (Except GoErr Nat)) w = _
    by_cases h2 : w.statement.isSome = true
    · rw [if_pos h2]; exact ⟨_, rfl⟩
    · rw [if_neg h2]
      show ∃ e, (if w.closed = true then _ else _ : M σ (Except GoErr Nat)) w = _
      rw [if_pos (h.resolve_left h2)]; exact ⟨_, rfl⟩

theorem refused_conn {n : Nat} {op : Op} (ho : op.opens = some none) (h : w.statement.isSome = true ∨ w.closed = true) : op.Refused P n w := by
  obtain ⟨e, hg⟩ := guardConn_refuses h
  cases op with
  | exec q kvs => exact ⟨e, (mbind_ok (show execNeo P (closeN P n) q kvs w = .ok (.error e) w from (mbind_ok hg).trans rfl)).trans rfl⟩
  | query q kvs => exact ⟨e, (mbind_ok (show queryNeo P (closeN P n) q kvs w = .ok (.error e) w from (mbind_ok hg).trans rfl)).trans rfl⟩
  | queryAll q kvs =>
    have h1 : queryNeo P (closeN P n) q kvs w = .ok (.error e) w := (mbind_ok hg).trans rfl
    exact ⟨e, (mbind_ok (show queryNeoAll P (closeN P n) q kvs w = .ok (.error e) w from (mbind_ok h1).trans rfl)).trans rfl⟩
  | execPipe q l => exact ⟨e, (mbind_ok (show execPipeline P (closeN P n) q l w = .ok (.error e) w from (mbind_ok hg).trans rfl)).trans rfl⟩
  | queryPipe q l => exact ⟨e, (mbind_ok (show queryPipeline P (closeN P n) q l w = .ok (.error e) w from (mbind_ok hg).trans rfl)).trans rfl⟩
  | prepare q => exact ⟨e, (mbind_ok (show prepare q [] w = .ok (.error e) w from (mbind_ok hg).trans rfl)).trans rfl⟩
  | preparePipe q => exact ⟨e, (mbind_ok (show prepare [] q w = .ok (.error e) w from (mbind_ok hg).trans rfl)).trans rfl⟩
  | begin => obtain ⟨e, he⟩ := begin_refuses (P := P) (close := closeN P n) h; exact ⟨e, mbind_ok he⟩
  | _ => cases ho

theorem refused_stmt {n s : Nat} {op : Op} (ho : op.opens = some (some s)) (h : (w.stmt s).closed = true ∨ (w.stmt s).rows.isSome = true) : op.Refused P n w := by
  obtain ⟨e, hg⟩ := guardStmt_refuses h
  cases op with
  | stExec s' kvs => cases ho; exact ⟨e, (mbind_ok (show stmtExecNeo P (closeN P n) s kvs w = .ok (.error e) w from (mbind_ok hg).trans rfl)).trans rfl⟩
  | stQuery s' kvs => cases ho; exact ⟨e, (mbind_ok (show stmtQueryNeo P (closeN P n) s kvs w = .ok (.error e) w from (mbind_ok hg).trans rfl)).trans rfl⟩
  | stExecPipe s' l => cases ho; exact ⟨e, (mbind_ok (show stmtExecPipeline P (closeN P n) s l w = .ok (.error e) w from (mbind_ok hg).trans rfl)).trans rfl⟩
  | stQueryPipe s' l => cases ho; exact ⟨e, (mbind_ok (show stmtQueryPipeline P (closeN P n) s l w = .ok (.error e) w from (mbind_ok hg).trans rfl)).trans rfl⟩
  | _ => cases ho

theorem nextNeo_refuses {r : Nat} (h : (w.row r).closed = true) : nextNeo P close r w = .ok (none, none, some (.new "Rows are already closed")) w := by
  unfold nextNeo
  show (if (w.row r).closed = true then _ else _ : M σ _) w = _
  rw [if_pos h]; rfl

theorem nextPipeline_refuses {r : Nat} (h : (w.row r).closed = true) :
    nextPipeline P close r w = .ok ⟨none, none, none, some (.new "Rows are already closed")⟩ w := by
  unfold nextPipeline
  show (if (w.row r).closed = true then _ else _ : M σ _) w = _
  rw [if_pos h]; rfl

theorem refused_rows {n r : Nat} {op : Op} (ho : op.reads = some r) (h : (w.row r).closed = true) : op.Refused P n w := by
  cases op with
  | next r' => cases ho; exact ⟨_, mbind_ok (nextNeo_refuses h)⟩
  | all r' =>
    cases ho
    refine ⟨.new "Rows are already closed", mbind_ok (a := ([], none, _)) ?_⟩
    unfold rowsAll
    exact (mbind_ok (nextNeo_refuses h)).trans rfl
  | nextPipe r' => cases ho; exact ⟨_, mbind_ok (nextPipeline_refuses h)⟩
  | _ => cases ho

theorem txFinish_refuses {q : Str} {t : Nat} (h : w.txClosed t = true) : txFinish P close q t w = .ok (some (.new "Transaction already closed")) w := by
  unfold txFinish
  show (if w.txClosed t = true then _ else _ : M σ _) w = _
  rw [if_pos h]; rfl

theorem connClose_again (h : w.closed = true) : connClose P close w = .ok none w := by
  unfold connClose
  show (if w.closed = true then _ else _ : M σ _) w = _
  rw [if_pos h]; rfl

/-- A successful Close has closed the socket. -/
theorem connClose_ok {w' : World σ} (h : connClose P close w = .ok none w') : w'.closed = true := by
  unfold connClose at h
  change (if w.closed = true then M.pure none else _ : M σ (Option GoErr)) w = _ at h
  by_cases hcl : w.closed = true
  · rw [if_pos hcl] at h; cases h; exact hcl
  · rw [if_neg hcl] at h
    change (closeCurrent P close >>= fun err => match err with | some e => M.pure (some e) | none => _ : M σ (Option GoErr)) w = _ at h
    rw [mbind_run] at h
    cases h1 : closeCurrent P close w with
    | panic p w1 => rw [h1] at h; cases h
    | deep w1 => rw [h1] at h; cases h
    | ok a w1 =>
      rw [h1] at h
      cases a with
      | some e => cases h
      | none =>
        change (rollbackCurrent P close >>= fun err => match err with | some e => _ | none => _ : M σ (Option GoErr)) w1 = _ at h
        rw [mbind_run] at h
        cases h2 : rollbackCurrent P close w1 with
        | panic p w2 => rw [h2] at h; cases h
        | deep w2 => rw [h2] at h; cases h
        | ok a w2 =>
          rw [h2] at h
          cases a with
          | some e => cases h
          | none =>
            change (if w2.sockCloseErr = true then M.pure (some GoErr.badConn) else M.pure none : M σ (Option GoErr)) _ = _ at h
            by_cases hs : w2.sockCloseErr = true
            · rw [if_pos hs] at h; cases h
            · rw [if_neg hs] at h; cases h; rfl

end Bolt
