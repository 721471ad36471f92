import Verif.Proofs.Quiet2
import Verif.Proofs.Ran

/-! What successful closes and ends of transactions have done. -/

namespace Bolt

variable {σ : Type} {P : Peer σ} {close : M σ (Option GoErr)} {w : World σ}

theorem stmtMark_ok {s : Nat} {w' : World σ} (h : stmtMark s w = .ok () w') : w' = w.stmtDone s := by
  unfold stmtMark at h
  split at h
  · cases h; rfl
  · cases h

/-- Inversion of closing a statement. -/
theorem stmtClose_inv {s : Nat} {w' : World σ} (h : stmtClose P close s w = .ok none w') :
    ((w.stmt s).closed = true ∧ w' = w) ∨ ∃ w1, stmtCloseRows P close s w = .ok none w1 ∧ w' = w1.stmtDone s := by
  rw [stmtClose_def] at h
  split at h
  · cases h; rename_i hcl; exact .inl ⟨hcl, rfl⟩
  · obtain ⟨a, w1, h1, h⟩ := run_inv h
    cases a with
    | some e => cases h
    | none =>
      obtain ⟨_, w2, h2, h⟩ := run_inv h
      cases h
      exact .inr ⟨w1, h1, stmtMark_ok h2⟩

theorem stmtClose_done (hc : ∀ w, Inner close w) (hs : Sound w) {s : Nat} (hl : s < w.stmts.length) {w' : World σ} (h : stmtClose P close s w = .ok none w') : (w'.stmt s).closed = true := by
  rcases stmtClose_inv h with ⟨h1, rfl⟩ | ⟨w1, h1, rfl⟩
  · exact h1
  · have hi := (inner_stmtCloseRows hc s w).int hs h1
    show (World.stmt (World.setStmt _ _ _) s).closed = true
    have hl' : s < w1.stmts.length := by rw [hi.nstmts]; exact hl
    rw [stmt_modify, if_pos ⟨rfl, hl'⟩]

theorem rowsClose_done (hc : ∀ w, Inner close w) (ht : Tidy w) {r : Nat} (hl : r < w.rows.length) {w' : World σ} (h : rowsClose P close r w = .ok none w') : (w'.row r).closed = true := by
  obtain ⟨b, _, h1, h⟩ := run_inv h
  cases h1
  split at h
  · cases h; rename_i hcl; exact hcl
  · obtain ⟨a, w1, h1, h⟩ := run_inv h
    cases a with
    | some e => cases h
    | none =>
      have hi := (inner_rowsDrain hc r w).int ht.sound h1
      have ht1 := ht.int hi
      obtain ⟨_, _, h2, h⟩ := run_inv h
      have hm := (inner_rowsMark r w1).int ht1.sound h2
      cases h2
      have hcl : (World.row (w1.rowsDone r) r).closed = true := by
        show (World.row (w1.setRow r _) r).closed = true
        rw [row_modify, if_pos ⟨rfl, by rw [hi.nrows]; exact hl⟩]
      obtain ⟨b, _, h3, h⟩ := run_inv h
      cases h3
      split at h
      · obtain ⟨s, _, h4, h⟩ := run_inv h
        cases h4
        have ht2 := ht1.int hm
        refine ((inner_stmtClose hc ?_).int ht2.sound h).rowc r hcl
        rcases ht2.one (World.row (w1.rowsDone r) r).stmt (ht2.row r (by rw [hm.nrows, hi.nrows]; exact hl)) with h5 | h5
        · exact .inr h5
        · exact .inl (.inl h5)
      · cases h; exact hcl

/-- What a direct query opens. -/
theorem queryNeo_opens {q : Str} {kvs : KVs} {r : Nat} {w' : World σ} (h : queryNeo P close q kvs w = .ok (.ok r) w') :
    r < w'.rows.length ∧ (w'.row r).closed = false ∧ (w'.row r).stmt < w'.stmts.length ∧ (w'.stmt (w'.row r).stmt).closed = false ∧
      (w'.stmt (w'.row r).stmt).rows = some r := by
  obtain ⟨a, w1, h1, h⟩ := run_inv h
  cases a with
  | some e => cases h
  | none =>
    obtain ⟨s, w2, h2, h⟩ := run_inv h
    cases h2
    obtain ⟨_, w3, h3, h⟩ := run_inv h
    cases h3
    obtain ⟨⟨v, e⟩, w4, h4, h⟩ := run_inv h
    cases e with
    | some e =>
      obtain ⟨_, w5, h5, h⟩ := run_inv h
      cases h
    | none =>
      cases v with
      | success md =>
        obtain ⟨b, w5, h5, h6⟩ := run_inv h4
        cases b with
        | some e => cases h6
        | none =>
          have k1 := (consume_keeps h6).1.trans (sendRunPullAll_keeps h5).1
          cases h
          have hrow := row_append w4 { md := md, stmt := w1.stmts.length, closed := false, consumed := true, finished := false, idx := 0, closeStmt := true } w4.rows.length
          rw [if_pos rfl] at hrow
          have hst : World.stmt w4 w1.stmts.length = { query := q, queries := [], conn := true, closed := false, rows := none } := by
            simp [World.stmt, k1]
          refine ⟨by simp [World.setStmt], ?_, ?_, ?_, ?_⟩
          · exact (congrArg Rows.closed hrow).trans rfl
          · rw [show ∀ x f, World.row (World.setStmt x w1.stmts.length f) w4.rows.length = x.row w4.rows.length from fun _ _ => rfl, hrow]
            simp [World.setStmt, k1]
          · rw [show ∀ x f, World.row (World.setStmt x w1.stmts.length f) w4.rows.length = x.row w4.rows.length from fun _ _ => rfl, hrow, stmt_modify, if_pos ⟨rfl, by simp [k1]⟩]
            exact (congrArg Stmt.closed hst).trans rfl
          · rw [show ∀ x f, World.row (World.setStmt x w1.stmts.length f) w4.rows.length = x.row w4.rows.length from fun _ _ => rfl, hrow, stmt_modify, if_pos ⟨rfl, by simp [k1]⟩]
      | _ =>
        obtain ⟨_, w5, h5, h⟩ := run_inv h
        cases h

/-- The messages an exchange must have consisted of when it returned two successes. -/
def Exchange (q : Str) (l : List Event) : Prop :=
  ∃ md md', l = [.send (.run q []) none, .send .pullAll none, .recv (.val (.success md)), .recv (.val (.success md'))]

theorem send_inv {v : Val} {w' : World σ} (h : send P v w = .ok none w') : w'.log = w.log ++ [.send v none] := by
  unfold send at h
  cases h1 : (encodeTo w.chunkSize w.sink v).2 with
  | some e => simp only [h1] at h; cases h
  | none => simp only [h1] at h; cases h; rfl

theorem sendRun_inv {q : Str} {kvs : KVs} {w' : World σ} (h : sendRun P q kvs w = .ok none w') : w'.log = w.log ++ [.send (.run q kvs) none] := by
  obtain ⟨a, w1, h1, h⟩ := run_inv h
  cases a with
  | some e => cases h
  | none => cases h; exact send_inv h1

theorem sendPullAll_inv {w' : World σ} (h : sendPullAll P w = .ok none w') : w'.log = w.log ++ [.send .pullAll none] := by
  obtain ⟨a, w1, h1, h⟩ := run_inv h
  cases a with
  | some e => cases h
  | none => cases h; exact send_inv h1

theorem consume_inv {v : Val} {w' : World σ} (h : consume P close w = .ok (v, none) w') : w'.log = w.log ++ [.recv (.val v)] := by
  obtain ⟨⟨v1, e1⟩, w1, h1, h⟩ := run_inv h
  cases e1 with
  | some e => cases h
  | none =>
    have h2 : w1.log = w.log ++ [.recv (.val v1)] := by
      unfold recv at h1
      simp only at h1
      cases hn : nextItem P w <;> rw [hn] at h1 <;> cases h1
      rfl
    cases v1 with
    | failure md =>
      obtain ⟨a, w2, h3, h4⟩ := run_inv h
      cases a <;> cases h4
    | _ => cases h; exact h2

theorem single_inv {q : Str} {run pull : Val} {w' : World σ} (h : sendRunPullAllConsumeSingle P close q [] w = .ok (run, pull, none) w') :
    w'.log = w.log ++ [.send (.run q []) none, .send .pullAll none, .recv (.val run), .recv (.val pull)] := by
  obtain ⟨a, w1, h1, h⟩ := run_inv h
  cases a with
  | some e => cases h
  | none =>
    obtain ⟨a, w2, h2, h1⟩ := run_inv h1
    cases a with
    | some e => cases h1
    | none =>
      obtain ⟨⟨v, e⟩, w3, h3, h⟩ := run_inv h
      cases e with
      | some e => cases h
      | none =>
        obtain ⟨⟨v', e⟩, w4, h4, h⟩ := run_inv h
        cases e with
        | some e => cases h
        | none =>
          cases h
          rw [consume_inv h4, consume_inv h3, sendPullAll_inv h1, sendRun_inv h2]
          simp

/-- Inversion of Commit and Rollback. -/
theorem txFinish_inv {q : Str} {t : Nat} {w' : World σ} (h : txFinish P close q t w = .ok none w') :
    ∃ w1 w2 md md', closeCurrent P close w = .ok none w1 ∧ sendRunPullAllConsumeSingle P close q [] w1 = .ok (.success md, .success md', none) w2 ∧
      w' = { w2 with transaction := none, txs := w2.txs.set t true } := by
  unfold txFinish at h
  obtain ⟨b, _, h1, h⟩ := run_inv h
  cases h1
  split at h
  · cases h
  · change (closeCurrent P close >>= fun err => match err with | some e => M.pure _ | none => _ : M σ (Option GoErr)) w = _ at h
    obtain ⟨a, w1, h1, h⟩ := run_inv h
    cases a with
    | some e => cases h
    | none =>
      obtain ⟨⟨run, pull, e⟩, w2, h2, h⟩ := run_inv h
      cases e with
      | some e => cases h
      | none =>
        simp only at h
        split at h
        · cases h
        · split at h
          · cases h
          · rename_i hr hp
            cases h
            cases run <;> first | exact absurd rfl hr | skip
            cases pull <;> first | exact absurd rfl hp | skip
            exact ⟨w1, w2, _, _, h1, h2, rfl⟩

theorem txFinish_done (hc : ∀ w, Inner close w) (hs : Sound w) {q : Str} {t : Nat} (hl : t < w.txs.length) {w' : World σ} (h : txFinish P close q t w = .ok none w') :
    w'.txClosed t = true := by
  obtain ⟨w1, w2, md, md', h1, h2, rfl⟩ := txFinish_inv h
  have i1 := (inner_closeCurrent hc w).int hs h1
  have i2 := (inner_sendRunPullAllConsumeSingle hc q [] w1).int (i1.sound hs) h2
  show (w2.txs.set t true)[t]?.getD false = true
  rw [List.getElem?_set_self (by rw [i2.ntxs, i1.ntxs]; exact hl)]
  rfl

end Bolt
