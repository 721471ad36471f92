import Verif.Spec.Commands
import Verif.Proofs.Gone
import Verif.Props.Tenant
import Verif.Props.Session6
import Verif.Props.Pool1

/-!
# A pooled connection after its user closed it (C71)

C71 is false: the connection object stays usable and writes to the socket that may by then be another user's. What holds is
that the statements handed out before are dead.
-/

namespace Bolt
open PackStream

/-- C71 for statements, any peer, any calls before: after a `Close` that returned nil and gave the connection back to the
pool, Exec, Query and the pipelines of every statement handed out before return an error and do nothing. Missing: the
calls on the connection, rows (`c71_rows_partial`) and transactions (`c71_tx_false`). -/
theorem c71_statements_partial {σ : Type} {P : Peer σ} {n : Nat} {w0 w w1 w2 : World σ} (h0 : NewConn w0) (hr : PoolReach P n w0 w)
    (hc : pooledClose P (pooledN P n) w = .ok none w1) (hh : handOver w1 = some w2) {s : Nat} (hs : s < w1.stmts.length) {op : Op} (ho : op.opens = some (some s)) :
    ∃ e, op.run P (pooledN P n) w1 = .ok (some e) w1 := by
  have e : w1 = w2 := by
    unfold handOver at hh
    split at hh <;> cases hh
    rfl
  subst e
  obtain ⟨e, hg⟩ := guardStmt_refuses (.inl ((c69_clean h0 hr hc hh).2.2.2 s hs))
  refine ⟨e, ?_⟩
  cases op with
  | stExec s' kvs => cases ho; exact (mbind_ok (show stmtExecNeo P (pooledN P n) s kvs w1 = .ok (.error e) w1 from (mbind_ok hg).trans rfl)).trans rfl
  | stQuery s' kvs => cases ho; exact (mbind_ok (show stmtQueryNeo P (pooledN P n) s kvs w1 = .ok (.error e) w1 from (mbind_ok hg).trans rfl)).trans rfl
  | stExecPipe s' l => cases ho; exact (mbind_ok (show stmtExecPipeline P (pooledN P n) s l w1 = .ok (.error e) w1 from (mbind_ok hg).trans rfl)).trans rfl
  | stQueryPipe s' l => cases ho; exact (mbind_ok (show stmtQueryPipeline P (pooledN P n) s l w1 = .ok (.error e) w1 from (mbind_ok hg).trans rfl)).trans rfl
  | _ => cases ho

example : ∃ w w1 w2 : World Unit, PoolReach yes 1 yesConn w ∧ pooledClose yes (pooledN yes 1) w = .ok none w1 ∧ handOver w1 = some w2 ∧
    ∃ e, Op.run yes (pooledN yes 1) (.stExec 0 []) w1 = .ok (some e) w1 := by
  have h0 : NewConn yesConn := ⟨rfl, rfl, rfl, rfl, rfl, rfl⟩
  have hr := (PoolReach.refl (P := yes) (n := 1) yesConn).call (op := .prepare [65]) trivial (by simp) rfl
  exact ⟨_, _, _, hr, rfl, rfl, c71_statements_partial h0 hr rfl rfl (s := 0) (Nat.le_of_ble_eq_true rfl) rfl⟩

/-- C71 for rows, any peer, any calls before: after a `Close` that returned nil and gave the connection back to the pool,
NextNeo, All, NextPipeline and Close of every rows object and Close of every statement handed out before write nothing to
the socket, read nothing from it and log nothing, whether they return, panic or not. Missing: the calls on the connection
and on transactions. -/
theorem c71_rows_partial {σ : Type} {P : Peer σ} {n : Nat} {w0 w w1 w2 : World σ} (h0 : NewConn w0) (hr : PoolReach P n w0 w)
    (hc : pooledClose P (pooledN P n) w = .ok none w1) (hh : handOver w1 = some w2) {op : Op}
    (ho : (∃ r, op = .next r ∨ op = .all r ∨ op = .nextPipe r ∨ op = .closeRows r) ∨ ∃ s, op = .closeStmt s) :
    (op.run P (pooledN P n) w1).world.sink = w1.sink ∧ (op.run P (pooledN P n) w1).world.inbox = w1.inbox ∧
      (op.run P (pooledN P n) w1).world.srv = w1.srv ∧ (op.run P (pooledN P n) w1).world.log = w1.log := by
  have e : w1 = w2 := by
    unfold handOver at hh
    split at hh <;> cases hh
    rfl
  subst e
  have hd : w1.Dead := (PoolReach.close hr hc).dead (by intro x hx; rw [h0.stmts] at hx; cases hx)
  have hcut : w1.Cut := .of hd (c69_clean h0 hr hc hh).2.2.2
  have key : Mute (op.run P (pooledN P n)) := by
    rcases ho with ⟨r, rfl | rfl | rfl | rfl⟩ | ⟨s, rfl⟩
    · exact (mute_next r).bind fun _ => .pure _
    · exact (mute_all r).bind fun _ => .pure _
    · exact (mute_nextPipe r).bind fun _ => .pure _
    · exact mute_rowsClose r
    · exact mute_stmtClose s
  have h := (key w1 hcut).2
  exact ⟨h.sink, h.inbox, h.srv, h.log⟩

/-- The rows of a prepared query, unread when the user closes the connection. -/
example : ∃ w w1 w2 : World Unit, PoolReach yes 1 yesConn w ∧ pooledClose yes (pooledN yes 1) w = .ok none w1 ∧ handOver w1 = some w2 ∧ w1.rows.length = 1 ∧
    (Op.run yes (pooledN yes 1) (.next 0) w1).world.log = w1.log := by
  have h0 : NewConn yesConn := ⟨rfl, rfl, rfl, rfl, rfl, rfl⟩
  have hr := ((PoolReach.refl (P := yes) (n := 1) yesConn).call (op := .prepare [65]) trivial (by simp) rfl).call (op := .stQuery 0 [])
    (Nat.le_of_ble_eq_true rfl) (by simp) rfl
  exact ⟨_, _, _, hr, rfl, rfl, rfl, (c71_rows_partial h0 hr rfl rfl (.inl ⟨0, .inl rfl⟩)).2.2.2⟩

/-- C71 is false for transactions: a user begins one and closes the connection, which returns nil and gives it back. `Commit`
then still writes COMMIT to the socket. -/
theorem c71_tx_false : ∃ w w1 w2 w3 : World Unit, PoolReach yes 1 yesConn w ∧ pooledClose yes (pooledN yes 1) w = .ok none w1 ∧ handOver w1 = some w2 ∧
    Op.run yes (pooledN yes 1) (.commit 0) w1 = .ok none w3 ∧ ∃ l, w3.log = w1.log ++ (asked [(txCommit, [])] ++ l) := by
  simp only [show txCommit = qCommit from rfl] at *
  have hr := (PoolReach.refl (P := yes) (n := 1) yesConn).call (op := .begin) trivial (by simp) rfl
  exact ⟨_, _, _, _, hr, rfl, rfl, rfl, _, rfl⟩

/-- C71 is false for the connection: after `Close` returned nil and gave it back, `ExecNeo` on it still runs: it writes RUN
and PULL_ALL and returns the answer. -/
theorem c71_false : pooledClose yes (pooledN yes 1) yesConn = .ok none yesConn ∧ handOver yesConn = some yesConn ∧
    ∃ md w', execNeo yes (pooledN yes 1) [65] [] yesConn = .ok (.ok md) w' ∧ ∃ l, w'.log = yesConn.log ++ (asked [([65], [])] ++ l) := by
  refine ⟨rfl, rfl, ?_⟩
  obtain ⟨md, w', h⟩ := yes_ok (x := execNeo yes (pooledN yes 1) [65] []) (by decide +kernel)
  obtain ⟨a, _, _, h3⟩ := c70_exec h
  exact ⟨md, w', h, a.events, h3⟩

/-- C71 in the pool: one user closes connection 0, another opens and is given connection 1 on the same socket. Connection 0
is still not marked closed and still has that socket. -/
theorem Pooling.c71_socket_false : ∃ s, Pooling.Reach .any (.init 1) s ∧ s.pool.out = [1] ∧ (s.pool.conns 0).closed = false ∧
    Pooling.sockOf s 0 = some 0 ∧ Pooling.sockOf s 1 = some 0 :=
  ⟨_, Pooling.reach_after (as := Pooling.openNew 0 ++ Pooling.closeIt 1 0 ++ Pooling.openOld 2) (by decide), by decide, by decide, by decide, by decide⟩

end Bolt
