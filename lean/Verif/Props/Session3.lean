import Verif.Spec.Commands
import Verif.Props.Session2
import Verif.Proofs.Direct

/-!
# C29, C30, C31, C32, C33, C40: what may be open, and what closing does, against any peer

`Reach P n w w'`: the peer `P` is any function of the bytes it was sent, well behaved or not; `w'` is reached
from `w` by any API calls on any objects handed out, used properly or not.
-/

namespace Bolt
open PackStream

variable {σ : Type} {P : Peer σ} {n : Nat} {w0 w w1 w2 : World σ}

/-- Begin and a query, its rows open. -/
theorem demo_begin_query (close : M (Srv Nat) (Option GoErr)) :
    Ran demo close (freshConn 0 4096) .none [.begin, .query [65] []] [.done, .rows [([104], .int .int64 1)]]
      ⟨2, .reading ⟨[65], []⟩ true [([104], .int .int64 1)] [[.int .int8 1], [.int .int8 2]] (.summary [([115], .int .int64 1)]) [] 0, true, 4096⟩ := by
  exact .step (m := .begin) (demo_idle.rep rfl) ⟨⟨_, .begin⟩, by simp⟩ (fun _ h => by cases h; rfl) (s1 := ⟨1, .idle, true, 4096⟩)
      (by simp [Sess.step, Sess.command, demo, freshConn]) fun hr =>
    .step (m := .query [65] []) hr ⟨⟨_, .query (kvs := []) (ps := []) rfl⟩, by simpa using demo_sendable _ (by decide)⟩ (fun _ h => by cases h with | query h => cases h; rfl)
      (by simp [Sess.step, demo]) fun hr => .nil hr

/-! ## C29 -/

/-- C29: while a statement is open, every Prepare, Query, Exec and Begin on the connection and every query on
another statement is refused: an error, nothing sent, nothing changed. While the statement has open rows, so is
every query on the statement itself. Missing: the rows of a direct query, when their statement was closed by Commit,
Rollback or Close (`c29_rows_false`). -/
theorem c29_one_open_partial (h0 : NewConn w0) (hr : Reach P n w0 w) {s : Nat} (hs : s < w.stmts.length) (ho : (w.stmt s).closed = false) :
    (∀ op : Op, op.opens = some none → op.Refused P n w) ∧
    (∀ (op : Op) (s' : Nat), op.opens = some (some s') → op.Exists w → s' ≠ s → op.Refused P n w) ∧
    ((w.stmt s).rows.isSome = true → ∀ op : Op, op.opens = some (some s) → op.Refused P n w) := by
  obtain ⟨ht, _⟩ := hr.keeps h0.tidy
  have hst : w.statement = some s := (ht.one s hs).resolve_left (by rw [ho]; simp)
  refine ⟨fun op h => refused_conn h (.inl (by rw [hst]; rfl)), fun op s' h he hne => refused_stmt h (.inl ?_), fun hb op h => refused_stmt h (.inr hb)⟩
  have hs' : s' < w.stmts.length := by cases op <;> cases h <;> exact he
  rcases ht.one s' hs' with h1 | h1
  · exact h1
  · rw [hst] at h1; cases h1; exact absurd rfl hne

/-- What Prepare returned is open. -/
theorem c29_prepare_opens {q : Str} {qs : List Str} {s : Nat} (h : prepare q qs w = .ok (.ok s) w1) :
    s < w1.stmts.length ∧ (w1.stmt s).closed = false := by
  obtain ⟨a, _, h1, h⟩ := run_inv h
  cases a with
  | some e => cases h
  | none =>
    cases h
    exact ⟨by simp, by simp [World.stmt]⟩

/-- What Query returned is open, and so is its statement. -/
theorem c29_query_opens {q : Str} {kvs : KVs} {r : Nat} (h : queryNeo P (closeN P n) q kvs w = .ok (.ok r) w1) :
    r < w1.rows.length ∧ (w1.row r).closed = false ∧ (w1.row r).stmt < w1.stmts.length ∧ (w1.stmt (w1.row r).stmt).closed = false ∧
      (w1.stmt (w1.row r).stmt).rows = some r := queryNeo_opens h

/-- A prepared statement, its rows open: a direct query, a transaction, another use of it are refused. -/
example : ∃ w, Reach yes 1 yesConn w ∧ (w.stmt 0).closed = false ∧ (w.stmt 0).rows.isSome = true ∧ 0 < w.stmts.length ∧
    Op.Refused yes 1 w (.query [65] []) ∧ Op.Refused yes 1 w .begin ∧ Op.Refused yes 1 w (.stQuery 0 []) := by
  have h0 : NewConn yesConn := ⟨rfl, rfl, rfl, rfl, rfl, rfl⟩
  have hr : Reach yes 1 yesConn ((Op.run yes (closeN yes 1) (.stQuery 0 []) ((Op.run yes (closeN yes 1) (.prepare [65]) yesConn).world)).world) :=
    .step (op := .stQuery 0 []) (e := none) (.step (op := .prepare [65]) (e := none) (.refl _) trivial rfl) (Nat.le_of_ble_eq_true rfl) rfl
  have h1 := c29_one_open_partial h0 hr (s := 0) (Nat.le_of_ble_eq_true rfl) rfl
  exact ⟨_, hr, rfl, rfl, Nat.le_of_ble_eq_true rfl, h1.1 _ rfl, h1.1 _ rfl, h1.2.2 rfl _ rfl⟩

/-- C29 is false for the rows of a direct query: an honest server; after Begin and Query, Commit closes their
statement but not the rows, Prepare succeeds, and now two things are open: rows and another statement. -/
theorem c29_rows_false (close : M (Srv Nat) (Option GoErr)) :
    ∃ h' w' r s, runCalls demo.peer close .none [.begin, .query [65] [], .commit, .prepare [66]] (freshConn 0 4096) =
        .ok ([.done, .rows [([104], .int .int64 1)], .localError, .done], h') w' ∧
      h'.r = some r ∧ (w'.row r).closed = false ∧ h'.s = some s ∧ (w'.stmt s).closed = false ∧ (w'.row r).stmt ≠ s := by
  obtain ⟨w1, h1, e1, r1⟩ := demo_begin_query close
  obtain ⟨w2, h2, hrow, hst, hcl, hin, _, _, r, hr, hrl, hro, hrs⟩ := commit_stale demo close r1 (a := .record [.int .int8 1]) (b := .record [.int .int8 2])
    (tl := [.val (.success [([115], .int .int64 1)])]) rfl (by simp) (by simp)
  have h3 : prepare [66] [] w2 = .ok (.ok w2.stmts.length) { w2 with stmts := w2.stmts ++ [⟨[66], [], true, false, none⟩], statement := some w2.stmts.length } := by
    unfold prepare
    have : guardConn w2 = .ok none w2 := by simp [guardConn, hst, hcl]
    exact (mbind_ok this).trans rfl
  have h4 : runCalls demo.peer close h1 [.prepare [66]] w2 = .ok ([.done], { h1 with s := some w2.stmts.length }) { w2 with stmts := w2.stmts ++ [⟨[66], [], true, false, none⟩], statement := some w2.stmts.length } := by
    refine runCalls_cons (rs := []) (h1 := { h1 with s := some w2.stmts.length }) (w1 := { w2 with stmts := w2.stmts ++ [⟨[66], [], true, false, none⟩], statement := some w2.stmts.length }) ?_ rfl
    exact (mbind_ok h3).trans rfl
  have hw : w2.row r = w1.row r := by unfold World.row; rw [hrow]
  exact ⟨_, _, r, w2.stmts.length, runCalls_append h4 [.begin, .query [65] [], .commit] (runCalls_append h2 [.begin, .query [65] []] e1), hr,
    (congrArg Rows.closed hw).trans hro, rfl, by simp [World.stmt], fun h => Nat.ne_of_lt hrs ((congrArg Rows.stmt hw).symm.trans h)⟩

/-! ## C30 -/

/-- C30: after Close returned nil, whatever is called on whatever object: no byte is sent and the peer does
nothing, nothing that was received is left to be read, every Prepare, Query, Exec and Begin on the connection and on
its statements is refused, Close returns nil and changes nothing. -/
theorem c30_closed (h0 : NewConn w0) (hr : Reach P n w0 w) (hc : connClose P (closeN P n) w = .ok none w1) (hr2 : Reach P n w1 w2) :
    (w2.sink.out = w1.sink.out ∧ w2.srv = w1.srv ∧ w2.inbox = []) ∧
    connClose P (closeN P n) w2 = .ok none w2 ∧
    (∀ op : Op, op.Exists w2 → op.opens.isSome = true → op.Refused P n w2) ∧
    (∀ op : Op, op.Exists w2 → (op.run P (closeN P n) w2).world.sink.out = w1.sink.out ∧ (op.run P (closeN P n) w2).world.srv = w1.srv) := by
  obtain ⟨ht, _⟩ := hr.keeps h0.tidy
  have ht1 := ht.int ((inner_connClose (inner_closeN n) w).int ht.sound hc)
  have hcl := connClose_ok hc
  obtain ⟨ht2, hl⟩ := hr2.keeps ht1
  have hs := hl.shut (ht1.sound.good hcl)
  have e1 : w2.sink.out = w1.sink.out := congrArg Prod.fst hs.2
  have e2 : w2.srv = w1.srv := congrArg Prod.snd hs.2
  have hcl2 := hs.1.1
  have hn : w2.statement = none := ht2.sound.fin hcl2
  refine ⟨⟨e1, e2, hs.1.2.2⟩, connClose_again hcl2, fun op he ho => ?_, fun op he => ?_⟩
  · cases h : op.opens with
    | none => rw [h] at ho; cases ho
    | some o =>
      cases o with
      | none => exact refused_conn h (.inr hcl2)
      | some s =>
        refine refused_stmt h (.inl ?_)
        have hs' : s < w2.stmts.length := by cases op <;> cases h <;> exact he
        rcases ht2.one s hs' with h1 | h1
        · exact h1
        · rw [hn] at h1; cases h1
  · have hk := (keeps_op (P := P) (inner_closeN (P := P) n) ht2 he).1
    have h3 := (hk.shut hs.1).2
    exact ⟨(congrArg Prod.fst h3).trans e1, (congrArg Prod.snd h3).trans e2⟩

/-- A connection closed with an open statement, then used. -/
example : ∃ w, Reach yes 1 yesConn w ∧ ∃ w1, connClose yes (closeN yes 1) w = .ok none w1 ∧ w1.sink.out.length = 15 ∧
    Op.Refused yes 1 w1 (.exec [65] []) ∧ Op.Refused yes 1 w1 (.stExec 0 []) := by
  have h0 : NewConn yesConn := ⟨rfl, rfl, rfl, rfl, rfl, rfl⟩
  have hr : Reach yes 1 yesConn ((Op.run yes (closeN yes 1) (.stExec 0 []) ((Op.run yes (closeN yes 1) (.prepare [65]) yesConn).world)).world) :=
    .step (op := .stExec 0 []) (e := none) (.step (op := .prepare [65]) (e := none) (.refl _) trivial rfl) (Nat.le_of_ble_eq_true rfl) rfl
  have h1 := c30_closed h0 hr rfl (.refl _)
  exact ⟨_, hr, _, rfl, rfl, h1.2.2.1 _ trivial rfl, h1.2.2.1 (.stExec 0 []) (Nat.le_of_ble_eq_true rfl) rfl⟩

/-! ## C31 -/

/-- C31 for rows: once Close returned nil, closing again returns nil and changes nothing at all, and every use is
refused, whatever happens in between. -/
theorem c31_rows (h0 : NewConn w0) (hr : Reach P n w0 w) {r : Nat} (hl : r < w.rows.length) (hc : rowsClose P (closeN P n) r w = .ok none w1)
    (hr2 : Reach P n w1 w2) :
    rowsClose P (closeN P n) r w2 = .ok none w2 ∧ ∀ op : Op, op.reads = some r → op.Refused P n w2 := by
  obtain ⟨ht, _⟩ := hr.keeps h0.tidy
  have h1 := rowsClose_done (inner_closeN n) ht hl hc
  have ht1 := ht.int ((inner_rowsClose (inner_closeN n) ht hl).int ht.sound hc)
  have h2 := (hr2.keeps ht1).2.rowc r h1
  exact ⟨rowsClose_closed _ _ h2, fun op ho => refused_rows ho h2⟩

/-- C31 for statements. -/
theorem c31_statement (h0 : NewConn w0) (hr : Reach P n w0 w) {s : Nat} (hl : s < w.stmts.length) (hc : stmtClose P (closeN P n) s w = .ok none w1)
    (hr2 : Reach P n w1 w2) :
    stmtClose P (closeN P n) s w2 = .ok none w2 ∧ ∀ op : Op, op.opens = some (some s) → op.Refused P n w2 := by
  obtain ⟨ht, _⟩ := hr.keeps h0.tidy
  have h1 := stmtClose_done (inner_closeN n) ht.sound hl hc
  have hm : Mine s w ∨ (w.stmt s).closed = true := by
    rcases ht.one s hl with h | h
    · exact .inr h
    · exact .inl (.inl h)
  have ht1 := ht.int ((inner_stmtClose (inner_closeN n) hm).int ht.sound hc)
  have h2 := (hr2.keeps ht1).2.stmts s h1
  exact ⟨stmtClose_closed _ _ h2, fun op ho => refused_stmt ho (.inl h2)⟩

/-- Rows closed with their statement. -/
example : ∃ w, Reach yes 1 yesConn w ∧ ∃ w1, rowsClose yes (closeN yes 1) 0 w = .ok none w1 ∧ Op.Refused yes 1 w1 (.next 0) := by
  have h0 : NewConn yesConn := ⟨rfl, rfl, rfl, rfl, rfl, rfl⟩
  have hr : Reach yes 1 yesConn ((Op.run yes (closeN yes 1) (.query [65] []) yesConn).world) :=
    .step (op := .query [65] []) (e := none) (.refl _) trivial rfl
  exact ⟨_, hr, _, rfl, (c31_rows h0 hr (r := 0) (Nat.le_of_ble_eq_true rfl) rfl (.refl _)).2 _ rfl⟩

theorem rowsClose0_done {close : M σ (Option GoErr)} (hc : ∀ w, Inner close w) (hs : Sound w) {r : Nat} (hl : r < w.rows.length) {w' : World σ} (h : rowsClose0 P close r w = .ok none w') :
    (w'.row r).closed = true := by
  obtain ⟨b, _, h1, h⟩ := run_inv h
  cases h1
  split at h
  · cases h; rename_i hcl; exact hcl
  · obtain ⟨a, w1, h1, h⟩ := run_inv h
    cases a with
    | some e => cases h
    | none =>
      have hi := (inner_rowsDrain hc r w).int hs h1
      obtain ⟨_, _, h2, h⟩ := run_inv h
      cases h2
      cases h
      show (World.row (w1.setRow r _) r).closed = true
      rw [row_modify, if_pos ⟨rfl, by rw [hi.nrows]; exact hl⟩]

/-- C31, the rows of a statement: when a statement is closed, the rows it has are closed with it, and then refuse every use
and can be closed again, whatever happens in between. (`closeStmt` marks the rows of a direct query, which close their
statement and not the other way round.) -/
theorem c31_with_rows (h0 : NewConn w0) (hr : Reach P n w0 w) {s r : Nat} (ho : (w.stmt s).closed = false) (hs : (w.stmt s).rows = some r)
    (hd : (w.row r).closeStmt = false) (hl : r < w.rows.length) (hc : stmtClose P (closeN P n) s w = .ok none w1) (hr2 : Reach P n w1 w2) :
    rowsClose P (closeN P n) r w2 = .ok none w2 ∧ ∀ op : Op, op.reads = some r → op.Refused P n w2 := by
  obtain ⟨ht, _⟩ := hr.keeps h0.tidy
  have hsl : s < w.stmts.length := by
    refine Nat.lt_of_not_le fun h => ?_
    have : w.stmt s = (default : Stmt) := by unfold World.stmt; simp [List.getElem?_eq_none h]
    rw [this] at hs
    cases hs
  have hm : Mine s w ∨ (w.stmt s).closed = true := by
    rcases ht.one s hsl with h | h
    · exact .inr h
    · exact .inl (.inl h)
  have ht1 := ht.int ((inner_stmtClose (inner_closeN n) hm).int ht.sound hc)
  have h1 : (w1.row r).closed = true := by
    rcases stmtClose_inv hc with ⟨h1, _⟩ | ⟨w3, h3, rfl⟩
    · rw [ho] at h1; cases h1
    · obtain ⟨b, _, h4, h5⟩ := run_inv h3
      cases h4
      simp only [hs] at h5
      obtain ⟨b, _, h6, h7⟩ := run_inv h5
      cases h6
      simp only [hd] at h7
      have h8 : (w3.row r).closed = true := rowsClose0_done (P := P) (inner_closeN n) ht.sound hl h7
      exact h8
  have h2 := (hr2.keeps ht1).2.rowc r h1
  exact ⟨rowsClose_closed _ _ h2, fun op ho => refused_rows ho h2⟩

/-- A statement closed while its rows are open: the rows are closed too. -/
example : ∃ w, Reach yes 1 yesConn w ∧ (w.row 0).closed = false ∧ ∃ w1, stmtClose yes (closeN yes 1) 0 w = .ok none w1 ∧ Op.Refused yes 1 w1 (.next 0) := by
  have h0 : NewConn yesConn := ⟨rfl, rfl, rfl, rfl, rfl, rfl⟩
  have hr : Reach yes 1 yesConn ((Op.run yes (closeN yes 1) (.stQuery 0 []) ((Op.run yes (closeN yes 1) (.prepare [65]) yesConn).world)).world) :=
    .step (op := .stQuery 0 []) (e := none) (.step (op := .prepare [65]) (e := none) (.refl _) trivial rfl) (Nat.le_of_ble_eq_true rfl) rfl
  exact ⟨_, hr, rfl, _, rfl, (c31_with_rows h0 hr (s := 0) (r := 0) rfl rfl rfl (Nat.le_of_ble_eq_true rfl) rfl (.refl _)).2 _ rfl⟩

/-! ## C32 -/

/-- C32: once Commit or Rollback (`q`) returned nil, every further Commit or Rollback on that transaction returns an
error and changes nothing at all, whatever happens in between. -/
theorem c32_finished (h0 : NewConn w0) (hr : Reach P n w0 w) {t : Nat} (hl : t < w.txs.length) {op : Op} (ho : op = .commit t ∨ op = .rollback t)
    (hc : op.run P (closeN P n) w = .ok none w1) (hr2 : Reach P n w1 w2) :
    Op.Refused P n w2 (.commit t) ∧ Op.Refused P n w2 (.rollback t) := by
  obtain ⟨ht, _⟩ := hr.keeps h0.tidy
  have key : ∀ q, txFinish P (closeN P n) q t w = .ok none w1 → w2.txClosed t = true := fun q h => by
    have h1 := txFinish_done (inner_closeN n) ht.sound hl h
    exact (hr2.keeps (ht.int ((inner_txFinish (inner_closeN n) q t w).int ht.sound h))).2.txs t h1
  have h2 : w2.txClosed t = true := by rcases ho with rfl | rfl <;> exact key _ hc
  exact ⟨⟨_, txFinish_refuses h2⟩, ⟨_, txFinish_refuses h2⟩⟩

example : ∃ w, Reach yes 1 yesConn w ∧ ∃ w1, Op.run yes (closeN yes 1) (.commit 0) w = .ok none w1 ∧ Op.Refused yes 1 w1 (.rollback 0) := by
  have h0 : NewConn yesConn := ⟨rfl, rfl, rfl, rfl, rfl, rfl⟩
  have hr : Reach yes 1 yesConn ((Op.run yes (closeN yes 1) .begin yesConn).world) := .step (op := .begin) (e := none) (.refl _) trivial rfl
  exact ⟨_, hr, _, rfl, (c32_finished h0 hr (t := 0) (Nat.le_of_ble_eq_true rfl) (.inl rfl) rfl (.refl _)).2⟩

/-! ## C33 -/

/-- C33, against any peer: when Commit or Rollback (`q`) returns nil, the last the driver did was to send RUN `q` and
PULL_ALL, both without an error, and then to read SUCCESS twice. Missing: that these two messages answer those two
requests, which is false (`c33_false`). -/
theorem c33_confirmed_partial {q : Str} {t : Nat} (h : txFinish P (closeN P n) q t w = .ok none w1) :
    ∃ l md md', w1.log = w.log ++ l ++ [.send (.run q []) none, .send .pullAll none, .recv (.val (.success md)), .recv (.val (.success md'))] := by
  obtain ⟨wa, wb, md, md', h1, h2, rfl⟩ := txFinish_inv h
  obtain ⟨l, h3, _⟩ := hon_closeCurrent (grow_closeN n) w _ wa h1
  exact ⟨l, md, md', by show wb.log = _; rw [single_inv h2, h3]⟩

/-- C33 on a connection in step, nothing open but the transaction, for a database that answers the command without
records: the command returns nil exactly if the database executed it to its end, and sends exactly RUN and PULL_ALL. -/
theorem c33_idle_partial {δ : Type} {D : DB δ} {close : M (Srv δ) (Option GoErr)} {w : World (Srv δ)} {d : δ} (h : Idle w d) {q : Str}
    (hq : q = txCommit ∨ q = txRollback) {t : Nat} (ht : w.txClosed t = false) (hquiet : (D.exec d q []).2.isQuiet = true) :
    ∃ res w', txFinish D.peer close q t w = .ok res w' ∧ (res = none ↔ (D.exec d q []).2.succeeds = true) ∧
      (res = none → Wrote w w' [.run q [], .pullAll]) ∧ Idle w' (D.exec d q []).1 := by
  simp only [show txCommit = qCommit from rfl, show txRollback = qRollback from rfl] at *
  have hl : q.length ≤ 60000 := by rcases hq with rfl | rfl <;> exact Nat.le_of_ble_eq_true rfl
  have hqu : (D.exec d q []).2.quiet := by
    cases ho : (D.exec d q []).2 with
    | refused md => trivial
    | answer hd rs e => rw [ho] at hquiet; simpa [Outcome.quiet, Outcome.isQuiet] using hquiet
  obtain ⟨b, l, h1, run, pull, err, h2, h3⟩ := runSingle_ok D close h.live h.synced.inbox hl hqu
  have hcc : closeCurrent D.peer close w = .ok none w := by
    unfold closeCurrent
    exact (mbind_ok (x := M.get fun w => w.statement) (a := none) (w' := w) (congrArg (fun x => Out.ok x w) h.statement)).trans rfl
  have idle : ∀ tr txs, tr = none → Idle { w.net ⟨w.sink.out ++ b, none⟩ ⟨(D.exec d q []).1, .ready, []⟩ [] (w.log ++ l) with transaction := tr, txs := txs } (D.exec d q []).1 :=
    fun tr txs htr => ⟨⟨h.synced.closed, rfl, rfl, rfl⟩, h.statement, htr, h.chunk⟩
  cases ho : (D.exec d q []).2 with
  | refused md =>
    rw [ho] at h3
    subst h3
    refine ⟨some (.wrap "An error occurred finishing transaction" (some (queryErr md))), _, ?_, by simp [Outcome.succeeds], (fun h => by cases h), idle w.transaction w.txs h.transaction⟩
    unfold txFinish
    show (if w.txClosed t = true then _ else _ : M (Srv δ) (Option GoErr)) w = _
    rw [if_neg (by rw [ht]; simp)]
    show (closeCurrent D.peer close >>= _) w = _
    rw [mbind_ok hcc]
    show (sendRunPullAllConsumeSingle D.peer close q [] >>= _) w = _
    rw [mbind_ok h2]
    rfl
  | answer hd rs e =>
    cases e with
    | broken md =>
      rw [ho] at h3
      subst h3
      refine ⟨some (.wrap "An error occurred finishing transaction" (some (queryErr md))), _, ?_, by simp [Outcome.succeeds], (fun h => by cases h), idle w.transaction w.txs h.transaction⟩
      unfold txFinish
      show (if w.txClosed t = true then _ else _ : M (Srv δ) (Option GoErr)) w = _
      rw [if_neg (by rw [ht]; simp)]
      show (closeCurrent D.peer close >>= _) w = _
      rw [mbind_ok hcc]
      show (sendRunPullAllConsumeSingle D.peer close q [] >>= _) w = _
      rw [mbind_ok h2]
      rfl
    | summary md =>
      rw [ho] at h3 h1
      obtain ⟨rfl, rfl, rfl⟩ := h3
      exact ⟨none, _, txFinish_run D close ht hcc h2, by simp [Outcome.succeeds], fun _ => ⟨b, h1, rfl⟩, idle none _ rfl⟩

example (close : M (Srv Nat) (Option GoErr)) : ∃ h' w', runCalls demo.peer close .none [.begin, .commit] (freshConn 0 4096) = .ok ([.done, .done], h') w' ∧ Idle w' 2 := by
  obtain ⟨w', h', h1, h2⟩ : Ran demo close (freshConn 0 4096) .none [.begin, .commit] [.done, .done] ⟨2, .idle, false, 4096⟩ :=
    .step (m := .begin) (demo_idle.rep rfl) ⟨⟨_, .begin⟩, by simp⟩ (fun _ h => by cases h; rfl) (s1 := ⟨1, .idle, true, 4096⟩) (by simp [Sess.step, Sess.command, demo, freshConn]) fun hr =>
    .step (m := .commit) hr ⟨⟨_, .commit⟩, by simp⟩ (fun _ h => by cases h; rfl) (by simp [Sess.step, Sess.finish, Sess.release, Sess.command, demo]) fun hr => .nil hr
  exact ⟨h', w', h1, h2.idle⟩

/-- C33 is false: an honest server, a database that refuses COMMIT. After Begin and a QueryPipeline whose rows are
not closed, Commit returns nil: the two answers it reads are left over from the pipeline. -/
theorem c33_false (close : M (Srv Nat) (Option GoErr)) :
    (∀ d, (strict.exec d txCommit []).2.succeeds = false) ∧
    ∃ h' w', runCalls strict.peer close .none [.begin, .queryPipe [([67], []), ([67], [])], .commit] (freshConn 0 4096) =
      .ok ([.done, .rows [], .done], h') w' ∧ w'.srv.mode = .failed := by
  simp only [show txCommit = qCommit from rfl] at *
  refine ⟨fun d => rfl, ?_⟩
  have hm : ∀ m', Call.Means (.queryPipe [([67], []), ([67], [])]) m' → m' = .queryPipe [([67], []), ([67], [])] := by
    intro m' h
    cases h with
    | queryPipe h =>
      obtain ⟨ps, r, h1, ⟨ps', r', h2, h3, rfl⟩, rfl⟩ := h
      cases h1; cases h2; cases h3; rfl
  have hma : MeansAll [([67], []), ([67], [])] [([67], []), ([67], [])] := ⟨[], [([67], [])], rfl, ⟨[], [], rfl, rfl, rfl⟩, rfl⟩
  have hsend : ∀ x ∈ [(([67] : Str), ([] : KVs)), ([67], [])], Sendable 4096 (.run x.1 x.2) := by
    intro x hx
    simp at hx
    subst hx
    exact demo_sendable _ (by decide)
  obtain ⟨w1, h1, e1, r1⟩ : Ran strict close (freshConn 0 4096) .none [.begin, .queryPipe [([67], []), ([67], [])]] [.done, .rows []]
      ⟨3, .reading ⟨[], [[67], [67]]⟩ true [] [] (.summary []) [.answer [] [] (.summary [])] 1, true, 4096⟩ :=
    .step (m := .begin) ((idle_fresh 0 (by decide) (by decide)).rep rfl) ⟨⟨_, .begin⟩, by simp⟩ (fun _ h => by cases h; rfl) (s1 := ⟨1, .idle, true, 4096⟩)
      (by simp [Sess.step, Sess.command, strict, freshConn]) fun hr =>
    .step (m := .queryPipe [([67], []), ([67], [])]) hr ⟨⟨_, .queryPipe (m := [([67], []), ([67], [])]) hma⟩, hsend⟩ hm
      (by simp [Sess.step, Sess.openPipe, strict, DB.after, DB.runAll, Outcome.succeeds]) fun hr => .nil hr
  obtain ⟨w2, h2, _, _, _, _, h3, _⟩ := commit_stale strict close r1 (a := .success []) (b := .success []) (tl := [.val (.success [])]) rfl (by simp) (by simp)
  exact ⟨_, _, runCalls_append h2 _ e1, h3⟩

/-! ## C40 -/

/-- C40 on a prepared statement, in any state, against any peer: a wrong number of parameter maps is an error and
changes nothing at all. -/
theorem c40_statement (close : M σ (Option GoErr)) {s : Nat} {l : List KVs} (h : l.length ≠ (w.stmt s).queries.length) :
    (∃ e, stmtExecPipeline P close s l w = .ok (.error e) w) ∧ ∃ e, stmtQueryPipeline P close s l w = .ok (.error e) w := by
  have hg : ∃ o, guardStmt s w = .ok o w := by
    unfold guardStmt
    split
    · exact ⟨_, rfl⟩
    · split <;> exact ⟨_, rfl⟩
  obtain ⟨o, hg⟩ := hg
  constructor
  · unfold stmtExecPipeline
    rw [mbind_ok hg]
    cases o with
    | some e => exact ⟨e, rfl⟩
    | none =>
      refine ⟨.new "Must pass same number of params as there are queries", ?_⟩
      refine (mbind_ok (x := M.get fun w => (w.stmt s).queries) (a := (w.stmt s).queries) (w' := w) rfl).trans ?_
      rw [if_pos h]
      rfl
  · unfold stmtQueryPipeline
    rw [mbind_ok hg]
    cases o with
    | some e => exact ⟨e, rfl⟩
    | none =>
      refine ⟨.new "Must pass same number of params as there are queries", ?_⟩
      refine (mbind_ok (x := M.get fun w => (w.stmt s).queries) (a := (w.stmt s).queries) (w' := w) rfl).trans ?_
      rw [if_pos h]
      rfl

/-- C40 on a connection, in any state, against any peer: a wrong number of parameter maps is an error, nothing is
written and nothing read, the peer does nothing; after ExecPipeline the connection has the open statement it had. -/
theorem c40_conn (close : M σ (Option GoErr)) {qs : List Str} {l : List KVs} (h : l.length ≠ qs.length) :
    (∃ e w', execPipeline P close qs l w = .ok (.error e) w' ∧ w'.log = w.log ∧ w'.sink = w.sink ∧ w'.srv = w.srv ∧ w'.inbox = w.inbox ∧
      w'.closed = w.closed ∧ w'.statement = w.statement) ∧
    ∃ e w', queryPipeline P close qs l w = .ok (.error e) w' ∧ w'.log = w.log ∧ w'.sink = w.sink ∧ w'.srv = w.srv ∧ w'.inbox = w.inbox ∧
      w'.closed = w.closed := by
  have hg : ∃ o, guardConn w = .ok o w ∧ (o = none → w.statement = none) := by
    unfold guardConn
    split
    · exact ⟨_, rfl, fun h => by cases h⟩
    · next h => split <;> exact ⟨_, rfl, fun _ => by simpa using h⟩
  obtain ⟨o, hg, hst⟩ := hg
  have hq : ∀ w1 : World σ, w1.stmts = w.stmts ++ [⟨[], qs, true, false, none⟩] → l.length ≠ (w1.stmt w.stmts.length).queries.length := by
    intro w1 h1
    simpa [World.stmt, h1] using h
  constructor
  · unfold execPipeline
    rw [mbind_ok hg]
    cases o with
    | some e => exact ⟨e, w, rfl, rfl, rfl, rfl, rfl, rfl, rfl⟩
    | none =>
      let w1 : World σ := { w with stmts := w.stmts ++ [⟨[], qs, true, false, none⟩] }
      obtain ⟨e, h1⟩ := (c40_statement (P := P) (w := w1) close (s := w.stmts.length) (l := l) (hq _ rfl)).1
      refine ⟨e, w1.stmtDone w.stmts.length, ?_, rfl, rfl, rfl, rfl, rfl, (hst rfl).symm⟩
      refine (mbind_ok (x := newStmt [] qs) (a := w.stmts.length) (w' := w1) rfl).trans ?_
      refine (mbind_ok h1).trans ?_
      exact (mbind_ok (stmtClose_norows P close (by simp [World.stmt, w1]) (by simp [World.stmt, w1]) (by simp [World.stmt, w1]))).trans rfl
  · unfold queryPipeline
    rw [mbind_ok hg]
    cases o with
    | some e => exact ⟨e, w, rfl, rfl, rfl, rfl, rfl, rfl⟩
    | none =>
      let w1 : World σ := { w with stmts := w.stmts ++ [⟨[], qs, true, false, none⟩] }
      let w2 : World σ := { w1 with statement := some w.stmts.length }
      obtain ⟨e, h1⟩ := (c40_statement (P := P) (w := w2) close (s := w.stmts.length) (l := l) (hq _ rfl)).2
      refine ⟨e, w2, ?_, rfl, rfl, rfl, rfl, rfl⟩
      refine (mbind_ok (x := newStmt [] qs) (a := w.stmts.length) (w' := w1) rfl).trans ?_
      refine (mbind_ok (x := M.modify fun w => { w with statement := some _ }) (a := ()) (w' := w2) rfl).trans ?_
      exact (mbind_ok h1).trans rfl

/-- One query, no parameter map. -/
example : ∃ e w', execPipeline yes (closeN yes 1) [[65]] [] yesConn = .ok (.error e) w' ∧ w'.sink.out = [] := by
  obtain ⟨e, w', h, _, h1, _⟩ := (c40_conn (P := yes) (w := yesConn) (closeN yes 1) (qs := [[65]]) (l := []) (by decide)).1
  exact ⟨e, w', h, congrArg Sink.out h1⟩

end Bolt
