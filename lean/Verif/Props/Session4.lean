import Verif.Spec.Commands
import Verif.Props.Session3
import Verif.Proofs.Reject

/-!
# C34–C39, C41, C42: transactions, failed reads, failed pipelines, whole sessions

Most of these do not hold of the driver. Beside each refutation stands what does hold (`_partial`).
-/

namespace Bolt
open PackStream

variable {δ : Type} {D : DB δ} {close : M (Srv δ) (Option GoErr)} {w : World (Srv δ)} {d : δ}

/-! ## C34 -/

/-- C34 would hold if a transaction were recorded on its connection: Begin is then refused. Missing: Begin does not
record it (`c34_never_recorded`). -/
theorem c34_recorded_partial {σ : Type} {P : Peer σ} (close : M σ (Option GoErr)) {w : World σ} {t : Nat} (h : w.transaction = some t) :
    ∃ e, begin_ P close w = .ok (.error e) w := by
  refine ⟨.new "An open transaction already exists", ?_⟩
  unfold begin_
  refine (mbind_ok (x := M.get fun w => w.transaction) (a := some t) (w' := w) (congrArg (fun x => Out.ok x w) h)).trans rfl

example : ∃ e, begin_ yes (closeN yes 1) { yesConn with transaction := some 0, txs := [false] } = .ok (.error e) { yesConn with transaction := some 0, txs := [false] } :=
  c34_recorded_partial _ rfl

/-- Whatever is called, against any peer: no transaction is ever recorded on the connection. -/
theorem c34_never_recorded {σ : Type} {P : Peer σ} {n : Nat} {w0 w : World σ} (h0 : NewConn w0) (hr : Reach P n w0 w) : w.transaction = none :=
  (hr.keeps h0.tidy).2.trans h0.transaction

/-- On a connection on which nothing is going on, Begin succeeds and sends BEGIN however many transactions are open. -/
theorem c34_begin_again (h : Idle w d) (hquiet : (D.exec d txBegin []).2.isQuiet = true) (hok : (D.exec d txBegin []).2.succeeds = true) :
    ∃ w', begin_ D.peer close w = .ok (.ok w.txs.length) w' ∧ Wrote w w' [.run txBegin [], .pullAll] ∧ Idle w' (D.exec d txBegin []).1 ∧ w'.txs = w.txs ++ [false] ∧ w'.sockCloseErr = w.sockCloseErr := by
  simp only [show txBegin = qBegin from rfl] at *
  cases ho : (D.exec d qBegin []).2 with
  | refused md => rw [ho] at hok; cases hok
  | answer hd rs e =>
    rw [ho] at hquiet hok
    cases e with
    | broken md => cases hok
    | summary md =>
      have hrs : rs = [] := by simpa [Outcome.isQuiet] using hquiet
      obtain ⟨b, l, h1, run, pull, err, h2, h3⟩ := runSingle_ok D close h.live h.synced.inbox (q := qBegin) (by decide) (by rw [ho]; exact hrs)
      rw [ho] at h1 h3
      obtain ⟨rfl, rfl, rfl⟩ := h3
      refine ⟨{ w.net ⟨w.sink.out ++ b, none⟩ ⟨(D.exec d qBegin []).1, .ready, []⟩ [] (w.log ++ l) with txs := w.txs ++ [false] }, ?_, ⟨b, h1, rfl⟩,
        ⟨⟨h.synced.closed, rfl, rfl, rfl⟩, h.statement, h.transaction, h.chunk⟩, rfl, rfl⟩
      unfold begin_
      simp only [get_bind, h.transaction, h.statement, h.synced.closed, Option.isSome_none, Bool.false_eq_true, if_false]
      rw [mbind_ok h2]
      rfl

/-- C34 is false: with a transaction open, a second Begin succeeds; both BEGIN reach the server and both transactions
are open. -/
theorem c34_false (close : M (Srv Nat) (Option GoErr)) :
    ∃ h' w', runCalls demo.peer close .none [.begin, .begin] (freshConn 0 4096) = .ok ([.done, .done], h') w' ∧ w'.srv.db = 2 ∧ w'.txs = [false, false] := by
  obtain ⟨w1, h1, _, i1, t1, s1⟩ := c34_begin_again (D := demo) (close := close) demo_idle rfl rfl
  obtain ⟨w2, h2, _, i2, t2, _⟩ := c34_begin_again (D := demo) (close := close) i1 rfl rfl
  refine ⟨⟨none, none, some w1.txs.length⟩, w2, ?_, congrArg Srv.db i2.synced.srv, by rw [t2, t1]; rfl⟩
  exact runCalls_cons ((mbind_ok h1).trans rfl) (runCalls_cons ((mbind_ok h2).trans rfl) rfl)

/-! ## C35 -/

/-- C35 would hold if the transaction were recorded on its connection: Close then sends ROLLBACK first. Missing: Begin
does not record it. -/
theorem c35_recorded_partial {t : Nat} (h : Synced w d .ready) (hst : w.statement = none) (hcs : 0 < w.chunkSize ∧ w.chunkSize ≤ 65535)
    (htr : w.transaction = some t) (ht : w.txClosed t = false) (hs : w.sockCloseErr = false)
    (hquiet : (D.exec d txRollback []).2.isQuiet = true) (hok : (D.exec d txRollback []).2.succeeds = true) :
    ∃ w', connClose D.peer close w = .ok none w' ∧ Wrote w w' [.run txRollback [], .pullAll] ∧ w'.srv.db = (D.exec d txRollback []).1 := by
  simp only [show txRollback = qRollback from rfl] at *
  have hl : Live w d .ready := ⟨h.closed, h.srv, h.budget, hcs⟩
  cases ho : (D.exec d qRollback []).2 with
  | refused md => rw [ho] at hok; cases hok
  | answer hd rs e =>
    rw [ho] at hquiet hok
    cases e with
    | broken md => cases hok
    | summary md =>
      have hrs : rs = [] := by simpa [Outcome.isQuiet] using hquiet
      obtain ⟨b, l, h1, run, pull, err, h2, h3⟩ := runSingle_ok D close hl h.inbox (q := qRollback) (by decide) (by rw [ho]; exact hrs)
      rw [ho] at h1 h3
      obtain ⟨rfl, rfl, rfl⟩ := h3
      have hcc : closeCurrent D.peer close w = .ok none w := by
        unfold closeCurrent
        exact (mbind_ok (x := M.get fun w => w.statement) (a := none) (w' := w) (congrArg (fun x => Out.ok x w) hst)).trans rfl
      have hf := txFinish_run D close (t := t) ht hcc h2
      generalize hw1 : w.net ⟨w.sink.out ++ b, none⟩ ⟨(D.exec d qRollback []).1, .ready, []⟩ [] (w.log ++ l) = w1 at hf
      have hf' : txFinish D.peer close qRollback t w = .ok none { w1 with transaction := none, txs := w1.txs.set t true } := hf
      have hs1 : w1.sockCloseErr = false := by rw [← hw1]; exact hs
      refine ⟨{ w1 with transaction := none, txs := w1.txs.set t true, closed := true, connErr := w1.connErr || w1.sockCloseErr, sink := { w1.sink with budget := some 0 }, inbox := [] }, ?_, ⟨b, h1, ?_⟩, ?_⟩
      · unfold connClose
        refine (mbind_ok (x := M.get fun w => w.closed) (a := false) (w' := w) (congrArg (fun x => Out.ok x w) h.closed)).trans ?_
        refine (mbind_ok hcc).trans ?_
        refine (mbind_ok (a := none) (w' := { w1 with transaction := none, txs := w1.txs.set t true }) ?_).trans ?_
        · exact (mbind_ok (x := M.get fun w => w.transaction) (a := some t) (w' := w) (congrArg (fun x => Out.ok x w) htr)).trans hf'
        · refine (mbind_ok (x := M.modify _) (a := ()) rfl).trans ?_
          refine (mbind_ok (x := M.get fun w => w.sockCloseErr) (a := false) (w' := { w1 with transaction := none, txs := w1.txs.set t true, closed := true, connErr := w1.connErr || w1.sockCloseErr, sink := { w1.sink with budget := some 0 }, inbox := [] }) (congrArg (fun x => Out.ok x _) hs1)).trans rfl
      · subst hw1; rfl
      · subst hw1; rfl

/-- Close on a connection on which nothing is going on sends nothing, however many transactions are open. -/
theorem c35_nothing_sent (h : Idle w d) (hs : w.sockCloseErr = false) :
    ∃ w', connClose D.peer close w = .ok none w' ∧ w'.sink.out = w.sink.out ∧ w'.srv = w.srv := by
  refine ⟨{ w with closed := true, connErr := w.connErr || w.sockCloseErr, sink := { w.sink with budget := some 0 }, inbox := [] }, ?_, rfl, rfl⟩
  unfold connClose
  refine (mbind_ok (x := M.get fun w => w.closed) (a := false) (w' := w) (congrArg (fun x => Out.ok x w) h.synced.closed)).trans ?_
  have hcc : closeCurrent D.peer close w = .ok none w := by
    unfold closeCurrent
    exact (mbind_ok (x := M.get fun w => w.statement) (a := none) (w' := w) (congrArg (fun x => Out.ok x w) h.statement)).trans rfl
  refine (mbind_ok hcc).trans ?_
  refine (mbind_ok (a := none) (w' := w) ?_).trans ?_
  · exact (mbind_ok (x := M.get fun w => w.transaction) (a := none) (w' := w) (congrArg (fun x => Out.ok x w) h.transaction)).trans rfl
  refine (mbind_ok (x := M.modify _) (a := ()) rfl).trans ?_
  refine (mbind_ok (x := M.get fun w => w.sockCloseErr) (a := false) (w' := { w with closed := true, connErr := w.connErr || w.sockCloseErr, sink := { w.sink with budget := some 0 }, inbox := [] }) (congrArg (fun x => Out.ok x _) hs)).trans rfl

/-- C35 is false: Begin, then Close: Close returns nil and the server has executed BEGIN and nothing else. -/
theorem c35_false (close : M (Srv Nat) (Option GoErr)) :
    ∃ h' w', runCalls demo.peer close .none [.begin, .close] (freshConn 0 4096) = .ok ([.done, .done], h') w' ∧ w'.srv.db = 1 ∧ w'.closed = true := by
  obtain ⟨w1, h1, _, i1, t1, s1⟩ := c34_begin_again (D := demo) (close := close) demo_idle rfl rfl
  obtain ⟨w2, h2, _, h3⟩ := c35_nothing_sent (D := demo) (close := close) i1 (s1.trans rfl)
  refine ⟨⟨none, none, some 0⟩, w2, ?_, by rw [h3]; exact congrArg Srv.db i1.synced.srv, connClose_ok h2⟩
  exact runCalls_cons ((mbind_ok h1).trans rfl) (runCalls_cons ((mbind_ok h2).trans rfl) rfl)

/-! ## C36 -/

/-- C36 for the rows of a prepared query, any number of its records read, before Commit or Rollback (`fin`, `fq`): the
result is that of the command itself, and the connection is in step. Missing: rows of direct queries. -/
theorem c36_prepared_partial (h : Idle w d) (hs : w.sockCloseErr = false) {q : Str} {kvs : KVs} (hsend : Sendable w.chunkSize (.run q kvs))
    {bh bm : KVs} (hb : (D.exec d txBegin []).2 = .answer bh [] (.summary bm)) {fin : Call KVs} {fq : Str} (hf : Finish fin fq) :
    ∃ ps, MeansKVs kvs ps ∧ ∀ d2 hd rs md k, D.exec (D.exec d txBegin []).1 q ps = (d2, .answer hd rs (.summary md)) → k ≤ rs.length + 1 →
      (D.exec d2 fq []).2.isQuiet = true →
      ∃ h' w', runCalls D.peer close .none ([.begin, .prepare q, .stQuery kvs] ++ List.replicate k .next ++ [fin]) w =
        .ok ([.done, .done, .rows hd] ++ (rs.map Res.row ++ [Res.eof md]).take k ++ [(D.exec d2 fq []).2.cmdRes], h') w' ∧ Idle w' (D.exec d2 fq []).1 := by
  simp only [show txBegin = qBegin from rfl] at *
  obtain ⟨w1, h1, e1, r1⟩ := ran_begin (D := D) (close := close) (h.rep hs) hb
  obtain ⟨w2, h2, e2, r2⟩ : Ran D close w1 h1 [.prepare q] [.done] ⟨(D.exec d qBegin []).1, .stmt ⟨q, []⟩, true, w.chunkSize⟩ :=
    .step (m := .prepare q) r1 deliv_prepare (fun _ h => by cases h; rfl) (by simp [Sess.step]) fun hr => .nil hr
  obtain ⟨ps, hps, hx⟩ := ran_stQuery (D := D) (close := close) r2 hsend
  refine ⟨ps, hps, fun d2 hd rs md k ha hk hquiet => ?_⟩
  obtain ⟨o', ⟨w3, h3, e3, r3⟩, hdr⟩ := hx hd rs md k (by rw [ha]) hk
  rw [ha] at r3
  obtain ⟨w4, h4, e4, hi⟩ := finish_drained (D := D) (close := close) r3 hdr hf hquiet
  refine ⟨h4, w4, ?_, hi⟩
  have := runCalls_append e4 _ (runCalls_append e3 _ (runCalls_append e2 _ e1))
  simpa using this

/-- The same for the rows of a prepared pipeline. -/
theorem c36_pipeline_partial (h : Idle w d) (hs : w.sockCloseErr = false) {qs : List Str} {l : List KVs} (hl : l.length = qs.length)
    (hsend : ∀ x ∈ qs.zip l, Sendable w.chunkSize (.run x.1 x.2))
    {bh bm : KVs} (hb : (D.exec d txBegin []).2 = .answer bh [] (.summary bm)) {fin : Call KVs} {fq : Str} (hf : Finish fin fq) :
    ∃ m, MeansAll (qs.zip l) m ∧ ∀ a as k, (D.runAll (D.exec d txBegin []).1 m).2 = (a :: as).map Answer.outcome → k ≤ (stepsOf (a :: as)).length →
      (D.exec (D.runAll (D.exec d txBegin []).1 m).1 fq []).2.isQuiet = true →
      ∃ h' w', runCalls D.peer close .none ([.begin, .preparePipe qs, .stQueryPipe l] ++ List.replicate k .nextPipe ++ [fin]) w =
        .ok ([.done, .done, .rows a.header] ++ ((stepsOf (a :: as)).take k).map PStep.res ++ [(D.exec (D.runAll (D.exec d txBegin []).1 m).1 fq []).2.cmdRes], h') w' ∧
        Idle w' (D.exec (D.runAll (D.exec d txBegin []).1 m).1 fq []).1 := by
  simp only [show txBegin = qBegin from rfl] at *
  obtain ⟨w1, h1, e1, r1⟩ := ran_begin (D := D) (close := close) (h.rep hs) hb
  obtain ⟨w2, h2, e2, r2⟩ : Ran D close w1 h1 [.preparePipe qs] [.done] ⟨(D.exec d qBegin []).1, .stmt ⟨[], qs⟩, true, w.chunkSize⟩ :=
    .step (m := .preparePipe qs) r1 deliv_preparePipe (fun _ h => by cases h; rfl) (by simp [Sess.step]) fun hr => .nil hr
  obtain ⟨m, hm, hx⟩ := ran_stQueryPipe (D := D) (close := close) r2 hl hsend
  refine ⟨m, hm, fun a as k ha hk hquiet => ?_⟩
  obtain ⟨o', ⟨w3, h3, e3, r3⟩, hdr⟩ := hx a as k ha hk
  obtain ⟨w4, h4, e4, hi⟩ := finish_drained (D := D) (close := close) r3 hdr hf hquiet
  refine ⟨h4, w4, ?_, hi⟩
  have := runCalls_append e4 _ (runCalls_append e3 _ (runCalls_append e2 _ e1))
  simpa using this

/-- The same for the rows of a direct query that have been read to the end. -/
theorem c36_read_partial (h : Idle w d) (hs : w.sockCloseErr = false) {q : Str} {kvs : KVs} (hsend : Sendable w.chunkSize (.run q kvs))
    {bh bm : KVs} (hb : (D.exec d txBegin []).2 = .answer bh [] (.summary bm)) {fin : Call KVs} {fq : Str} (hf : Finish fin fq) :
    ∃ ps, MeansKVs kvs ps ∧ ∀ d2 hd rs md, D.exec (D.exec d txBegin []).1 q ps = (d2, .answer hd rs (.summary md)) →
      (D.exec d2 fq []).2.isQuiet = true →
      ∃ h' w', runCalls D.peer close .none ([.begin, .query q kvs] ++ List.replicate rs.length .next ++ [.next, fin]) w =
        .ok ([.done, .rows hd] ++ rs.map Res.row ++ [Res.eof md, (D.exec d2 fq []).2.cmdRes], h') w' ∧ Idle w' (D.exec d2 fq []).1 := by
  simp only [show txBegin = qBegin from rfl] at *
  obtain ⟨w1, h1, e1, r1⟩ := ran_begin (D := D) (close := close) (h.rep hs) hb
  obtain ⟨ps, hps, hx⟩ := ran_query_records (D := D) (close := close) r1 hsend
  refine ⟨ps, hps, fun d2 hd rs md ha hquiet => ?_⟩
  obtain ⟨w2, h2, e2, r2⟩ := hx hd rs _ (by rw [ha])
  rw [ha] at r2
  obtain ⟨w3, h3, e3, r3⟩ : Ran D close w2 h2 [.next] [Res.eof md] ⟨d2, .ended ⟨q, []⟩ true, true, w.chunkSize⟩ :=
    .step (m := .next) r2 deliv_next (fun _ h => by cases h; rfl) (by simp [Sess.step, Open.cursor]) fun hr => .nil hr
  obtain ⟨w4, e4, hi⟩ := finish_ended (D := D) (close := close) r3 hf hquiet
  refine ⟨h3, w4, ?_, hi⟩
  have := runCalls_append e4 _ (runCalls_append e3 _ (runCalls_append e2 _ e1))
  simpa using this

/-- Commit after one of two rows of a prepared query. -/
example (close : M (Srv Nat) (Option GoErr)) : ∃ h' w', runCalls demo.peer close .none [.begin, .prepare [65], .stQuery [], .next, .commit] (freshConn 0 4096) =
    .ok ([.done, .done, .rows [([104], .int .int64 1)], .row [.int .int8 1], .done], h') w' ∧ Idle w' 3 := by
  obtain ⟨ps, hps, h1⟩ := c36_prepared_partial (D := demo) (close := close) demo_idle rfl (q := [65]) (kvs := []) (demo_sendable _ (by decide)) (bh := []) (bm := []) rfl .commit
  cases hps
  exact h1 2 _ _ _ 1 rfl (by decide) rfl

/-- C36 is false for the rows of a direct query: Commit returns an error although the server has executed COMMIT. It
read the query's rows in place of the answer to COMMIT. -/
theorem c36_false (close : M (Srv Nat) (Option GoErr)) :
    ∃ h' w', runCalls demo.peer close .none [.begin, .query [65] [], .commit] (freshConn 0 4096) =
        .ok ([.done, .rows [([104], .int .int64 1)], .localError], h') w' ∧ w'.srv.db = 3 ∧ w'.inbox.length = 3 := by
  obtain ⟨w1, h1, e1, r1⟩ := demo_begin_query close
  obtain ⟨w2, h2, hrow, hst, hcl, hin, _, hdb, _⟩ := commit_stale demo close r1 (a := .record [.int .int8 1]) (b := .record [.int .int8 2])
    (tl := [.val (.success [([115], .int .int64 1)])]) rfl (by simp) (by simp)
  exact ⟨h1, w2, runCalls_append h2 [.begin, .query [65] []] e1, hdb, by rw [hin]; rfl⟩

/-! ## C37 -/

/-- C37, what holds: after the failing read the failure has been acknowledged, the server is ready for the next query,
and everything received has been read. Missing: that closing the rows then succeeds. -/
theorem c37_acknowledged_partial (h : Idle w d) (hs : w.sockCloseErr = false) {q : Str} {kvs : KVs} (hsend : Sendable w.chunkSize (.run q kvs)) :
    ∃ ps, MeansKVs kvs ps ∧ ∀ d1 hd rs md, D.exec d q ps = (d1, .answer hd rs (.broken md)) →
      ∃ h' w', runCalls D.peer close .none (.query q kvs :: List.replicate rs.length .next ++ [.next]) w =
        .ok (.rows hd :: rs.map Res.row ++ [.failure md], h') w' ∧ Synced w' d1 .ready := by
  obtain ⟨ps, hps, hx⟩ := ran_query_records (D := D) (close := close) (h.rep hs) hsend
  refine ⟨ps, hps, fun d1 hd rs md ha => ?_⟩
  obtain ⟨w2, h2, e2, r2⟩ := hx hd rs _ (by rw [ha])
  rw [ha] at r2
  obtain ⟨w3, h3, e3, r3⟩ : Ran D close w2 h2 [.next] [Res.failure md] ⟨d1, .dead ⟨q, []⟩ true, false, w.chunkSize⟩ :=
    .step (m := .next) r2 deliv_next (fun _ h => by cases h; rfl) (by simp [Sess.step, Open.cursor]) fun hr => .nil hr
  have hb := r3.body
  exact ⟨h3, w3, runCalls_append e3 _ e2, hb.1.closed, hb.2.1, hb.1.srv, hb.1.budget⟩

/-- C37 is false for every query that breaks off, after any number of records: closing the rows waits for a message
that does not come, reports a bad connection, and does not release the connection: the next Prepare is refused. -/
theorem c37_false (h : Idle w d) (hs : w.sockCloseErr = false) {q q' : Str} {kvs : KVs} (hsend : Sendable w.chunkSize (.run q kvs)) :
    ∃ ps, MeansKVs kvs ps ∧ ∀ d1 hd rs md, D.exec d q ps = (d1, .answer hd rs (.broken md)) →
      ∃ h' w', runCalls D.peer close .none (.query q kvs :: List.replicate rs.length .next ++ [.next, .closeRows, .prepare q']) w =
        .ok (.rows hd :: rs.map Res.row ++ [.failure md, .localError, .localError], h') w' ∧ w'.connErr = true ∧ w'.statement.isSome = true := by
  obtain ⟨ps, hps, hx⟩ := ran_query_records (D := D) (close := close) (h.rep hs) hsend
  refine ⟨ps, hps, fun d1 hd rs md ha => ?_⟩
  obtain ⟨w2, h2, e2, r2⟩ := hx hd rs _ (by rw [ha])
  rw [ha] at r2
  obtain ⟨w3, e3, hc, _, hst, hcl⟩ := close_failed (D := D) (close := close) (p := ⟨q, []⟩) rfl r2
  have e4 : runCalls D.peer close h2 [.prepare q'] w3 = .ok ([.localError], h2) w3 := by
    refine runCalls_cons (rs := []) (h1 := h2) (w1 := w3) ?_ rfl
    have hg : guardConn w3 = .ok (some (.new "An open statement already exists")) w3 := by simp [guardConn, hst]
    have hp : prepare q' [] w3 = .ok (.error (.new "An open statement already exists")) w3 := (mbind_ok hg).trans rfl
    exact (mbind_ok hp).trans rfl
  refine ⟨h2, w3, ?_, hc, hst⟩
  have := runCalls_append e4 _ (runCalls_append e3 _ e2)
  simpa using this

/-- A query that breaks after one record. -/
example (close : M (Srv Nat) (Option GoErr)) : ∃ h' w', runCalls demo.peer close .none [.query [66, 82] [], .next, .next, .closeRows, .prepare [65]] (freshConn 0 4096) =
    .ok ([.rows [], .row [.int .int8 1], .failure [([98], .int .int64 0)], .localError, .localError], h') w' ∧ w'.connErr = true := by
  obtain ⟨ps, hps, h1⟩ := c37_false (D := demo) (close := close) demo_idle rfl (q := [66, 82]) (q' := [65]) (kvs := []) (demo_sendable _ (by decide))
  cases hps
  obtain ⟨h', w', e, hc, _⟩ := h1 1 [] [[.int .int8 1]] _ rfl
  exact ⟨h', w', e, hc⟩

/-! ## C38 -/

/-- C38, what holds: reading past the end gives an error, not a row and not the end of another result; nothing is
sent. It is false that this is done locally: the call waits for the server until the connection times out, and marks
the connection as broken (`connErr`). -/
theorem c38_past_end_partial (h : Idle w d) (hs : w.sockCloseErr = false) {q : Str} {kvs : KVs} (hsend : Sendable w.chunkSize (.run q kvs)) :
    ∃ ps, MeansKVs kvs ps ∧ ∀ d1 hd rs md, D.exec d q ps = (d1, .answer hd rs (.summary md)) →
      ∃ h' w1 w', runCalls D.peer close .none (.query q kvs :: List.replicate rs.length .next ++ [.next]) w = .ok (.rows hd :: rs.map Res.row ++ [.eof md], h') w1 ∧
        runCalls D.peer close h' [.next] w1 = .ok ([.localError], h') w' ∧
        w'.sink = w1.sink ∧ w'.log = w1.log ++ [.recv .ioerr] ∧ w'.connErr = true := by
  obtain ⟨ps, hps, hx⟩ := ran_query_records (D := D) (close := close) (h.rep hs) hsend
  refine ⟨ps, hps, fun d1 hd rs md ha => ?_⟩
  obtain ⟨w2, h2, e2, r2⟩ := hx hd rs _ (by rw [ha])
  rw [ha] at r2
  obtain ⟨w3, h3, e3, r3⟩ : Ran D close w2 h2 [.next] [Res.eof md] ⟨d1, .ended ⟨q, []⟩ true, false, w.chunkSize⟩ :=
    .step (m := .next) r2 deliv_next (fun _ h => by cases h; rfl) (by simp [Sess.step, Open.cursor]) fun hr => .nil hr
  exact ⟨h3, w3, w3.timedOut, runCalls_append e3 _ e2, next_ended (D := D) (close := close) r3, rfl, rfl, rfl⟩

/-- C38 is false: an honest server, an empty result; the second NextNeo times out and marks the connection broken. -/
theorem c38_false (close : M (Srv Nat) (Option GoErr)) :
    ∃ h' w', runCalls demo.peer close .none [.query [67] [], .next, .next] (freshConn 0 4096) = .ok ([.rows [], .eof [], .localError], h') w' ∧ w'.connErr = true ∧
      w'.log.getLast? = some (.recv .ioerr) := by
  obtain ⟨ps, hps, h1⟩ := c38_past_end_partial (D := demo) (close := close) demo_idle rfl (q := [67]) (kvs := []) (demo_sendable _ (by decide))
  cases hps
  obtain ⟨h', w1, w', e1, e2, _, e3, e4⟩ := h1 1 [] [] _ rfl
  exact ⟨h', w', runCalls_append e2 _ e1, e4, by rw [e3]; simp⟩

/-! ## C39 -/

/-- C39 for a prepared pipeline: when the first query is refused, the error is the server's, the statement can be used
again or closed, and the connection is in step. Missing: QueryPipeline of the connection. -/
theorem c39_prepared_partial (h : Idle w d) (hs : w.sockCloseErr = false) {q : Str} {qs : List Str} {kvs : KVs} {l : List KVs} (hl : l.length = qs.length)
    (hsend : ∀ x ∈ (q :: qs).zip (kvs :: l), Sendable w.chunkSize (.run x.1 x.2)) :
    ∃ ps, MeansKVs kvs ps ∧ ∀ d1 md, D.exec d q ps = (d1, .refused md) →
      ∃ h' w', runCalls D.peer close .none [.preparePipe (q :: qs), .stQueryPipe (kvs :: l), .closeStmt] w = .ok ([.done, .failure md, .done], h') w' ∧ Idle w' d1 := by
  obtain ⟨m0, hm0⟩ := sendable_meansAll hsend
  obtain ⟨w1, h1, e1, r1⟩ : Ran D close w .none [.preparePipe (q :: qs)] [.done] ⟨d, .stmt ⟨[], q :: qs⟩, false, w.chunkSize⟩ :=
    .step (m := .preparePipe (q :: qs)) (h.rep hs) deliv_preparePipe (fun _ h => by cases h; rfl) (by simp [Sess.step]) fun hr => .nil hr
  obtain ⟨m, hm, h2⟩ := simulates (D := D) (c := .stQueryPipe (kvs :: l)) close r1 ⟨⟨_, .stQueryPipe (meansAll_params (by simpa using hl) hm0).1⟩, hsend⟩
  cases hm with
  | stQueryPipe hm =>
  obtain ⟨ps, rest, hps, hrest, rfl⟩ := hm
  refine ⟨ps, hps, fun d1 md ha => ?_⟩
  have hlen := meansParams_length hrest
  obtain ⟨w2, h2', e2, r2⟩ := h2 ⟨d1, .stmt ⟨[], q :: qs⟩, false, w.chunkSize⟩ (.failure md) (by
    simp only [Sess.step, List.length_cons]
    rw [if_neg (by omega)]
    simp [Sess.openPipe, ha])
  obtain ⟨w3, h3, e3, r3⟩ : Ran D close w2 h2' [.closeStmt] [.done] ⟨d1, .idle, false, w.chunkSize⟩ :=
    .step (m := .closeStmt) r2 deliv_closeStmt (fun _ h => by cases h; rfl) (by simp [Sess.step, Sess.release]) fun hr => .nil hr
  exact ⟨h3, w3, runCalls_append e3 [_, _] (runCalls_append (runCalls_cons (rs := []) e2 rfl) [_] e1), r3.idle⟩

/-- C39 is false when the server refuses the first query: the next query on the connection is refused by the driver. -/
theorem c39_refused_false (close : M (Srv Nat) (Option GoErr)) :
    ∃ h' w', runCalls demo.peer close .none [.queryPipe [([82, 82], [])], .exec [65] []] (freshConn 0 4096) = .ok ([.failure [([114], .int .int64 0)], .localError], h') w' ∧
      w'.statement.isSome = true := by
  have hm : ∀ m', Call.Means (.queryPipe [([82, 82], [])]) m' → m' = .queryPipe [([82, 82], [])] := by
    intro m' h
    cases h with
    | queryPipe h =>
      obtain ⟨ps, r, h1, h2, rfl⟩ := h
      cases h1; cases h2; rfl
  have hma : MeansAll [([82, 82], [])] [([82, 82], [])] := ⟨[], [], rfl, rfl, rfl⟩
  have hsend : ∀ x ∈ [(([82, 82] : Str), ([] : KVs))], Sendable 4096 (.run x.1 x.2) := by
    intro x hx
    simp at hx
    subst hx
    exact demo_sendable _ (by decide)
  obtain ⟨w1, h1, e1, r1⟩ : Ran demo close (freshConn 0 4096) .none [.queryPipe [([82, 82], [])], .exec [65] []] [.failure [([114], .int .int64 0)], .localError] ⟨1, .leaked, false, 4096⟩ :=
    .step (m := .queryPipe [([82, 82], [])]) (demo_idle.rep rfl) ⟨⟨_, .queryPipe (m := [([82, 82], [])]) hma⟩, hsend⟩ hm (s1 := ⟨1, .leaked, false, 4096⟩)
      (by simp [Sess.step, Sess.openPipe, demo, freshConn]) fun hr =>
    .step (m := .exec [65] []) hr ⟨⟨_, .exec (kvs := []) (ps := []) rfl⟩, trivial⟩ (fun _ h => by cases h with | exec h => cases h; rfl) (by simp [Sess.step]) fun hr => .nil hr
  obtain ⟨_, _, _, _, i, p, hi, _⟩ := r1.body
  exact ⟨h1, w1, e1, by rw [hi]; rfl⟩

/-- C39 is false for a wrong number of parameters, on every open connection without open statement and against every
peer: after the error every query is refused. -/
theorem c39_count_false {σ : Type} {P : Peer σ} {n : Nat} {w : World σ} (hst : w.statement = none) (hcl : w.closed = false) {qs : List Str} {l : List KVs}
    (h : l.length ≠ qs.length) :
    ∃ e w', queryPipeline P (closeN P n) qs l w = .ok (.error e) w' ∧ ∀ op : Op, op.opens = some none → op.Refused P n w' := by
  have hg : guardConn w = .ok none w := by simp [guardConn, hst, hcl]
  let w1 : World σ := { w with stmts := w.stmts ++ [⟨[], qs, true, false, none⟩] }
  let w2 : World σ := { w1 with statement := some w.stmts.length }
  obtain ⟨e, h1⟩ := (c40_statement (P := P) (w := w2) (closeN P n) (s := w.stmts.length) (l := l) (by simpa [World.stmt, w2, w1] using h)).2
  refine ⟨e, w2, ?_, fun op ho => refused_conn ho (.inl rfl)⟩
  unfold queryPipeline
  refine (mbind_ok hg).trans ?_
  refine (mbind_ok (x := newStmt [] qs) (a := w.stmts.length) (w' := w1) rfl).trans ?_
  refine (mbind_ok (x := M.modify fun w => { w with statement := some _ }) (a := ()) (w' := w2) rfl).trans ?_
  exact (mbind_ok h1).trans rfl

example : ∃ e w', queryPipeline yes (closeN yes 1) [[65]] [] yesConn = .ok (.error e) w' ∧ Op.Refused yes 1 w' (.exec [65] []) := by
  obtain ⟨e, w', h1, h2⟩ := c39_count_false (P := yes) (n := 1) (w := yesConn) rfl rfl (qs := [[65]]) (l := []) (by decide)
  exact ⟨e, w', h1, h2 _ rfl⟩

/-! ## C41 -/

/-- C41 for a single query on the connection whose parameters are not supported and that fits the encoder's buffer, in
any state, against any peer: an error, and nothing is sent, received, opened or closed. Missing: longer messages
(`c09_false`), pipelines (`c41_false`). -/
theorem c41_conn_partial {σ : Type} {P : Peer σ} (close : M σ (Option GoErr)) {w : World σ} {q : Str} {kvs : KVs} (h : Rejected w.chunkSize q kvs) :
    (∃ e w', execNeo P close q kvs w = .ok (.error e) w' ∧ Untouched w w') ∧
    (∃ e w', queryNeo P close q kvs w = .ok (.error e) w' ∧ Untouched w w') ∧
    ∃ e w', queryNeoAll P close q kvs w = .ok (.error e) w' ∧ Untouched w w' :=
  ⟨execNeo_reject h, queryNeo_reject h, queryNeoAll_reject h⟩

/-- The same on a statement. -/
theorem c41_statement_partial {σ : Type} {P : Peer σ} {n : Nat} {w0 w : World σ} (h0 : NewConn w0) (hr : Reach P n w0 w) {s : Nat} (hl : s < w.stmts.length)
    {kvs : KVs} (h : Rejected w.chunkSize (w.stmt s).query kvs) :
    (∃ e w', stmtExecNeo P (closeN P n) s kvs w = .ok (.error e) w' ∧ Untouched w w') ∧
    ∃ e w', stmtQueryNeo P (closeN P n) s kvs w = .ok (.error e) w' ∧ Untouched w w' := by
  obtain ⟨ht, _⟩ := hr.keeps h0.tidy
  have hc : (w.stmt s).closed = false → (w.stmt s).conn = true := by
    intro ho
    rcases ht.one s hl with h1 | h1
    · rw [h1] at ho; cases ho
    · exact (ht.sound.alive s h1).2
  obtain ⟨e, l, h1⟩ := stmtExecNeo_reject (P := P) (close := closeN P n) hc h
  obtain ⟨e', l', h2⟩ := stmtQueryNeo_reject (P := P) (close := closeN P n) hc h
  exact ⟨⟨e, _, h1, .log w _⟩, e', _, h2, .log w _⟩

/-- After it, the next query on a connection in step reads its own answer. -/
theorem c41_next_partial (h : Idle w d) {q q' : Str} {kvs kvs' : KVs} (hr : Rejected w.chunkSize q kvs) (hsend : Sendable w.chunkSize (.run q' kvs')) :
    ∃ e w1, execNeo D.peer close q kvs w = .ok (.error e) w1 ∧
      ∃ ps res w2, MeansKVs kvs' ps ∧ execNeo D.peer close q' kvs' w1 = .ok res w2 ∧ exceptRes .summary res = (D.exec d q' ps).2.res ∧ Wrote w w2 ((D.exec d q' ps).2.execSends q' kvs') := by
  obtain ⟨e, w1, h1, h2⟩ := (c41_conn_partial (P := D.peer) close hr).1
  have hi := h2.idle h
  obtain ⟨ps, b, l, res, h3, h4, h5, h6⟩ := exec_ok D close hi.live hi.synced.inbox hi.statement (q := q') (kvs := kvs') (by rw [h2.chunkSize]; exact hsend)
  refine ⟨e, w1, h1, ps, res, _, h3, h6, ?_, b, h4, ?_⟩
  · cases ho : (D.exec d q' ps).2 with
    | refused md => rw [ho] at h5; obtain ⟨e, rfl, he⟩ := h5; simp [exceptRes, GoErr.res, he, Outcome.res]
    | answer hd rs en =>
      cases en with
      | broken md => rw [ho] at h5; obtain ⟨e, rfl, he⟩ := h5; simp [exceptRes, GoErr.res, he, Outcome.res]
      | summary md => rw [ho] at h5; obtain rfl := h5; rfl
  · show w1.sink.out ++ b = _
    rw [h2.sink]

theorem demo_rejected : Rejected 4096 [67] [([112], .other 0)] :=
  ⟨by simp [Val.Supported, Val.All, Val.AllKVs, Val.SupportedHere], by decide⟩

example (close : M (Srv Nat) (Option GoErr)) : ∃ e w1, execNeo demo.peer close [67] [([112], .other 0)] (freshConn 0 4096) = .ok (.error e) w1 ∧ Idle w1 0 := by
  obtain ⟨e, w1, h1, h2⟩ := (c41_conn_partial (P := demo.peer) close (w := freshConn 0 4096) demo_rejected).1
  exact ⟨e, w1, h1, h2.idle demo_idle⟩

/-- C41 is false for pipelines: the parameters of the second query of a pipeline are rejected; the next Exec returns
the summary of the pipeline's first query (0) in place of its own (1). -/
theorem c41_false (close : M (Srv Nat) (Option GoErr)) :
    ∃ e w1 w2, execPipeline demo.peer close [[65], [67]] [[], [([112], .other 0)]] (freshConn 0 4096) = .ok (.error e) w1 ∧
      execNeo demo.peer close [65, 65] [] w1 = .ok (.ok [([115], .int .int64 0)]) w2 ∧
      (demo.exec 1 [65, 65] []).2.res = .summary [([115], .int .int64 1)] ∧ w2.srv.db = 2 := by
  obtain ⟨ps, hps, h1⟩ := execPipe_reject demo close demo_idle (q := [65]) (q' := [67]) (kvs := []) (kvs' := [([112], .other 0)]) (demo_sendable _ (by decide)) demo_rejected
  cases hps
  obtain ⟨e, w1, h2, hl, hst, _, hcs, hi⟩ := h1 _ _ _ rfl
  obtain ⟨ps, w2, hps, h3, h4⟩ := exec_stale demo close hl hst (q := [65, 65]) (kvs := []) (by rw [hcs]; exact demo_sendable _ (by decide)) hi
  cases hps
  exact ⟨e, w1, w2, h2, h3, rfl, h4⟩

/-! ## C42 -/

/-- C42: every sequence of calls on a new connection to an honest server, any database: the results are those of the
abstract session, which runs the queries one after the other on the database, up to the first call that is not
deliverable (its parameters are among those the encoder gets wrong) or for which the abstract session leaves the result
open (C36, C37, C38, C41, C63). -/
theorem c42_history_partial (close : M (Srv δ) (Option GoErr)) (d : δ) {cs : Nat} (h0 : 0 < cs) (h1 : cs ≤ 65535) (calls : List (Call KVs)) :
    Follows D ⟨d, .idle, false, cs⟩ calls (history D.peer close ⟨none, none, none⟩ calls (freshConn d cs)) :=
  follows (D := D) close calls (rep_fresh d h0 h1)

/-- What the abstract session says about a history with a failure, a prepared query and a transaction. -/
example (close : M (Srv Nat) (Option GoErr)) : ∃ h' w', runCalls demo.peer close .none
    [.exec [82, 82] [], .begin, .prepare [65], .stQuery [], .next, .closeStmt, .commit, .commit] (freshConn 0 4096) =
      .ok ([.failure [([114], .int .int64 0)], .done, .done, .rows [([104], .int .int64 2)], .row [.int .int8 1], .done, .done, .localError], h') w' ∧ Idle w' 4 := by
  obtain ⟨w', h', e, r⟩ : Ran demo close (freshConn 0 4096) .none
    [.exec [82, 82] [], .begin, .prepare [65], .stQuery [], .next, .closeStmt, .commit, .commit]
    [.failure [([114], .int .int64 0)], .done, .done, .rows [([104], .int .int64 2)], .row [.int .int8 1], .done, .done, .localError] ⟨4, .idle, false, 4096⟩ :=
    .step (m := .exec [82, 82] []) (demo_idle.rep rfl) ⟨⟨_, .exec (kvs := []) (ps := []) rfl⟩, demo_sendable _ (by decide)⟩ (fun _ h => by cases h with | exec h => cases h; rfl)
      (s1 := ⟨1, .idle, false, 4096⟩) (by simp [Sess.step, demo, freshConn, Outcome.res]) fun hr =>
    .step (m := .begin) hr ⟨⟨_, .begin⟩, by simp⟩ (fun _ h => by cases h; rfl) (s1 := ⟨2, .idle, true, 4096⟩) (by simp [Sess.step, Sess.command, demo]) fun hr =>
    .step (m := .prepare [65]) hr deliv_prepare (fun _ h => by cases h; rfl) (s1 := ⟨2, .stmt ⟨[65], []⟩, true, 4096⟩) (by simp [Sess.step]) fun hr =>
    .step (m := .stQuery []) hr ⟨⟨_, .stQuery (kvs := []) (ps := []) rfl⟩, demo_sendable _ (by decide)⟩ (fun _ h => by cases h with | stQuery h => cases h; rfl)
      (s1 := ⟨3, .fresh ⟨[65], []⟩ [([104], .int .int64 2)] [[.int .int8 1], [.int .int8 2]] (.summary [([115], .int .int64 2)]), true, 4096⟩) (by simp [Sess.step, demo]) fun hr =>
    .step (m := .next) hr deliv_next (fun _ h => by cases h; rfl)
      (s1 := ⟨3, .reading ⟨[65], []⟩ false [([104], .int .int64 2)] [[.int .int8 2]] (.summary [([115], .int .int64 2)]) [] 0, true, 4096⟩) (by simp [Sess.step, Open.cursor]) fun hr =>
    .step (m := .closeStmt) hr deliv_closeStmt (fun _ h => by cases h; rfl) (s1 := ⟨3, .idle, true, 4096⟩) (by simp [Sess.step, Sess.release, restFails]) fun hr =>
    .step (m := .commit) hr ⟨⟨_, .commit⟩, by simp⟩ (fun _ h => by cases h; rfl) (s1 := ⟨4, .idle, false, 4096⟩) (by simp [Sess.step, Sess.finish, Sess.release, Sess.command, demo]) fun hr =>
    .step (m := .commit) hr ⟨⟨_, .commit⟩, by simp⟩ (fun _ h => by cases h; rfl) (by simp [Sess.step, Sess.finish]) fun hr => .nil hr
  exact ⟨h', w', e, r.idle⟩

theorem history_run {σ : Type} {P : Peer σ} {close : M σ (Option GoErr)} : ∀ {calls : List (Call KVs)} {h h' : Handles} {w w' : World σ} {rs : List Res},
    runCalls P close h calls w = .ok (rs, h') w' → history P close h calls w = rs
  | [], h, h', w, w', rs, e => by cases e; rfl
  | c :: cs, h, h', w, w', rs, e => by
    simp only [runCalls] at e
    cases h1 : c.run P close h w with
    | ok x w1 =>
      rw [mbind_ok h1] at e
      cases h2 : runCalls P close x.2 cs w1 with
      | ok y w2 =>
        rw [mbind_ok h2] at e
        cases e
        simp only [history, h1]
        rw [history_run h2]
      | panic s w2 => rw [mbind_panic h2] at e; cases e
      | deep w2 => rw [mbind_deep h2] at e; cases e
    | panic s w1 => rw [mbind_panic h1] at e; cases e
    | deep w1 => rw [mbind_deep h1] at e; cases e

/-- C42 is false without these restrictions: COMMIT refused by the database, reported as success (`c33_false`). -/
theorem c42_false (close : M (Srv Nat) (Option GoErr)) :
    (∀ d, (strict.exec d txCommit []).2.cmdRes = .failure []) ∧
    history strict.peer close ⟨none, none, none⟩ [.begin, .queryPipe [([67], []), ([67], [])], .commit] (freshConn 0 4096) = [.done, .rows [], .done] := by
  simp only [show txCommit = qCommit from rfl] at *
  obtain ⟨_, h', w', h1, _⟩ := c33_false close
  exact ⟨fun d => rfl, history_run h1⟩

end Bolt
