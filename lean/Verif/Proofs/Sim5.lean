import Verif.Proofs.Sim4

/-! The driver simulates the abstract session: transactions, closing, whole histories. -/

namespace Bolt
open PackStream

variable {δ : Type} {D : DB δ} (close : M (Srv δ) (Option GoErr)) {w : World (Srv δ)} {h : Handles} {s : Sess δ}
variable {ce : Bool}

theorem sim_queryAll (hr : RepE ce w h s) {q : Str} {kvs : KVs} (hd : (Call.queryAll q kvs).Deliverable s) :
    SimulatesE D ce close (.queryAll q kvs) w h s := by
  by_cases ho : s.opn = .idle
  · rcases s with ⟨d, o, tx, cs⟩
    simp only at ho
    subst ho
    obtain ⟨h1, h2, h3, h4, h5⟩ := hr.body
    obtain ⟨ps, h6, h7⟩ := queryNeo_ok D close h1 h2 h3 (q := q) (kvs := kvs) (by rw [hr.cs.1]; exact hd.2)
    refine ⟨_, .queryAll h6, ?_⟩
    intro s' r hs
    simp only [Sess.step] at hs
    simp only at h7
    rcases hx : D.exec d q ps with ⟨d', o⟩
    rw [hx] at hs h7
    cases o with
    | refused md =>
      simp only [Option.some.injEq, Prod.mk.injEq] at hs
      obtain ⟨rfl, rfl⟩ := hs
      obtain ⟨b, l, _, h8⟩ := h7
      have hg : Grows w { w.net ⟨w.sink.out ++ b, none⟩ ⟨d', .ready, []⟩ [] (w.log ++ l) with
              stmts := w.stmts ++ [{ query := q, queries := [], conn := false, closed := true, rows := none }] } :=
        ⟨rfl, rfl, rfl, rfl, rfl, .append _ _, .refl _⟩
      have h9 : queryNeoAll D.peer close q kvs w = .ok (.error (queryErr md)) _ := mbind_ok h8
      refine ⟨_, h, (mbind_ok h9).trans (congrArg (fun x => Out.ok (x, h) _) (res_query md)), hr.next hg ?_⟩
      exact ⟨⟨h1.closed, rfl, rfl, h1.cs⟩, rfl, h3, h4.grows hg, h5.grows hg⟩
    | answer hd' rs e =>
      cases e with
      | broken md => simp at hs
      | summary md =>
        simp only [Option.some.injEq, Prod.mk.injEq] at hs
        obtain ⟨rfl, rfl⟩ := hs
        obtain ⟨b, l, _, h8⟩ := h7
        generalize hw1 : ({ w.net ⟨w.sink.out ++ b, none⟩ ⟨d', (Ending.summary md).reply.1, []⟩ ((rs.map Val.record ++ (Ending.summary md).reply.2).map Item.val) (w.log ++ l) with
              stmts := w.stmts ++ [{ query := q, queries := [], conn := true, closed := false, rows := some w.rows.length }]
              rows := w.rows ++ [directRow hd' w.stmts.length]
              statement := some w.stmts.length } : World (Srv δ)) = w1 at h8
        have r1 : w1.rows[w.rows.length]? = some (directRow hd' w.stmts.length) := by subst hw1; simp
        have s1 : w1.stmts[w.stmts.length]? = some { query := q, queries := [], conn := true, closed := false, rows := some w.rows.length } := by
          subst hw1; simp
        have g1 : Grows w w1 := by subst hw1; exact ⟨rfl, rfl, rfl, rfl, rfl, .append _ _, .append _ _⟩
        have c1 : w1.closed = false := by subst hw1; exact h1.closed
        have e1 := row_of r1
        obtain ⟨l2, h9⟩ := rowsAll_summary D close (w := w1) (r := w.rows.length) (rs := rs) (md := md) (by rw [e1]; rfl) (by rw [e1]; rfl)
          (by rw [e1, show (directRow hd' w.stmts.length).stmt = w.stmts.length from rfl, stmt_of s1]) (by subst hw1; rfl)
        generalize hw2 : ((w1.net w1.sink w1.srv [] (w1.log ++ l2)).setRow w.rows.length fun x => { x with finished := true }) = w2 at h9
        have r2 : w2.rows[w.rows.length]? = some { directRow hd' w.stmts.length with finished := true } := by
          subst hw2; exact row_setRow (w := w1.net _ _ _ _) r1
        have s2 : w2.stmts[w.stmts.length]? = some { query := q, queries := [], conn := true, closed := false, rows := some w.rows.length } := by
          subst hw2; exact s1
        have e2 := row_of r2
        have g2 : Grows w1 w2 := by subst hw2; exact (Grows.net w1 _ _ _ _).trans' (Grows.setRow _ _ (fun _ h => h))
        have h10 := rowsDrain_finished D.peer close (w := w2) (r := w.rows.length) (by rw [e2]; rfl) (by rw [e2])
        have h11 := rowsClose_direct D.peer close r2 rfl h10 r2 rfl rfl s2 rfl rfl
        have h12 : queryNeoAll D.peer close q kvs w = .ok (.ok (rs, hd', some md, none)) ((w2.rowsDone w.rows.length).stmtDone w.stmts.length) := by
          unfold queryNeoAll
          rw [mbind_ok h8]
          simp only []
          rw [mbind_ok h9]
          simp only [get_bind, e2]
          rw [mbind_ok h11]
          rfl
        have g3 : Grows w ((w2.rowsDone w.rows.length).stmtDone w.stmts.length) :=
          (g1.trans' g2).trans' ((Grows.rowsDone _ _).trans' (Grows.stmtDone _ _))
        refine ⟨_, h, (mbind_ok h12).trans rfl, hr.next g3 ?_⟩
        refine ⟨?_, ?_, rfl, h4.grows g3, h5.grows g3⟩
        · subst hw2 hw1
          exact ⟨h1.closed, rfl, rfl, h1.cs⟩
        · subst hw2
          rfl
  · obtain ⟨e, h1, h2⟩ := hr.guardConn ho
    obtain ⟨m, hm⟩ := hd.1
    refine sim_local close hr hm (by cases hm; exact busy_step ho trivial) ?_
    simp only [Call.run, queryNeoAll, queryNeo, mbind_run, h1, pure_run, exceptRes, h2]

/-! ### Transactions -/

/-- The result of BEGIN, COMMIT or ROLLBACK. -/
theorem command_ok (hb : Body w h s.db .idle) {q : Str} (hq : q.length ≤ 60000) {tx : Bool} {s' : Sess δ} {r : Res}
    (hs : s.command D q tx = some (s', r)) :
    ∃ b l run pull err w', w' = (w.net ⟨w.sink.out ++ b, none⟩ ⟨s'.db, .ready, []⟩ [] (w.log ++ l)) ∧
      sendRunPullAllConsumeSingle D.peer close q [] w = .ok (run, pull, err) w' ∧ Body w' h s'.db .idle ∧
      ((∃ md e, err = some e ∧ e.innerMost = .failure md ∧ r = .failure md ∧ s' = { s with db := s'.db, opn := .idle }) ∨
       (∃ hd md, err = none ∧ run = .success hd ∧ pull = .success md ∧ r = .done ∧ s' = { s with db := s'.db, opn := .idle, tx := tx })) := by
  obtain ⟨h1, h2, h3, h4, h5⟩ := hb
  unfold Sess.command at hs
  rcases hx : D.exec s.db q [] with ⟨d', o⟩
  rw [hx] at hs
  have quiet : (D.exec s.db q []).2.quiet := by
    rw [hx]
    cases o with
    | refused md => trivial
    | answer hd rs e =>
      cases e <;> simp only at hs <;> split at hs <;> first | (simp at hs; done) | (rename_i hn; simpa [Outcome.quiet] using hn)
  obtain ⟨b, l, h6, run, pull, err, h7, h8⟩ := runSingle_ok D close h1 h2 hq quiet
  rw [hx] at h7 h8
  have body : ∀ d'', d'' = d' → Body (w.net ⟨w.sink.out ++ b, none⟩ ⟨d'', .ready, []⟩ [] (w.log ++ l)) h d'' .idle := by
    rintro _ rfl
    exact ⟨⟨h1.closed, rfl, rfl, h1.cs⟩, rfl, h3, h4.grows (Grows.net _ _ _ _ _), h5.grows (Grows.net _ _ _ _ _)⟩
  cases o with
  | refused md =>
    simp only [Option.some.injEq, Prod.mk.injEq] at hs
    obtain ⟨rfl, rfl⟩ := hs
    exact ⟨b, l, run, pull, err, _, rfl, h7, body _ rfl, .inl ⟨md, _, h8, rfl, rfl, rfl⟩⟩
  | answer hd rs e =>
    cases e with
    | broken md =>
      simp only at hs
      split at hs
      · simp only [Option.some.injEq, Prod.mk.injEq] at hs
        obtain ⟨rfl, rfl⟩ := hs
        exact ⟨b, l, run, pull, err, _, rfl, h7, body _ rfl, .inl ⟨md, _, h8, rfl, rfl, rfl⟩⟩
      · simp at hs
    | summary md =>
      simp only at hs
      split at hs
      · simp only [Option.some.injEq, Prod.mk.injEq] at hs
        obtain ⟨rfl, rfl⟩ := hs
        exact ⟨b, l, run, pull, err, _, rfl, h7, body _ rfl, .inr ⟨hd, md, h8.2.2, h8.1, h8.2.1, rfl, rfl⟩⟩
      · simp at hs

theorem sim_begin (hr : RepE ce w h s) : SimulatesE D ce close .begin w h s := by
  refine ⟨.begin, .begin, ?_⟩
  intro s' r hs
  by_cases ho : s.opn = .idle
  · have hb := hr.body
    rw [ho] at hb
    have hg : w.statement = none ∧ w.closed = false := ⟨hb.2.2.1, hb.1.closed⟩
    have hs' : s.command D qBegin true = some (s', r) := by simpa only [Sess.step, ho, qBegin] using hs
    obtain ⟨b, l, run, pull, err, w', rfl, h1, h2, h3⟩ := command_ok close hb (by decide) hs'
    rcases h3 with ⟨md, e, rfl, h4, rfl, h5⟩ | ⟨hd, md, rfl, rfl, rfl, rfl, h5⟩
    · have h6 : begin_ D.peer close w = .ok (.error (.wrap "An error occurred beginning transaction" (some e)))
          (w.net ⟨w.sink.out ++ b, none⟩ ⟨s'.db, .ready, []⟩ [] (w.log ++ l)) := by
        unfold begin_
        simp only [get_bind, hr.trans, hg.1, hg.2, Option.isSome_none, Bool.false_eq_true, if_false]
        exact mbind_ok h1
      exact ⟨_, h, (mbind_ok h6).trans (congrArg (fun x => Out.ok (x, h) _) (res_failure h4)),
        hr.next (Grows.net _ _ _ _ _) (by rw [h5]; exact h2) rfl (by rw [h5]) (by rw [h5])⟩
    · refine ⟨{ w.net ⟨w.sink.out ++ b, none⟩ ⟨s'.db, .ready, []⟩ [] (w.log ++ l) with txs := w.txs ++ [false] }, { h with t := some w.txs.length }, ?_, ?_⟩
      · have h6 : begin_ D.peer close w = .ok (.ok w.txs.length) { w.net ⟨w.sink.out ++ b, none⟩ ⟨s'.db, .ready, []⟩ [] (w.log ++ l) with txs := w.txs ++ [false] } := by
          unfold begin_
          simp only [get_bind, hr.trans, hg.1, hg.2, Option.isSome_none, Bool.false_eq_true, if_false]
          rw [mbind_ok h1]
          rfl
        exact mbind_ok h6
      · rw [h5]
        obtain ⟨i1, i2, i3, i4, i5⟩ := h2
        refine ⟨hr.cs, hr.trans, hr.sock, hr.err, ?_, ⟨⟨i1.closed, i1.srv, i1.budget, i1.cs⟩, i2, i3, i4, i5⟩⟩
        simp [TxOk]
  · rw [busy_step ho trivial] at hs
    simp only [Option.some.injEq, Prod.mk.injEq] at hs
    obtain ⟨rfl, rfl⟩ := hs
    obtain ⟨e, h1, h2⟩ := hr.guardConn ho
    refine ⟨w, h, ?_, hr⟩
    simp only [Call.run]
    cases hst : w.statement with
    | some i => simp [begin_, hr.trans, hst, mbind_run, GoErr.res, GoErr.innerMost]
    | none =>
      cases hcl : w.closed with
      | true => simp [begin_, hr.trans, hst, hcl, mbind_run, GoErr.res, GoErr.innerMost]
      | false => simp [guardConn, hst, hcl] at h1

theorem release_tx {s s' : Sess δ} {f : Option KVs} (hs : s.release = some (s', f)) :
    s'.tx = s.tx ∧ s'.cs = s.cs ∧ s'.db = s.db ∧ (f = none → s'.opn = .idle) := by
  rcases s with ⟨d, o, tx, cs⟩
  cases hd : o.drained with
  | some x =>
    obtain ⟨p, dr, f'⟩ := x
    rw [release_drained hd] at hs
    cases dr with
    | true => simp at hs
    | false =>
      simp only [Bool.false_eq_true, if_false, Option.some.injEq, Prod.mk.injEq] at hs
      obtain ⟨rfl, rfl⟩ := hs
      exact ⟨rfl, rfl, rfl, fun h => by rw [h]; rfl⟩
  | none =>
    cases o <;> simp only [Open.drained, reduceCtorEq] at hd <;> simp only [Sess.release, Option.some.injEq, Prod.mk.injEq, reduceCtorEq] at hs
    all_goals
      obtain ⟨rfl, rfl⟩ := hs
      exact ⟨rfl, rfl, rfl, fun _ => rfl⟩

theorem finish_ok (hr : RepE ce w h s) {q : Str} (hq : q.length ≤ 60000) {s' : Sess δ} {r : Res} (hs : s.finish D q = some (s', r)) :
    (h.t = none ∧ s' = s ∧ r = .localError) ∨
    ∃ t res w', h.t = some t ∧ txFinish D.peer close q t w = .ok res w' ∧ errRes res = r ∧ RepE ce w' h s' := by
  unfold Sess.finish at hs
  have htx := hr.tx
  cases hx : s.tx with
  | false =>
    rw [hx] at hs htx
    simp only [Bool.false_eq_true, if_false, Option.some.injEq, Prod.mk.injEq] at hs
    obtain ⟨rfl, rfl⟩ := hs
    cases ht : h.t with
    | none => exact .inl ⟨rfl, rfl, rfl⟩
    | some t =>
      simp only [TxOk, Bool.false_eq_true, if_false] at htx
      have := htx t ht
      refine .inr ⟨t, some (.new "Transaction already closed"), w, rfl, ?_, ?_, hr⟩
      · simp [txFinish, World.txClosed, this]
      · rfl
  | true =>
    rw [hx] at hs htx
    simp only [if_true] at hs
    simp only [TxOk, if_true] at htx
    obtain ⟨t, ht, hopen⟩ := htx
    refine .inr ?_
    have hto : w.txClosed t = false := by simp [World.txClosed, hopen]
    cases hrel : s.release with
    | none => simp [hrel] at hs
    | some y =>
      obtain ⟨s1, f⟩ := y
      obtain ⟨w1, res1, h1, h2, h3, h4⟩ := closeOpen_release (D := D) close hr hrel
      obtain ⟨t1, t2, t3, t4⟩ := release_tx hrel
      have run : txFinish D.peer close q t w = (do
          match (← closeOpen close D.peer) with
          | some e => M.pure (some (.wrap "An error occurred closing open rows in transaction" (some e)))
          | none =>
            match ← sendRunPullAllConsumeSingle D.peer close q [] with
            | (_, _, some e) => M.pure (some (.wrap "An error occurred finishing transaction" (some e)))
            | (run, pull, none) =>
              if !run.isSuccess then M.pure (some (.new "Unrecognized response type finishing transaction: %#v"))
              else if !pull.isSuccess then M.pure (some (.new "Unrecognized response type pulling transaction: %#v"))
              else
                M.modify fun w => { w with transaction := none, txs := w.txs.set t true }
                M.pure none : M (Srv δ) (Option GoErr)) w := by
        simp only [txFinish, get_bind, hto, Bool.false_eq_true, if_false]
        rfl
      cases f with
      | some md =>
        simp only [hrel, Option.some.injEq, Prod.mk.injEq] at hs
        obtain ⟨rfl, rfl⟩ := hs
        cases res1 with
        | none => exact absurd (h3.mp rfl) (by simp)
        | some e =>
          refine ⟨t, some (.wrap "An error occurred closing open rows in transaction" (some e)), w1, ht, ?_, ?_, h4⟩
          · rw [run, mbind_ok h1]; rfl
          · exact h2
      | none =>
        simp only [hrel] at hs
        obtain rfl := h3.mpr rfl
        have hb := h4.body
        rw [t4 rfl] at hb
        obtain ⟨b, l, run', pull, err, w', rfl, h5, h6, h7⟩ := command_ok close hb hq hs
        rcases h7 with ⟨md, e, rfl, h8, rfl, h9⟩ | ⟨hd, md, rfl, rfl, rfl, rfl, h9⟩
        · refine ⟨t, some (.wrap "An error occurred finishing transaction" (some e)), _, ht, run.trans ((mbind_ok h1).trans (mbind_ok h5)), ?_,
            h4.next (Grows.net _ _ _ _ _) (by rw [h9]; exact h6) rfl (by rw [h9]) (by rw [h9])⟩
          · exact res_failure h8
        · refine ⟨t, none, { w1.net ⟨w1.sink.out ++ b, none⟩ ⟨s'.db, .ready, []⟩ [] (w1.log ++ l) with transaction := none, txs := w1.txs.set t true }, ht, ?_, rfl, ?_⟩
          · rw [run, mbind_ok h1]
            simp only []
            rw [mbind_ok h5]
            rfl
          · rw [h9]
            obtain ⟨i1, i2, i3, i4, i5⟩ := h6
            refine ⟨h4.cs, rfl, h4.sock, h4.err, ?_, ⟨⟨i1.closed, i1.srv, i1.budget, i1.cs⟩, i2, i3, i4, i5⟩⟩
            have := h4.tx
            rw [t1, hx] at this
            simp only [TxOk, if_true] at this
            obtain ⟨t', ht', hopen'⟩ := this
            rw [ht] at ht'
            obtain rfl := Option.some.inj ht'
            simp only [TxOk, Bool.false_eq_true, if_false]
            intro t'' ht''
            rw [ht] at ht''
            obtain rfl := Option.some.inj ht''
            obtain ⟨hlt, _⟩ := List.getElem?_eq_some_iff.mp hopen'
            simp [hlt]

theorem sim_commit (hr : RepE ce w h s) : SimulatesE D ce close .commit w h s := by
  refine ⟨.commit, .commit, ?_⟩
  intro s' r hs
  rcases finish_ok (D := D) close hr (q := qCommit) (by decide) hs with ⟨h1, rfl, rfl⟩ | ⟨t, res, w', h1, h2, h3, h4⟩
  · exact ⟨w, h, by simp only [Call.run, h1]; rfl, hr⟩
  · refine ⟨w', h, ?_, h4⟩
    simp only [Call.run, h1, Bolt.commit]
    rw [mbind_ok h2, ← h3]
    rfl

theorem sim_rollback (hr : RepE ce w h s) : SimulatesE D ce close .rollback w h s := by
  refine ⟨.rollback, .rollback, ?_⟩
  intro s' r hs
  rcases finish_ok (D := D) close hr (q := qRollback) (by decide) hs with ⟨h1, rfl, rfl⟩ | ⟨t, res, w', h1, h2, h3, h4⟩
  · exact ⟨w, h, by simp only [Call.run, h1]; rfl, hr⟩
  · refine ⟨w', h, ?_, h4⟩
    simp only [Call.run, h1, Bolt.rollback]
    rw [mbind_ok h2, ← h3]
    rfl

/-! ### Closing the connection -/

theorem sim_close (hr : RepE ce w h s) : SimulatesE D ce close .close w h s := by
  refine ⟨.close, .close, ?_⟩
  intro s' r hs
  have final : ∀ w1 : World (Srv δ), w1.closed = false → w1.transaction = none → w1.sockCloseErr = false → w.closed = false →
      closeOpen close D.peer w = .ok none w1 →
      connClose D.peer close w = .ok none { w1 with
          closed := true
          connErr := w1.connErr || w1.sockCloseErr
          sink := { w1.sink with budget := some 0 }
          inbox := [] } := by
    intro w1 h1 h2 h3 h4 h5
    have run : connClose D.peer close w = (do
        match ← closeOpen close D.peer with
        | some e => M.pure (some e)
        | none =>
          let err ← (do
            match ← M.get fun w => w.transaction with
            | none => M.pure none
            | some t => txFinish D.peer close qRollback t)
          match err with
          | some e => M.pure (some (.wrap "Error rolling back transaction when closing connection" (some e)))
          | none =>
            M.modify fun w => { w with
              closed := true
              connErr := w.connErr || w.sockCloseErr
              sink := { w.sink with budget := some 0 }
              inbox := [] }
            if ← M.get fun w => w.sockCloseErr then M.pure (some .badConn) else M.pure none : M (Srv δ) (Option GoErr)) w := by
      simp only [connClose, get_bind, h4, Bool.false_eq_true, if_false]
      rfl
    rw [run, mbind_ok h5]
    simp [h2, h3, mbind_run]
  have shut : ∀ (w1 : World (Srv δ)) (s1 : Sess δ) (dirty : Bool), RepE ce w1 h s1 → w1.statement = none → StaleS w1 h → (dirty = false → StaleR w1 h) →
      RepE ce { w1 with
          closed := true
          connErr := w1.connErr || w1.sockCloseErr
          sink := { w1.sink with budget := some 0 }
          inbox := [] } h { s1 with opn := .closed dirty } := by
    intro w1 s1 dirty h1 h2 h3 h4
    exact ⟨h1.cs, h1.trans, h1.sock, by simp [h1.err, h1.sock], h1.tx, rfl, h2, h3, h4⟩
  have rel : ∀ s1, s.release = some (s1, none) → w.closed = false → s' = { s1 with opn := .closed false } → r = .done →
      ∃ w' h', Call.run D.peer close h .close w = .ok (r, h') w' ∧ RepE ce w' h' s' := by
    rintro s1 h1 h2 rfl rfl
    obtain ⟨w1, res, h3, h4, h5, h6⟩ := closeOpen_release (D := D) close hr h1
    obtain rfl := h5.mpr rfl
    have hb := h6.body
    rw [(release_tx h1).2.2.2 rfl] at hb
    obtain ⟨i1, i2, i3, i4, i5⟩ := hb
    refine ⟨_, h, (mbind_ok (final w1 i1.closed h6.trans h6.sock h2 h3)).trans rfl, shut w1 s1 false h6 i3 i4 (fun _ => i5)⟩
  have relf : ∀ s1 md, s.release = some (s1, some md) → w.closed = false → s' = s1 → r = .failure md →
      ∃ w' h', Call.run D.peer close h .close w = .ok (r, h') w' ∧ RepE ce w' h' s' := by
    rintro s1 md h1 h2 rfl rfl
    obtain ⟨w1, res, h3, h4, h5, h6⟩ := closeOpen_release (D := D) close hr h1
    cases res with
    | none => exact absurd (h5.mp rfl) (by simp)
    | some e =>
      have h7 : connClose D.peer close w = .ok (some e) w1 := by
        simp only [connClose, get_bind, h2, Bool.false_eq_true, if_false]
        exact mbind_ok h3
      exact ⟨w1, h, (mbind_ok h7).trans (congrArg (fun x => Out.ok (x, h) _) h4), h6⟩
  have direct : ∀ {p i ro x}, Hold w h p true i ro → w.rows[ro]? = some x → x.closeStmt = true → w.closed = false → s' = { s with opn := .closed true } → r = .done →
      ∃ w' h', Call.run D.peer close h .close w = .ok (r, h') w' ∧ RepE ce w' h' s' := by
    rintro p i ro x h1 h2 h3 h4 rfl rfl
    have h5 := stmtClose_queryRows D.peer close (w := w) (s := i) (r := ro) (by rw [stmt_of h1.stmt]) (by rw [stmt_of h1.stmt])
      (by rw [stmt_of h1.stmt]) (by rw [row_of h2]; exact h3)
    have h6 : closeOpen close D.peer w = .ok none (w.stmtDone i) := by
      simp only [closeOpen, get_bind, h1.current]
      exact h5
    have hg := Grows.stmtDone w i
    refine ⟨_, h, (mbind_ok (final (w.stmtDone i) h4 hr.trans hr.sock h4 h6)).trans rfl, ?_⟩
    have hst : StaleS (w.stmtDone i) h := StaleS.grows h1.handle hg
    have hstd : ((w.stmtDone i).connErr || (w.stmtDone i).sockCloseErr) = ce := by
      rw [hg.err, hg.sock, hr.err, hr.sock, Bool.or_false]
    exact ⟨hr.cs, hr.trans, hr.sock, hstd, hr.tx, rfl, rfl, hst, fun h => by simp at h⟩
  have relAll : w.closed = false → (match s.release with
        | none => none
        | some (s', none) => some ({ s' with opn := .closed false }, Res.done)
        | some (s', some md) => some (s', .failure md)) = some (s', r) →
      ∃ w' h', Call.run D.peer close h .close w = .ok (r, h') w' ∧ RepE ce w' h' s' := by
    intro hc hs
    cases hrel : s.release with
    | none => simp [hrel] at hs
    | some y =>
      obtain ⟨s1, f⟩ := y
      cases f with
      | none =>
        simp only [hrel, Option.some.injEq, Prod.mk.injEq] at hs
        exact rel s1 hrel hc hs.1.symm hs.2.symm
      | some md =>
        simp only [hrel, Option.some.injEq, Prod.mk.injEq] at hs
        exact relf s1 md hrel hc hs.1.symm hs.2.symm
  rcases s with ⟨d, o, tx, cs⟩
  have hb := hr.body
  cases o with
  | closed dirty =>
    simp only [Sess.step, Option.some.injEq, Prod.mk.injEq] at hs
    obtain ⟨rfl, rfl⟩ := hs
    refine ⟨w, h, ?_, hr⟩
    have h1 : connClose D.peer close w = .ok none w := by simp [connClose, hb.1]
    exact (mbind_ok h1).trans rfl
  | idle => exact relAll hb.1.closed hs
  | leaked => exact relAll hb.1.closed hs
  | stmt p => exact relAll hb.1.closed hs
  | fresh p hd rs e => exact relAll hb.1.closed hs
  | reading p dr hd rs e more n =>
    cases dr with
    | false => exact relAll hb.1.closed hs
    | true =>
      simp only [Sess.step, Option.some.injEq, Prod.mk.injEq] at hs
      obtain ⟨h1, h2, h3, i, ro, idx, h7, h8, _⟩ := hb
      exact direct h7 h8 rfl h1.closed hs.1.symm hs.2.symm
  | ended p dr =>
    cases dr with
    | false => exact relAll hb.1.closed hs
    | true =>
      simp only [Sess.step, Option.some.injEq, Prod.mk.injEq] at hs
      obtain ⟨h1, h2, i, ro, x, h7, h8, _, _, _, _, h9⟩ := hb
      exact direct h7 h8 h9 h1.closed hs.1.symm hs.2.symm
  | dead p dr =>
    cases dr with
    | false => exact relAll hb.1.closed hs
    | true =>
      simp only [Sess.step, Option.some.injEq, Prod.mk.injEq] at hs
      obtain ⟨h1, h2, i, ro, x, h7, h8, _, _, h9⟩ := hb
      exact direct h7 h8 h9 h1.closed hs.1.symm hs.2.symm

theorem Live.chunk {w : World (Srv δ)} {d : δ} {m : Mode} (h : Live w d m) {n : Nat} (h1 : 0 < n) (h2 : n ≤ 65535) :
    Live { w with chunkSize := n } d m := ⟨h.closed, h.srv, h.budget, h1, h2⟩

theorem body_chunk {d : δ} {o : Open} (hb : Body w h d o) {n : Nat} (h1 : 0 < n) (h2 : n ≤ 65535) :
    Body { w with chunkSize := n } h d o := by
  cases o with
  | idle => obtain ⟨i1, i2, i3, i4, i5⟩ := hb; exact ⟨i1.chunk h1 h2, i2, i3, i4, i5⟩
  | leaked => obtain ⟨i1, i2, i3, i4, i5⟩ := hb; exact ⟨i1.chunk h1 h2, i2, i3, i4, i5⟩
  | stmt p => obtain ⟨i1, i2, i3, i4⟩ := hb; exact ⟨i1.chunk h1 h2, i2, i3, i4⟩
  | fresh p hd rs e => obtain ⟨i1, i2, i3, i, r, i4, i5⟩ := hb; exact ⟨i1.chunk h1 h2, i2, i3, i, r, ⟨i4.row, i4.handle, i4.current, i4.stmt⟩, i5⟩
  | reading p dr hd rs e more k =>
    obtain ⟨i1, i2, i3, i, r, idx, i4, i5⟩ := hb
    exact ⟨i1.chunk h1 h2, i2, i3, i, r, idx, ⟨i4.row, i4.handle, i4.current, i4.stmt⟩, i5⟩
  | ended p dr => obtain ⟨i1, i2, i, r, x, i4, i5⟩ := hb; exact ⟨i1.chunk h1 h2, i2, i, r, x, ⟨i4.row, i4.handle, i4.current, i4.stmt⟩, i5⟩
  | dead p dr => obtain ⟨i1, i2, i, r, x, i4, i5⟩ := hb; exact ⟨i1.chunk h1 h2, i2, i, r, x, ⟨i4.row, i4.handle, i4.current, i4.stmt⟩, i5⟩
  | closed dirty => exact hb

theorem sim_setChunkSize (hr : RepE ce w h s) {n : UInt16} : SimulatesE D ce close (.setChunkSize n) w h s := by
  refine ⟨.setChunkSize n, .setChunkSize, ?_⟩
  intro s' r hs
  simp only [Sess.step] at hs
  split at hs
  · simp at hs
  · rename_i hn
    simp only [Option.some.injEq, Prod.mk.injEq] at hs
    obtain ⟨rfl, rfl⟩ := hs
    have h1 : 0 < n.toNat := by
      rcases Nat.eq_zero_or_pos n.toNat with h0 | h0
      · exact absurd (UInt16.toNat_inj.mp (by simpa using h0)) hn
      · exact h0
    have h2 : n.toNat ≤ 65535 := by have := n.toNat_lt; omega
    exact ⟨{ w with chunkSize := n.toNat }, h, rfl, ⟨rfl, h1, h2⟩, hr.trans, hr.sock, hr.err, hr.tx, body_chunk hr.body h1 h2⟩

/-! ### Histories -/

theorem simulatesE (hr : RepE ce w h s) {c : Call KVs} (hd : c.Deliverable s) : SimulatesE D ce close c w h s := by
  cases c with
  | exec q kvs => exact sim_exec close hr hd
  | query q kvs => exact sim_query close hr hd
  | queryAll q kvs => exact sim_queryAll close hr hd
  | execPipe l => exact sim_execPipe close hr hd
  | queryPipe l => exact sim_queryPipe close hr hd
  | prepare q => exact sim_prepare close hr
  | preparePipe qs => exact sim_preparePipe close hr
  | stExec kvs => exact sim_stExec close hr hd
  | stQuery kvs => exact sim_stQuery close hr hd
  | stExecPipe l => exact sim_stExecPipe close hr hd
  | stQueryPipe l => exact sim_stQueryPipe close hr hd
  | next => exact sim_next close hr
  | all => exact sim_all close hr
  | nextPipe => exact sim_nextPipe close hr
  | closeRows => exact sim_closeRows close hr
  | closeStmt => exact sim_closeStmt close hr
  | begin => exact sim_begin close hr
  | commit => exact sim_commit close hr
  | rollback => exact sim_rollback close hr
  | close => exact sim_close close hr
  | setChunkSize n => exact sim_setChunkSize close hr

/-- The world represents the abstract session. -/
abbrev Rep (w : World (Srv δ)) (h : Handles) (s : Sess δ) : Prop := RepE w.connErr w h s

theorem RepE.rep (hr : RepE ce w h s) : Rep w h s := by
  unfold Rep
  rw [hr.err]
  exact hr

/-- One call behaves like the abstract session. -/
def Simulates (D : DB δ) (close : M (Srv δ) (Option GoErr)) (c : Call KVs) (w : World (Srv δ)) (h : Handles) (s : Sess δ) : Prop :=
  ∃ m, c.Means m ∧ ∀ s' r, s.step D m = some (s', r) → ∃ w' h', c.run D.peer close h w = .ok (r, h') w' ∧ Rep w' h' s'

theorem simulates (hr : Rep w h s) {c : Call KVs} (hd : c.Deliverable s) : Simulates D close c w h s := by
  obtain ⟨m, h1, h2⟩ := simulatesE (D := D) close hr hd
  refine ⟨m, h1, fun s' r hs => ?_⟩
  obtain ⟨w', h', h3, h4⟩ := h2 s' r hs
  exact ⟨w', h', h3, h4.rep⟩

theorem follows (calls : List (Call KVs)) : ∀ {w : World (Srv δ)} {h : Handles} {s : Sess δ}, Rep w h s →
    Follows D s calls (history D.peer close h calls w) := by
  induction calls with
  | nil => intro w h s _; rfl
  | cons c cs ih =>
    intro w h s hr hd
    obtain ⟨m, hm, h1⟩ := simulates (D := D) close hr hd
    refine ⟨m, hm, ?_⟩
    cases hx : s.step D m with
    | none => trivial
    | some y =>
      obtain ⟨s', r⟩ := y
      obtain ⟨w', h', h2, h3⟩ := h1 s' r hx
      refine ⟨history D.peer close h' cs w', ?_, ih h3⟩
      simp only [history, h2]

theorem rep_fresh (d : δ) {cs : Nat} (h0 : 0 < cs) (h1 : cs ≤ 65535) :
    Rep (freshConn d cs) ⟨none, none, none⟩ ⟨d, .idle, false, cs⟩ :=
  ⟨⟨rfl, h0, h1⟩, rfl, rfl, rfl, by simp [TxOk], ⟨rfl, rfl, rfl, h0, h1⟩, rfl, rfl, by simp [StaleS], by simp [StaleR]⟩

end Bolt
