import Verif.Spec.Commands
import Verif.Props.Session1

/-!
# C25, C26, C27, C28: pipelines of rows, failures
-/

namespace Bolt
open PackStream

variable {δ : Type} {D : DB δ} {close : M (Srv δ) (Option GoErr)} {w : World (Srv δ)} {d : δ}

/-! ## C25 -/

/-- C25: walking the rows of a pipeline with NextPipeline gives, query by query, exactly its records and then the
rows object of the next query with its header; closing the last rows leaves the connection idle. -/
theorem c25_queryPipeline_partial (h : Idle w d) (hk : w.sockCloseErr = false) {l : List (Str × KVs)}
    (hs : ∀ x ∈ l, Sendable w.chunkSize (.run x.1 x.2)) :
    ∃ m, MeansAll l m ∧ ∀ a as, (D.runAll d m).2 = (a :: as).map Answer.outcome →
      (a :: as).length = l.length ∧
      ∃ h' w', runCalls D.peer close .none ((.queryPipe l :: List.replicate (stepsOf (a :: as)).length .nextPipe) ++ [.closeRows]) w =
          .ok ((.rows a.header :: (stepsOf (a :: as)).map PStep.res) ++ [.done], h') w' ∧
        Idle w' (D.runAll d m).1 := by
  obtain ⟨m, h1, h2⟩ := ran_queryPipe (D := D) (close := close) (h.rep hk) hs
  refine ⟨m, h1, fun a as ha => ⟨(runAll_answers ha).trans (meansAll_length h1), ?_⟩⟩
  obtain ⟨o', ⟨w1, h3, e1, hr1⟩, h4⟩ := h2 a as _ ha (Nat.le_refl _)
  obtain ⟨w2, h5, e2, hr2⟩ := ran_closeRows (close := close) hr1 h4
  rw [List.take_length] at e1
  exact ⟨h5, w2, runCalls_append e2 _ e1, hr2.idle⟩

/-- C25 for a prepared pipeline. -/
theorem c25_prepared_partial (h : Idle w d) (hk : w.sockCloseErr = false) {qs : List Str} {l : List KVs} (hl : l.length = qs.length)
    (hs : ∀ x ∈ qs.zip l, Sendable w.chunkSize (.run x.1 x.2)) :
    ∃ m, MeansAll (qs.zip l) m ∧ ∀ a as, (D.runAll d m).2 = (a :: as).map Answer.outcome →
      (a :: as).length = qs.length ∧
      ∃ h' w', runCalls D.peer close .none (.preparePipe qs :: ((.stQueryPipe l :: List.replicate (stepsOf (a :: as)).length .nextPipe) ++ [.closeRows, .closeStmt])) w =
          .ok (.done :: ((.rows a.header :: (stepsOf (a :: as)).map PStep.res) ++ [.done, .done]), h') w' ∧
        Idle w' (D.runAll d m).1 := by
  obtain ⟨m0, h1, h2⟩ := simulates (D := D) (c := .preparePipe qs) close (h.rep hk) deliv_preparePipe
  cases h1
  obtain ⟨w0, h0, e0, hr0⟩ := h2 ⟨d, .stmt ⟨[], qs⟩, false, w.chunkSize⟩ .done (by simp [Sess.step])
  obtain ⟨m, h1, h2⟩ := ran_stQueryPipe (D := D) (close := close) hr0 hl hs
  refine ⟨m, h1, fun a as ha => ⟨((runAll_answers ha).trans (meansAll_length h1)).trans (by simp [hl]), ?_⟩⟩
  obtain ⟨o', ⟨w1, h3, e1, hr1⟩, h4⟩ := h2 a as _ ha (Nat.le_refl _)
  obtain ⟨w2, h5, e2, hr2⟩ := ran_closeRows (close := close) hr1 h4
  obtain ⟨wc, hc, ec, hrc⟩ := Ran.step (close := close) (m := .closeStmt) hr2 deliv_closeStmt (fun m' h => by cases h; rfl)
    (s1 := ⟨(D.runAll d m).1, .idle, false, w.chunkSize⟩) (r := .done) (by simp [Sess.step, Sess.release]) fun hr' => Ran.nil hr'
  rw [List.take_length] at e1
  exact ⟨hc, wc, runCalls_cons e0 (runCalls_append (runCalls_append (a := [.closeRows]) ec e2) _ e1), hrc.idle⟩

/-- The answers of the demo database to queries `A`, `C` and `A`. -/
def demoAnswers : List Answer :=
  [⟨[([104], .int .int64 0)], [[.int .int8 1], [.int .int8 2]], [([115], .int .int64 0)]⟩, ⟨[], [], []⟩,
    ⟨[([104], .int .int64 2)], [[.int .int8 1], [.int .int8 2]], [([115], .int .int64 2)]⟩]

example (close : M (Srv Nat) (Option GoErr)) : ∃ h' w', runCalls demo.peer close .none
    [.queryPipe [([65], []), ([67], []), ([65], [])], .nextPipe, .nextPipe, .nextPipe, .nextPipe, .nextPipe, .nextPipe, .nextPipe, .closeRows] (freshConn 0 4096) =
      .ok ([.rows [([104], .int .int64 0)], .row [.int .int8 1], .row [.int .int8 2], .next [] [], .next [([104], .int .int64 2)] [([104], .int .int64 2)],
        .row [.int .int8 1], .row [.int .int8 2], .pipeEnd, .done], h') w' ∧ Idle w' 3 := by
  obtain ⟨m, h1, h2⟩ := c25_queryPipeline_partial (D := demo) (close := close) demo_idle rfl (l := [([65], []), ([67], []), ([65], [])])
    (fun x hx => by simp at hx; rcases hx with rfl | rfl | rfl <;> exact demo_sendable _ (by decide))
  obtain ⟨p1, r1, -, ⟨p2, r2, -, ⟨p3, r3, -, rfl, rfl⟩, rfl⟩, rfl⟩ := h1
  exact (h2 _ _ (show _ = demoAnswers.map Answer.outcome from rfl)).2

/-! ## C26 -/

theorem gotPipe_end {σ : Type} {h h' : Handles} {x : PipeRes} {w w' : World σ} (hx : gotPipe h x w = .ok (.pipeEnd, h') w') :
    x.err = none ∧ x.row = none ∧ x.next = none := by
  obtain ⟨row, md, next, err⟩ := x
  cases err with
  | some e =>
    simp only [gotPipe, M.pure, Out.ok.injEq, Prod.mk.injEq] at hx
    have := hx.1.1
    unfold GoErr.res at this
    split at this <;> cases this
  | none =>
    cases row with
    | some fs => simp [gotPipe, M.pure] at hx
    | none =>
      cases next with
      | none => exact ⟨rfl, rfl, rfl⟩
      | some r =>
        have h1 : gotPipe h ⟨none, md, some r, none⟩ w = .ok (.next (md.getD []) (w.row r).md, { h with r := some r }) w := rfl
        rw [h1] at hx
        simp at hx

/-- The step before the end. -/
theorem stepsOf_last (as : List Answer) : ∀ a : Answer, ∃ l, stepsOf (a :: as) = l ++ [.done] ∧ PStep.done ∉ l := by
  induction as with
  | nil => intro a; exact ⟨a.records.map .row, rfl, by simp⟩
  | cons b as ih =>
    intro a
    obtain ⟨l, h1, h2⟩ := ih b
    exact ⟨a.records.map .row ++ [.next b.header b.header] ++ l, by simp [stepsOf, h1], by simp [h2]⟩

/-- C26 is false, for every pipeline of queries that all succeed: when everything has been consumed, NextPipeline
returns no row, no rows and a nil error, not io.EOF. -/
theorem c26_eof_false (h : Idle w d) (hk : w.sockCloseErr = false) {l : List (Str × KVs)}
    (hs : ∀ x ∈ l, Sendable w.chunkSize (.run x.1 x.2)) :
    ∃ m, MeansAll l m ∧ ∀ a as, (D.runAll d m).2 = (a :: as).map Answer.outcome →
      ∃ k rs h' w' r x w'', runCalls D.peer close .none (.queryPipe l :: List.replicate k .nextPipe) w = .ok (rs, h') w' ∧
        rs.length = k + 1 ∧ .pipeEnd ∉ rs ∧ h'.r = some r ∧
        nextPipeline D.peer close r w' = .ok x w'' ∧ x.row = none ∧ x.next = none ∧ x.err = none := by
  obtain ⟨m, h1, h2⟩ := ran_queryPipe (D := D) (close := close) (h.rep hk) hs
  refine ⟨m, h1, fun a as ha => ?_⟩
  obtain ⟨st, hst, hdone⟩ := stepsOf_last as a
  obtain ⟨o2, ⟨w2, h5, e2, hr2⟩, h6⟩ := h2 a as (st.length + 1) ha (by simp [hst])
  rw [List.replicate_succ', ← List.cons_append, hst, List.take_of_length_le (by simp), List.map_append, ← List.cons_append] at e2
  obtain ⟨ra, r, h1', w1, e3, e4, e5⟩ := runCalls_snoc _ e2
  obtain ⟨rfl, rfl⟩ : (Res.rows a.header :: st.map PStep.res) = ra ∧ Res.pipeEnd = r := by
    have h7 := List.append_inj' e5 rfl
    exact ⟨h7.1, by simpa [PStep.res] using h7.2⟩
  cases hr : h1'.r with
  | none => rw [show Call.run D.peer close h1' .nextPipe = M.pure (.localError, h1') by simp [Call.run, hr]] at e4; cases e4
  | some r =>
    have e6 : Call.run D.peer close h1' .nextPipe = (do gotPipe h1' (← nextPipeline D.peer close r)) := by simp [Call.run, hr]
    rw [e6] at e4
    cases hn : nextPipeline D.peer close r w1 with
    | panic p w' => rw [mbind_panic hn] at e4; cases e4
    | deep w' => rw [mbind_deep hn] at e4; cases e4
    | ok x w3 =>
      rw [mbind_ok hn] at e4
      obtain ⟨h8, h9, h10⟩ := gotPipe_end e4
      refine ⟨st.length, _, h1', w1, r, x, w3, e3, by simp, ?_, hr, hn, h9, h10, h8⟩
      simp only [List.mem_cons, List.mem_map, not_or, not_exists, not_and, reduceCtorEq, not_false_iff, true_and]
      intro y hy
      cases y with
      | done => exact absurd hy hdone
      | row fs => simp [PStep.res]
      | next h m => simp [PStep.res]

/-- C26, what does hold: the end is reported, exactly once, at the end of the last query. -/
theorem c26_end_partial (h : Idle w d) (hk : w.sockCloseErr = false) {l : List (Str × KVs)}
    (hs : ∀ x ∈ l, Sendable w.chunkSize (.run x.1 x.2)) :
    ∃ m, MeansAll l m ∧ ∀ a as, (D.runAll d m).2 = (a :: as).map Answer.outcome →
      ∃ k rs h' w', runCalls D.peer close .none (.queryPipe l :: List.replicate (k + 1) .nextPipe) w = .ok (rs ++ [.pipeEnd], h') w' ∧
        .pipeEnd ∉ rs ∧ rs.length = k + 1 ∧ k = ((a :: as).map fun b => b.records.length).sum + as.length := by
  obtain ⟨m, h1, h2⟩ := ran_queryPipe (D := D) (close := close) (h.rep hk) hs
  refine ⟨m, h1, fun a as ha => ?_⟩
  obtain ⟨st, hst, hdone⟩ := stepsOf_last as a
  obtain ⟨o2, ⟨w2, h5, e2, hr2⟩, h6⟩ := h2 a as (st.length + 1) ha (by simp [hst])
  rw [hst, List.take_of_length_le (by simp), List.map_append, ← List.cons_append] at e2
  refine ⟨st.length, _, h5, w2, e2, ?_, by simp, ?_⟩
  · simp only [List.mem_cons, List.mem_map, not_or, not_exists, not_and, reduceCtorEq, not_false_iff, true_and]
    intro y hy
    cases y with
    | done => exact absurd hy hdone
    | row fs => simp [PStep.res]
    | next h m => simp [PStep.res]
  · have : (stepsOf (a :: as)).length = ((a :: as).map fun b => b.records.length).sum + as.length + 1 := by
      clear h2 ha h6 e2 hr2 hst
      induction as generalizing a with
      | nil => simp [stepsOf]
      | cons b as ih => simp only [stepsOf, List.length_append, ih]; simp; omega
    rw [hst] at this
    simpa using this

/-- One query with two records. -/
example (close : M (Srv Nat) (Option GoErr)) : ∃ k rs h' w' r x w'', runCalls demo.peer close .none (.queryPipe [([65], [])] :: List.replicate k .nextPipe) (freshConn 0 4096) = .ok (rs, h') w' ∧
    h'.r = some r ∧ nextPipeline demo.peer close r w' = .ok x w'' ∧ x.row = none ∧ x.next = none ∧ x.err = none := by
  obtain ⟨m, h1, h2⟩ := c26_eof_false (D := demo) (close := close) demo_idle rfl (l := [([65], [])])
    (fun x hx => by simp at hx; subst hx; exact demo_sendable _ (by decide))
  obtain ⟨p1, r1, -, rfl, rfl⟩ := h1
  obtain ⟨k, rs, h', w', r, x, w'', h3, _, _, h4, h5, h6, h7, h8⟩ := h2 ⟨[([104], .int .int64 0)], [[.int .int8 1], [.int .int8 2]], [([115], .int .int64 0)]⟩ [] rfl
  exact ⟨k, rs, h', w', r, x, w'', h3, h4, h5, h6, h7, h8⟩

/-! ## C27 -/

theorem execAll_failure {os : List Outcome} {md : KVs} : os.findSome? Outcome.failure? = some md →
    ∀ {res : Except GoErr (List KVs)}, execAllResult os res → ∃ e, res = .error e ∧ e.innerMost = .failure md := by
  induction os with
  | nil => intro h; simp at h
  | cons o os ih =>
    intro h res hr
    cases o with
    | refused md' => simp [List.findSome?, Outcome.failure?] at h; subst h; exact hr
    | answer hd rs e =>
      cases e with
      | broken md' => simp [List.findSome?, Outcome.failure?] at h; subst h; exact hr
      | summary md' =>
        simp only [List.findSome?, Outcome.failure?] at h
        rcases hr with ⟨mds, h1, rfl⟩ | ⟨e, h1, rfl⟩
        · obtain ⟨e, h2, _⟩ := ih h h1; cases h2
        · exact ih h h1

/-- C27 for ExecPipeline: whatever the position of the failing query in a pipeline of any length, and whether it is
refused or breaks while producing records: what was pipelined behind it is skipped, the failure is acknowledged,
the call returns it, and the connection is idle. -/
theorem c27_execPipeline_partial (h : Idle w d) {queries : List Str} {params : List KVs} (hlen : params.length = queries.length)
    (hs : ∀ x ∈ queries.zip params, Sendable w.chunkSize (.run x.1 x.2)) :
    ∃ qps res w', MeansAll (queries.zip params) qps ∧ execPipeline D.peer close queries params w = .ok res w' ∧ Idle w' (D.runAll d qps).1 ∧
      ∀ md, (D.runAll d qps).2.findSome? Outcome.failure? = some md →
        (∃ e, res = .error e ∧ e.innerMost = .failure md) ∧
        Wrote w w' (((queries.zip params).flatMap fun x => [.run x.1 x.2, .pullAll]) ++ [.ackFailure]) := by
  obtain ⟨qps, b, l, res, h1, h2, h3, h4⟩ := execPipeline_ok D close h.live h.synced.inbox h.statement hlen hs
  refine ⟨qps, res, _, h1, h4, ⟨⟨h.synced.closed, rfl, rfl, rfl⟩, h.statement, h.transaction, h.chunk⟩, ?_⟩
  intro md hf
  refine ⟨execAll_failure hf h3, b, ?_, rfl⟩
  have : ackSends (D.runAll d qps).2 = [.ackFailure] := by
    unfold ackSends
    rw [if_neg]
    intro hall
    obtain ⟨o, ho, hm⟩ := List.exists_of_findSome?_eq_some hf
    have := List.all_eq_true.mp hall o ho
    cases o with
    | refused md => simp [Outcome.succeeds] at this
    | answer hd rs e => cases e <;> simp_all [Outcome.succeeds, Outcome.failure?]
  rw [this, pipeSends_eq] at h2
  exact h2

/-- Three queries, the second one is refused; then one more. -/
example (close : M (Srv Nat) (Option GoErr)) : ∃ e w' w'', execPipeline demo.peer close [[65], [82, 82], [65]] [[], [], []] (freshConn 0 4096) = .ok (.error e) w' ∧
    e.innerMost = .failure [([114], .int .int64 1)] ∧ execNeo demo.peer close [65] [] w' = .ok (.ok [([115], .int .int64 2)]) w'' := by
  obtain ⟨m, res, w', h1, h2, h3, h5⟩ := c27_execPipeline_partial (D := demo) (close := close) demo_idle (queries := [[65], [82, 82], [65]]) (params := [[], [], []]) rfl
    (fun x hx => by simp at hx; rcases hx with rfl | rfl | rfl <;> exact demo_sendable _ (by decide))
  obtain ⟨p1, r1, -, ⟨p2, r2, -, ⟨p3, r3, -, rfl, rfl⟩, rfl⟩, rfl⟩ := h1
  obtain ⟨⟨e, rfl, h6⟩, _⟩ := h5 [([114], .int .int64 1)] rfl
  obtain ⟨ps', res', w'', _, h2', _, h4', _⟩ :=
    c20_execNeo_partial (D := demo) (close := close) h3 (tiny_sendable h3.chunk.1 h3.chunk.2 (tiny_run (q := [65]) (by decide)))
  rw [h4'] at h2'
  exact ⟨e, w', w'', h2, h6, h2'⟩

/-- C27 for QueryNeo of a refused query. -/
theorem c27_queryNeo_partial (h : Idle w d) {q : Str} {kvs : KVs} (hs : Sendable w.chunkSize (.run q kvs)) :
    ∃ ps, MeansKVs kvs ps ∧ ∀ md, (D.exec d q ps).2 = .refused md →
      ∃ e w', queryNeo D.peer close q kvs w = .ok (.error e) w' ∧ e.innerMost = .failure md ∧
        Wrote w w' [.run q kvs, .pullAll, .ackFailure] ∧ Idle w' (D.exec d q ps).1 := by
  obtain ⟨ps, h1, h2⟩ := queryNeo_ok D close h.live h.synced.inbox h.statement hs
  refine ⟨ps, h1, fun md ho => ?_⟩
  rcases hx : D.exec d q ps with ⟨d', o⟩
  rw [hx] at h2 ho
  simp only at ho
  subst ho
  obtain ⟨b, l, hb, h3⟩ := h2
  exact ⟨_, _, h3, rfl, ⟨b, hb, rfl⟩, ⟨h.synced.closed, rfl, rfl, rfl⟩, h.statement, h.transaction, h.chunk⟩

example (close : M (Srv Nat) (Option GoErr)) : ∃ e w', queryNeo demo.peer close [82, 82] [] (freshConn 0 4096) = .ok (.error e) w' ∧
    e.innerMost = .failure [([114], .int .int64 0)] ∧ Idle w' 1 := by
  obtain ⟨ps, h1, h2⟩ := c27_queryNeo_partial (D := demo) (close := close) demo_idle (demo_sendable [82, 82] (by decide))
  obtain ⟨e, w', h3, h4, _, h5⟩ := h2 [([114], .int .int64 0)] rfl
  exact ⟨e, w', h3, h4, h5⟩

/-- C27 for a prepared statement: whatever the first execution gives, the statement can be used again and gives the
result of its own execution. -/
theorem c27_statement_partial (h : Idle w d) (hk : w.sockCloseErr = false) {q : Str} {kvs kvs2 : KVs} (hs : Sendable w.chunkSize (.run q kvs))
    (hs2 : Sendable w.chunkSize (.run q kvs2)) :
    ∃ ps, MeansKVs kvs ps ∧ ∃ ps2, MeansKVs kvs2 ps2 ∧ ∃ h' w',
      runCalls D.peer close .none [.prepare q, .stExec kvs, .stExec kvs2, .closeStmt] w =
        .ok ([.done, (D.exec d q ps).2.res, (D.exec (D.exec d q ps).1 q ps2).2.res, .done], h') w' ∧
      Idle w' (D.exec (D.exec d q ps).1 q ps2).1 := by
  obtain ⟨m0, h1, h2⟩ := simulates (D := D) (c := .prepare q) close (h.rep hk) deliv_prepare
  cases h1
  obtain ⟨w0, h0, e0, hr0⟩ := h2 ⟨d, .stmt ⟨q, []⟩, false, w.chunkSize⟩ .done (by simp [Sess.step])
  obtain ⟨ps0, hps0⟩ := sendable_means hs
  obtain ⟨m, h1, h2⟩ := simulates (D := D) (c := .stExec kvs) close hr0 ⟨⟨_, .stExec hps0⟩, hs⟩
  cases h1 with
  | stExec h1 =>
  rename_i ps
  obtain ⟨w1, h1', e1, hr1⟩ := h2 ⟨(D.exec d q ps).1, .stmt ⟨q, []⟩, false, w.chunkSize⟩ _ (by simp only [Sess.step]; rfl)
  obtain ⟨ps0, hps0⟩ := sendable_means hs2
  obtain ⟨m, h3, h4⟩ := simulates (D := D) (c := .stExec kvs2) close hr1 ⟨⟨_, .stExec hps0⟩, hs2⟩
  cases h3 with
  | stExec h3 =>
  rename_i ps2
  obtain ⟨w2, h2', e2, hr2⟩ := h4 ⟨(D.exec (D.exec d q ps).1 q ps2).1, .stmt ⟨q, []⟩, false, w.chunkSize⟩ _ (by simp only [Sess.step]; rfl)
  obtain ⟨w3, h6, e3, hr3⟩ := Ran.step (close := close) (m := .closeStmt) hr2 deliv_closeStmt (fun m' h => by cases h; rfl)
    (s1 := ⟨(D.exec (D.exec d q ps).1 q ps2).1, .idle, false, w.chunkSize⟩) (r := .done) (by simp [Sess.step, Sess.release]) fun hr' => Ran.nil hr'
  exact ⟨ps, h1, ps2, h3, h6, w3, runCalls_cons e0 (runCalls_cons e1 (runCalls_cons e2 e3)), hr3.idle⟩

example (close : M (Srv Nat) (Option GoErr)) : ∃ h' w', runCalls demo.peer close .none [.prepare [66, 82], .stExec [], .stExec [], .closeStmt] (freshConn 0 4096) =
    .ok ([.done, .failure [([98], .int .int64 0)], .failure [([98], .int .int64 1)], .done], h') w' ∧ Idle w' 2 := by
  obtain ⟨ps, _, ps2, _, h', w', h1, h2⟩ := c27_statement_partial (D := demo) (close := close) demo_idle rfl (demo_sendable [66, 82] (by decide)) (demo_sendable [66, 82] (by decide))
  exact ⟨h', w', h1, h2⟩

/-- C27 for BEGIN: refused, or broken without records. -/
theorem c27_begin_partial (h : Idle w d) (hk : w.sockCloseErr = false) {md : KVs}
    (ho : (D.exec d txBegin []).2 = .refused md ∨ ∃ hd, (D.exec d txBegin []).2 = .answer hd [] (.broken md)) :
    ∃ h' w', runCalls D.peer close .none [.begin] w = .ok ([.failure md], h') w' ∧ Idle w' (D.exec d txBegin []).1 := by
  simp only [show txBegin = qBegin from rfl] at *
  have hst : (⟨d, .idle, false, w.chunkSize⟩ : Sess δ).step D .begin = some (⟨(D.exec d qBegin []).1, .idle, false, w.chunkSize⟩, .failure md) := by
    simp only [Sess.step, Sess.command, ← show qBegin = [66, 69, 71, 73, 78] from rfl]
    rcases hx : D.exec d qBegin [] with ⟨d', o⟩
    rw [hx] at ho
    rcases ho with rfl | ⟨hd, rfl⟩ <;> simp
  obtain ⟨w3, h6, e3, hr3⟩ := Ran.step (close := close) (m := .begin) (h.rep hk) ⟨⟨_, .begin⟩, by simp⟩ (fun m' h => by cases h; rfl) hst fun hr' => Ran.nil hr'
  exact ⟨h6, w3, e3, hr3.idle⟩

example (close : M (Srv Unit) (Option GoErr)) : ∃ h' w', runCalls (DB.peer ⟨fun _ _ _ => ((), .refused [])⟩) close .none [.begin] (freshConn () 4096) =
    .ok ([.failure []], h') w' ∧ Idle w' () :=
  c27_begin_partial (idle_fresh () (by decide) (by decide)) rfl (.inl rfl)

/-- C27 is false for QueryNeoAll of a query that fails while its records are produced: the failure is acknowledged
and returned, but the deferred close of the rows then waits for another message, fails, and leaves the statement
open, so that every further query on the connection is rejected. -/
theorem c27_queryNeoAll_false (h : Idle w d) {q : Str} {kvs : KVs} (hs : Sendable w.chunkSize (.run q kvs)) :
    ∃ ps, MeansKVs kvs ps ∧ ∀ hd rs md, (D.exec d q ps).2 = .answer hd rs (.broken md) →
      ∃ res w', queryNeoAll D.peer close q kvs w = .ok res w' ∧ ∀ q2 kvs2,
        execNeo D.peer close q2 kvs2 w' = .ok (.error (.new "An open statement already exists")) w' ∧
        queryNeo D.peer close q2 kvs2 w' = .ok (.error (.new "An open statement already exists")) w' ∧
        queryNeoAll D.peer close q2 kvs2 w' = .ok (.error (.new "An open statement already exists")) w' := by
  obtain ⟨ps, h1, res, w', h2, h3, h4, h5, h6, h7, h8, _, h9⟩ := queryNeoAll_ok D close h.live h.synced.inbox h.statement hs
  refine ⟨ps, h1, fun hd rs md ho => ⟨res, w', h2, fun q2 kvs2 => ?_⟩⟩
  rw [ho] at h9
  have hg : guardConn w' = .ok (some (.new "An open statement already exists")) w' := by
    unfold guardConn
    rw [if_pos (by rw [h9.2.1]; rfl)]
  have hq : queryNeo D.peer close q2 kvs2 w' = .ok (.error (.new "An open statement already exists")) w' := mbind_ok hg
  exact ⟨mbind_ok hg, hq, mbind_ok hq⟩

example (close : M (Srv Nat) (Option GoErr)) : ∃ res w', queryNeoAll demo.peer close [66, 82] [] (freshConn 0 4096) = .ok res w' ∧
    execNeo demo.peer close [65] [] w' = .ok (.error (.new "An open statement already exists")) w' := by
  obtain ⟨ps, _, h2⟩ := c27_queryNeoAll_false (D := demo) (close := close) demo_idle (demo_sendable [66, 82] (by decide))
  obtain ⟨res, w', h3, h4⟩ := h2 [] [[.int .int8 1]] [([98], .int .int64 0)] rfl
  exact ⟨res, w', h3, (h4 _ _).1⟩

/-! ## C28 -/

/-- C28 for ExecNeo. -/
theorem c28_execNeo_partial (h : Idle w d) {q : Str} {kvs : KVs} (hs : Sendable w.chunkSize (.run q kvs)) :
    ∃ ps, MeansKVs kvs ps ∧ ∀ md, (D.exec d q ps).2.failure? = some md →
      ∃ e w', execNeo D.peer close q kvs w = .ok (.error e) w' ∧ e.innerMost = .failure md := by
  obtain ⟨ps, res, w', h1, h2, _, h4⟩ := c20_execNeo_partial (D := D) (close := close) h hs
  refine ⟨ps, h1, fun md hf => ?_⟩
  cases ho : (D.exec d q ps).2 with
  | refused md' =>
    rw [ho] at h4 hf
    obtain ⟨⟨e, rfl, h5⟩, _⟩ := h4
    simp only [Outcome.failure?, Option.some.injEq] at hf
    exact ⟨e, w', h2, by rw [h5, hf]⟩
  | answer hd rs e =>
    cases e with
    | summary md' => rw [ho] at hf; simp [Outcome.failure?] at hf
    | broken md' =>
      rw [ho] at h4 hf
      obtain ⟨⟨e, rfl, h5⟩, _⟩ := h4
      simp only [Outcome.failure?, Option.some.injEq] at hf
      exact ⟨e, w', h2, by rw [h5, hf]⟩

/-- C28 for QueryNeoAll, at whatever point the query fails. -/
theorem c28_queryNeoAll_partial (h : Idle w d) {q : Str} {kvs : KVs} (hs : Sendable w.chunkSize (.run q kvs)) :
    ∃ ps, MeansKVs kvs ps ∧ ∀ md, (D.exec d q ps).2.failure? = some md →
      ∃ res w', queryNeoAll D.peer close q kvs w = .ok res w' ∧
        ∃ e, (res = .error e ∨ ∃ rs hd sm, res = .ok (rs, hd, sm, some e)) ∧ e.innerMost = .failure md := by
  obtain ⟨ps, h1, res, w', h2, h3, h4, h5, h6, h7, h8, _, h9⟩ := queryNeoAll_ok D close h.live h.synced.inbox h.statement hs
  refine ⟨ps, h1, fun md hf => ⟨res, w', h2, ?_⟩⟩
  cases ho : (D.exec d q ps).2 with
  | refused md' =>
    rw [ho] at h9 hf
    simp only [Outcome.failure?, Option.some.injEq] at hf
    subst hf
    exact ⟨_, .inl h9.1, rfl⟩
  | answer hd rs e =>
    cases e with
    | summary md' => rw [ho] at hf; simp [Outcome.failure?] at hf
    | broken md' =>
      rw [ho] at h9 hf
      simp only [Outcome.failure?, Option.some.injEq] at hf
      subst hf
      exact ⟨_, .inr ⟨_, _, _, h9.1⟩, rfl⟩

/-- Reads within an answer that breaks off. -/
theorem ran_next_broken (p : Prep) (dr : Bool) (hd md : KVs) (k : Nat) :
    ∀ {w : World (Srv δ)} {h : Handles} {d : δ} {o : Open} {tx : Bool} {cs : Nat} (rs : List (List Val)),
    Rep w h ⟨d, o, tx, cs⟩ → o.cursor = .at p dr hd rs (.broken md) → o.drained = some (p, dr, some md) → k ≤ rs.length →
    ∃ o', Ran D close w h (List.replicate k .next) ((rs.take k).map Res.row) ⟨d, o', tx, cs⟩ ∧ o'.drained = some (p, dr, some md) ∧
      o'.cursor = .at p dr hd (rs.drop k) (.broken md) := by
  induction k with
  | zero => intro w h d o tx cs rs hr hc hdr _; exact ⟨o, by simpa using Ran.nil hr, hdr, by simpa using hc⟩
  | succ k ih =>
    intro w h d o tx cs rs hr hc hdr hk
    cases rs with
    | nil => simp at hk
    | cons r rs =>
      have hq : p.queries = [] := by
        cases o <;> simp only [Open.cursor] at hc
        all_goals first | (cases hc; done) | skip
        all_goals split at hc
        all_goals first | (cases hc; done) | skip
        all_goals (cases hc; assumption)
      obtain ⟨m', h1, h2⟩ := simulates (D := D) (c := .next) close hr deliv_next
      cases h1
      obtain ⟨w1, h1, e1, hr1⟩ := h2 ⟨d, .reading p dr hd rs (.broken md) [] 0, tx, cs⟩ (.row r) (by simp only [Sess.step, hc])
      obtain ⟨o', ⟨w2, h3, e2, hr2⟩, h4, h5⟩ := ih rs hr1 (by simp [Open.cursor, hq]) (by simp [Open.drained, restFails]) (by simpa using hk)
      exact ⟨o', ⟨w2, h3, runCalls_cons e1 e2, hr2⟩, h4, h5⟩

/-- C28 for the rows of a direct query that breaks after `rs.length` records: the records come first; then the next
NextNeo gives the failure, as do All and Close at any earlier point. -/
theorem c28_rows_partial (h : Idle w d) (hk : w.sockCloseErr = false) {q : Str} {kvs : KVs} (hs : Sendable w.chunkSize (.run q kvs)) :
    ∃ ps, MeansKVs kvs ps ∧ ∀ hd rs md, (D.exec d q ps).2 = .answer hd rs (.broken md) → ∀ k ≤ rs.length, ∀ c,
      c = .all ∨ c = .closeRows ∨ c = .next ∧ k = rs.length →
      ∃ h' w', runCalls D.peer close .none ((.query q kvs :: List.replicate k .next) ++ [c]) w =
        .ok ((.rows hd :: (rs.take k).map Res.row) ++ [.failure md], h') w' := by
  obtain ⟨ps0, hps0⟩ := sendable_means hs
  obtain ⟨m, h1, h2⟩ := simulates (D := D) (c := .query q kvs) close (h.rep hk) ⟨⟨_, .query hps0⟩, hs⟩
  cases h1 with
  | query h1 =>
  rename_i ps
  refine ⟨ps, h1, fun hd rs md ha k hkk c hc => ?_⟩
  rcases hx : D.exec d q ps with ⟨d1, o1⟩
  rw [hx] at ha
  simp only at ha
  subst ha
  obtain ⟨w1, h1', e1, hr1⟩ := h2 ⟨d1, .reading ⟨q, []⟩ true hd rs (.broken md) [] 0, false, w.chunkSize⟩ (.rows hd) (by simp [Sess.step, hx])
  obtain ⟨o', ⟨w2, h3, e2, hr2⟩, h4, h5⟩ := ran_next_broken (D := D) (close := close) ⟨q, []⟩ true hd md k rs hr1 (by simp [Open.cursor]) (by simp [Open.drained, restFails]) hkk
  have hlast : ∃ h' w', runCalls D.peer close h3 [c] w2 = .ok ([.failure md], h') w' := by
    rcases hc with rfl | rfl | ⟨rfl, rfl⟩
    · obtain ⟨w3, h6, e3, hr3⟩ := Ran.step (close := close) (m := .all) hr2 deliv_all (fun m' h => by cases h; rfl) (s1 := ⟨d1, .dead ⟨q, []⟩ true, false, w.chunkSize⟩) (r := .failure md)
        (by simp only [Sess.step, h5]) fun hr' => Ran.nil hr'
      exact ⟨h6, w3, e3⟩
    · obtain ⟨w3, h6, e3, hr3⟩ := Ran.step (close := close) (m := .closeRows) hr2 deliv_closeRows (fun m' h => by cases h; rfl) (step_closeRows (D := D) h4) fun hr' => Ran.nil hr'
      exact ⟨h6, w3, e3⟩
    · rw [List.drop_length] at h5
      obtain ⟨w3, h6, e3, hr3⟩ := Ran.step (close := close) (m := .next) hr2 deliv_next (fun m' h => by cases h; rfl) (s1 := ⟨d1, .dead ⟨q, []⟩ true, false, w.chunkSize⟩) (r := .failure md)
        (by simp only [Sess.step, h5]) fun hr' => Ran.nil hr'
      exact ⟨h6, w3, e3⟩
  obtain ⟨h', w', e3⟩ := hlast
  exact ⟨h', w', runCalls_append e3 _ (runCalls_cons e1 e2)⟩

example (close : M (Srv Nat) (Option GoErr)) : ∃ h' w', runCalls demo.peer close .none [.query [66, 82] [], .next, .next] (freshConn 0 4096) =
    .ok ([.rows [], .row [.int .int8 1], .failure [([98], .int .int64 0)]], h') w' := by
  obtain ⟨ps, _, h2⟩ := c28_rows_partial (D := demo) (close := close) demo_idle rfl (demo_sendable [66, 82] (by decide))
  exact h2 [] [[.int .int8 1]] [([98], .int .int64 0)] rfl 1 (by decide) .next (.inr (.inr ⟨rfl, rfl⟩))

example (close : M (Srv Nat) (Option GoErr)) : ∃ e w', execNeo demo.peer close [66, 82] [] (freshConn 0 4096) = .ok (.error e) w' ∧ e.innerMost = .failure [([98], .int .int64 0)] := by
  obtain ⟨ps, _, h2⟩ := c28_execNeo_partial (D := demo) (close := close) demo_idle (demo_sendable [66, 82] (by decide))
  exact h2 [([98], .int .int64 0)] rfl

/-- The result `failure md` of a call is an error whose InnerMost is the FAILURE message with metadata `md`. -/
theorem c28_res {e : GoErr} {md : KVs} : e.res = .failure md ↔ e.innerMost = .failure md := by
  refine ⟨fun h => ?_, res_failure⟩
  unfold GoErr.res at h
  split at h
  · rename_i md' hm
    cases h
    exact hm
  · cases h

end Bolt
