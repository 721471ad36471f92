import Verif.Proofs.QueryAll

/-!
# C20, C21, C22, C23, C24: queries on a live connection

`Idle w d`: connection `w` is open, nothing is going on, and the server's database is in state `d`. The server is
an arbitrary database behind the Bolt protocol (`DB.peer`); `close` is what failure handling would call and plays
no role. These theorems are `_partial` because `Sendable` leaves out messages that the encoder itself does not
deliver (see C01, C02, C06, C09).
-/

namespace Bolt
open PackStream

variable {δ : Type} {D : DB δ} {close : M (Srv δ) (Option GoErr)} {w : World (Srv δ)} {d : δ}

/-- The demo connection and query. -/
theorem demo_idle : Idle (freshConn 0 4096 : World (Srv Nat)) 0 := idle_fresh 0 (by decide) (by decide)
theorem demo_sendable (q : Str) (hq : q.length ≤ 60000) : Sendable 4096 (.run q []) :=
  tiny_sendable (by decide) (by decide) (tiny_run hq)

/-! ## C20 -/

/-- C20: ExecNeo sends RUN and PULL_ALL (and, after a failure, ACK_FAILURE), returns the summary of its own query or
its failure, and leaves the connection idle. -/
theorem c20_execNeo_partial (h : Idle w d) {q : Str} {kvs : KVs} (hs : Sendable w.chunkSize (.run q kvs)) :
    ∃ ps res w', MeansKVs kvs ps ∧ execNeo D.peer close q kvs w = .ok res w' ∧ Idle w' (D.exec d q ps).1 ∧
      match (D.exec d q ps).2 with
      | .answer _ _ (.summary md) => res = .ok md ∧ Wrote w w' [.run q kvs, .pullAll]
      | .answer _ _ (.broken md) =>
        (∃ e, res = .error e ∧ e.innerMost = .failure md) ∧ Wrote w w' [.run q kvs, .pullAll, .ackFailure]
      | .refused md =>
        (∃ e, res = .error e ∧ e.innerMost = .failure md) ∧ Wrote w w' [.run q kvs, .pullAll, .ackFailure] := by
  obtain ⟨ps, b, l, res, h1, h2, h3, h4⟩ := exec_ok D close h.live h.synced.inbox h.statement hs
  refine ⟨ps, res, _, h1, h4, ⟨⟨h.synced.closed, rfl, rfl, rfl⟩, h.statement, h.transaction, h.chunk⟩, ?_⟩
  cases ho : (D.exec d q ps).2 with
  | refused md => rw [ho] at h2 h3; exact ⟨h3, b, h2, rfl⟩
  | answer hd rs e => cases e <;> (rw [ho] at h2 h3; exact ⟨h3, b, h2, rfl⟩)

/-- A query with two records, on the demo database. -/
example (close : M (Srv Nat) (Option GoErr)) : ∃ w', execNeo demo.peer close [65] [] (freshConn 0 4096) = .ok (.ok [([115], .int .int64 0)]) w' ∧ Idle w' 1 := by
  obtain ⟨ps, res, w', _, h2, h3, h4, _⟩ := c20_execNeo_partial (D := demo) (close := close) demo_idle (demo_sendable [65] (by decide))
  rw [h4] at h2
  exact ⟨w', h2, h3⟩

/-- A refused query, and the next one. -/
example (close : M (Srv Nat) (Option GoErr)) : ∃ e w' w'', execNeo demo.peer close [82, 82] [] (freshConn 0 4096) = .ok (.error e) w' ∧
    e.innerMost = .failure [([114], .int .int64 0)] ∧
    execNeo demo.peer close [65] [] w' = .ok (.ok [([115], .int .int64 1)]) w'' := by
  obtain ⟨ps, res, w', _, h2, h3, ⟨e, rfl, h5⟩, h6⟩ :=
    c20_execNeo_partial (D := demo) (close := close) demo_idle (demo_sendable [82, 82] (by decide))
  obtain ⟨ps', res', w'', _, h2', _, h4', _⟩ :=
    c20_execNeo_partial (D := demo) (close := close) h3 (tiny_sendable h3.chunk.1 h3.chunk.2 (tiny_run (q := [65]) (by decide)))
  rw [h4'] at h2'
  exact ⟨e, w', w'', h2, h5, h2'⟩

/-! ## C21 -/

/-- C21: QueryNeoAll returns exactly the records of its own query, in order, its header and its summary, and leaves
the connection idle; a refused query gives the failure. Missing besides `Sendable`: a failure while the records
are produced (see `c27_queryNeoAll_false`). -/
theorem c21_queryNeoAll_partial (h : Idle w d) {q : Str} {kvs : KVs} (hs : Sendable w.chunkSize (.run q kvs)) :
    ∃ ps res w', MeansKVs kvs ps ∧ queryNeoAll D.peer close q kvs w = .ok res w' ∧
      match (D.exec d q ps).2 with
      | .answer hd rs (.summary md) =>
        res = .ok (rs, hd, some md, none) ∧ Idle w' (D.exec d q ps).1 ∧ Wrote w w' [.run q kvs, .pullAll]
      | .refused md =>
        (∃ e, res = .error e ∧ e.innerMost = .failure md) ∧ Idle w' (D.exec d q ps).1 ∧
          Wrote w w' [.run q kvs, .pullAll, .ackFailure]
      | .answer _ _ (.broken _) => True := by
  obtain ⟨ps, h1, res, w', h2, h3, h4, h5, h6, h7, h8, _, h9⟩ := queryNeoAll_ok D close h.live h.synced.inbox h.statement hs
  refine ⟨ps, res, w', h1, h2, ?_⟩
  have hi : w'.statement = none → Idle w' (D.exec d q ps).1 := fun hst =>
    ⟨⟨h3, h4, h5, h6⟩, hst, h8.trans h.transaction, by rw [h7]; exact h.chunk⟩
  cases ho : (D.exec d q ps).2 with
  | refused md => rw [ho] at h9; exact ⟨⟨_, h9.1, rfl⟩, hi h9.2.1, h9.2.2⟩
  | answer hd rs e =>
    cases e with
    | broken md => trivial
    | summary md => rw [ho] at h9; exact ⟨h9.1, hi h9.2.1, h9.2.2⟩

example (close : M (Srv Nat) (Option GoErr)) : ∃ w', queryNeoAll demo.peer close [65] [] (freshConn 0 4096) =
    .ok (.ok ([[.int .int8 1], [.int .int8 2]], [([104], .int .int64 0)], some [([115], .int .int64 0)], none)) w' ∧ Idle w' 1 := by
  obtain ⟨ps, res, w', _, h2, h4, h5, _⟩ := c21_queryNeoAll_partial (D := demo) (close := close) demo_idle (demo_sendable [65] (by decide))
  rw [h4] at h2
  exact ⟨w', h2, h5⟩

/-! ## C22 -/

/-- One use of the statement. -/
theorem ran_round {h : Handles} {q : Str} {tx : Bool} {cs : Nat} (hr : Rep w h ⟨d, .stmt ⟨q, []⟩, tx, cs⟩) {kvs : KVs}
    (hs : Sendable cs (.run q kvs)) (k : Nat) :
    ∃ ps, MeansKVs kvs ps ∧ ((D.exec d q ps).2.Within k →
      Ran D close w h (roundCalls (kvs, k)) ((D.exec d q ps).2.roundRes k) ⟨(D.exec d q ps).1, .stmt ⟨q, []⟩, tx, cs⟩) := by
  obtain ⟨ps0, hps0⟩ := sendable_means hs
  obtain ⟨m, h1, h2⟩ := simulates (D := D) (c := .stQuery kvs) close hr ⟨⟨_, .stQuery hps0⟩, hs⟩
  cases h1 with
  | stQuery h1 =>
  rename_i ps
  refine ⟨ps, h1, fun hw => ?_⟩
  rcases hx : D.exec d q ps with ⟨d', o⟩
  rw [hx] at hw
  cases o with
  | refused md =>
    refine Ran.cons (c := .stQuery kvs) h2 (s1 := ⟨d', .stmt ⟨q, []⟩, tx, cs⟩) (r := .failure md) (by simp [Sess.step, hx]) fun {w1 h1} hr1 => ?_
    refine Ran.append (s1 := ⟨d', .stmt ⟨q, []⟩, tx, cs⟩) ?_ fun {w2 h2} hr2 => ?_
    · have : ∀ (k : Nat) {w1 h1}, Rep w1 h1 (⟨d', .stmt ⟨q, []⟩, tx, cs⟩ : Sess δ) →
          Ran D close w1 h1 (List.replicate k .next) (List.replicate k .localError) ⟨d', .stmt ⟨q, []⟩, tx, cs⟩ := by
        intro k
        induction k with
        | zero => intro w1 h1 hr1; exact Ran.nil hr1
        | succ k ih =>
          intro w1 h1 hr1
          exact Ran.step (m := .next) hr1 deliv_next (fun m' h => by cases h; rfl) (by simp [Sess.step, Open.cursor]) fun hr2 => ih hr2
      exact this k hr1
    · exact Ran.step (m := .closeRows) hr2 deliv_closeRows (fun m' h => by cases h; rfl) (by simp [Sess.step]) fun hr3 => Ran.nil hr3
  | answer hd rs e =>
    cases e with
    | broken md => exact hw.elim
    | summary md =>
      refine Ran.cons (c := .stQuery kvs) h2 (s1 := ⟨d', .fresh ⟨q, []⟩ hd rs (.summary md), tx, cs⟩) (r := .rows hd) (by simp [Sess.step, hx]) fun {w1 h1} hr1 => ?_
      obtain ⟨o', h3, h4⟩ := ran_next (D := D) (close := close) ⟨q, []⟩ false hd md k rs hr1 (by simp [Open.cursor]) (by simp [Open.drained, restFails]) hw
      exact Ran.append h3 fun hr2 => ran_closeRows hr2 h4

/-- Any number of uses. -/
theorem ran_rounds {q : Str} {tx : Bool} {cs : Nat} (rounds : List (KVs × Nat)) : ∀ {w : World (Srv δ)} {h : Handles} {d : δ},
    Rep w h ⟨d, .stmt ⟨q, []⟩, tx, cs⟩ → (∀ x ∈ rounds, Sendable cs (.run q x.1)) →
    ∃ pss, MeansParams (rounds.map Prod.fst) pss ∧ (D.RoundsWithin q d (pss.zip (rounds.map Prod.snd)) →
      Ran D close w h (rounds.flatMap roundCalls) (D.roundsRes q d (pss.zip (rounds.map Prod.snd)))
        ⟨D.roundsDb q d (pss.zip (rounds.map Prod.snd)), .stmt ⟨q, []⟩, tx, cs⟩) := by
  induction rounds with
  | nil => intro w h d hr _; exact ⟨[], rfl, fun _ => Ran.nil hr⟩
  | cons x rounds ih =>
    intro w h d hr hs
    obtain ⟨kvs, k⟩ := x
    obtain ⟨ps, h1, h2⟩ := ran_round (D := D) (close := close) hr (hs _ (List.mem_cons_self ..)) k
    by_cases hw : (D.exec d q ps).2.Within k
    · obtain ⟨w1, h1', e1, hr1⟩ := h2 hw
      obtain ⟨pss, h3, h4⟩ := ih hr1 fun y hy => hs y (List.mem_cons_of_mem _ hy)
      refine ⟨ps :: pss, ⟨ps, pss, h1, h3, rfl⟩, fun hw2 => ?_⟩
      obtain ⟨w2, h2', e2, hr2⟩ := h4 hw2.2
      exact ⟨w2, h2', runCalls_append e2 _ e1, hr2⟩
    · have : ∃ pss, MeansParams (rounds.map Prod.fst) pss := by
        clear ih h2 hr
        replace hs : ∀ x ∈ rounds, Sendable cs (.run q x.1) := fun y hy => hs y (List.mem_cons_of_mem _ hy)
        induction rounds with
        | nil => exact ⟨[], rfl⟩
        | cons x l ih =>
          obtain ⟨ps, h1⟩ := sendable_means (hs _ (List.mem_cons_self ..))
          obtain ⟨m, h2⟩ := ih fun y hy => hs y (List.mem_cons_of_mem _ hy)
          exact ⟨ps :: m, ps, m, h1, h2, rfl⟩
      obtain ⟨pss, h3⟩ := this
      exact ⟨ps :: pss, ⟨ps, pss, h1, h3, rfl⟩, fun hw2 => absurd hw2.1 hw⟩

/-- C22: a prepared query used any number of times, each time reading `k` times (up to and including io.EOF) and
closing the rows: every use gives its own records in order, then io.EOF with its own summary; in the end the
connection is idle. Missing besides `Sendable`: answers that break off while records are produced (C37). -/
theorem c22_prepared_partial (h : Idle w d) (hk : w.sockCloseErr = false) {q : Str} (rounds : List (KVs × Nat))
    (hs : ∀ x ∈ rounds, Sendable w.chunkSize (.run q x.1)) :
    ∃ pss, MeansParams (rounds.map Prod.fst) pss ∧ (D.RoundsWithin q d (pss.zip (rounds.map Prod.snd)) →
      ∃ h' w', runCalls D.peer close .none (.prepare q :: (rounds.flatMap roundCalls ++ [.closeStmt])) w =
          .ok (.done :: (D.roundsRes q d (pss.zip (rounds.map Prod.snd)) ++ [.done]), h') w' ∧
        Idle w' (D.roundsDb q d (pss.zip (rounds.map Prod.snd)))) := by
  obtain ⟨m, h1, h2⟩ := simulates (D := D) (c := .prepare q) close (h.rep hk) deliv_prepare
  cases h1
  obtain ⟨w1, h1, e1, hr1⟩ := h2 ⟨d, .stmt ⟨q, []⟩, false, w.chunkSize⟩ .done (by simp [Sess.step])
  obtain ⟨pss, h3, h4⟩ := ran_rounds (D := D) (close := close) rounds hr1 hs
  refine ⟨pss, h3, fun hw => ?_⟩
  obtain ⟨w2, h5, e2, hr2⟩ := h4 hw
  obtain ⟨w3, h6, e3, hr3⟩ := Ran.step (close := close) (m := .closeStmt) hr2 deliv_closeStmt (fun m' h => by cases h; rfl)
    (s1 := ⟨D.roundsDb q d (pss.zip (rounds.map Prod.snd)), .idle, false, w.chunkSize⟩) (r := .done) (by simp [Sess.step, Sess.release]) fun hr' => Ran.nil hr'
  exact ⟨h6, w3, runCalls_cons e1 (runCalls_append e3 _ e2), hr3.idle⟩

/-- Closed after one of two records, then read to the end. -/
example (close : M (Srv Nat) (Option GoErr)) : ∃ h' w', runCalls demo.peer close .none
    [.prepare [65], .stQuery [], .next, .closeRows, .stQuery [], .next, .next, .next, .closeRows, .closeStmt] (freshConn 0 4096) =
      .ok ([.done, .rows [([104], .int .int64 0)], .row [.int .int8 1], .done,
        .rows [([104], .int .int64 1)], .row [.int .int8 1], .row [.int .int8 2], .eof [([115], .int .int64 1)], .done, .done], h') w' ∧
    Idle w' 2 := by
  obtain ⟨pss, h1, h2⟩ := c22_prepared_partial (D := demo) (close := close) demo_idle rfl (q := [65]) [([], 1), ([], 3)]
    (fun x hx => by simp at hx; rcases hx with rfl | rfl <;> exact demo_sendable [65] (by decide))
  obtain ⟨p1, r1, h3, ⟨p2, r2, h4, rfl, rfl⟩, rfl⟩ := h1
  exact h2 ⟨Nat.le_of_ble_eq_true rfl, Nat.le_of_ble_eq_true rfl, trivial⟩

/-! ## C23 -/

/-- C23, direct query: rows closed after any number of reads; the next query gets its own result. -/
theorem c23_query_partial (h : Idle w d) (hk : w.sockCloseErr = false) {q q2 : Str} {kvs kvs2 : KVs} (hs : Sendable w.chunkSize (.run q kvs))
    (hs2 : Sendable w.chunkSize (.run q2 kvs2)) :
    ∃ ps, MeansKVs kvs ps ∧ ∀ hd rs md k, (D.exec d q ps).2 = .answer hd rs (.summary md) → k ≤ rs.length + 1 →
      ∃ ps2 h' w', MeansKVs kvs2 ps2 ∧
        runCalls D.peer close .none ((.query q kvs :: List.replicate k .next) ++ [.closeRows, .exec q2 kvs2]) w =
          .ok ((.rows hd :: (rs.map Res.row ++ [Res.eof md]).take k) ++ [.done, (D.exec (D.exec d q ps).1 q2 ps2).2.res], h') w' ∧
        Idle w' (D.exec (D.exec d q ps).1 q2 ps2).1 := by
  obtain ⟨ps, h1, h2⟩ := ran_query (D := D) (close := close) (h.rep hk) hs
  refine ⟨ps, h1, fun hd rs md k ha hk => ?_⟩
  obtain ⟨o', ⟨w1, h3, e1, hr1⟩, h4⟩ := h2 hd rs md k ha hk
  obtain ⟨w2, h5, e2, hr2⟩ := ran_closeRows (close := close) hr1 h4
  obtain ⟨ps2, h6, w3, h7, e3, hr3⟩ := ran_exec (D := D) (close := close) hr2 hs2
  exact ⟨ps2, h7, w3, h6, runCalls_append (runCalls_append (a := [.closeRows]) e3 e2) _ e1, hr3.idle⟩

/-- C23, pipeline: rows closed after any number of `NextPipeline` calls, in any of the queries; the next query gets
its own result. -/
theorem c23_pipeline_partial (h : Idle w d) (hk : w.sockCloseErr = false) {l : List (Str × KVs)} {q : Str} {kvs : KVs}
    (hs : ∀ x ∈ l, Sendable w.chunkSize (.run x.1 x.2)) (hs2 : Sendable w.chunkSize (.run q kvs)) :
    ∃ m, MeansAll l m ∧ ∀ a as k, (D.runAll d m).2 = (a :: as).map Answer.outcome → k ≤ (stepsOf (a :: as)).length →
      ∃ ps h' w', MeansKVs kvs ps ∧
        runCalls D.peer close .none ((.queryPipe l :: List.replicate k .nextPipe) ++ [.closeRows, .exec q kvs]) w =
          .ok ((.rows a.header :: ((stepsOf (a :: as)).take k).map PStep.res) ++ [.done, (D.exec (D.runAll d m).1 q ps).2.res], h') w' ∧
        Idle w' (D.exec (D.runAll d m).1 q ps).1 := by
  obtain ⟨m, h1, h2⟩ := ran_queryPipe (D := D) (close := close) (h.rep hk) hs
  refine ⟨m, h1, fun a as k ha hk => ?_⟩
  obtain ⟨o', ⟨w1, h3, e1, hr1⟩, h4⟩ := h2 a as k ha hk
  obtain ⟨w2, h5, e2, hr2⟩ := ran_closeRows (close := close) hr1 h4
  obtain ⟨ps2, h6, w3, h7, e3, hr3⟩ := ran_exec (D := D) (close := close) hr2 hs2
  exact ⟨ps2, h7, w3, h6, runCalls_append (runCalls_append (a := [.closeRows]) e3 e2) _ e1, hr3.idle⟩

/-- C23, prepared pipeline: the same; closing the statement then leaves the connection idle. -/
theorem c23_prepared_partial (h : Idle w d) (hk : w.sockCloseErr = false) {qs : List Str} {l : List KVs} (hl : l.length = qs.length) {q : Str} {kvs : KVs}
    (hs : ∀ x ∈ qs.zip l, Sendable w.chunkSize (.run x.1 x.2)) (hs2 : Sendable w.chunkSize (.run q kvs)) :
    ∃ m, MeansAll (qs.zip l) m ∧ ∀ a as k, (D.runAll d m).2 = (a :: as).map Answer.outcome → k ≤ (stepsOf (a :: as)).length →
      ∃ ps h' w', MeansKVs kvs ps ∧
        runCalls D.peer close .none (.preparePipe qs :: ((.stQueryPipe l :: List.replicate k .nextPipe) ++ [.closeRows, .closeStmt, .exec q kvs])) w =
          .ok (.done :: ((.rows a.header :: ((stepsOf (a :: as)).take k).map PStep.res) ++ [.done, .done, (D.exec (D.runAll d m).1 q ps).2.res]), h') w' ∧
        Idle w' (D.exec (D.runAll d m).1 q ps).1 := by
  obtain ⟨m0, h1, h2⟩ := simulates (D := D) (c := .preparePipe qs) close (h.rep hk) deliv_preparePipe
  cases h1
  obtain ⟨w0, h0, e0, hr0⟩ := h2 ⟨d, .stmt ⟨[], qs⟩, false, w.chunkSize⟩ .done (by simp [Sess.step])
  obtain ⟨m, h1, h2⟩ := ran_stQueryPipe (D := D) (close := close) hr0 hl hs
  refine ⟨m, h1, fun a as k ha hk => ?_⟩
  obtain ⟨o', ⟨w1, h3, e1, hr1⟩, h4⟩ := h2 a as k ha hk
  obtain ⟨w2, h5, e2, hr2⟩ := ran_closeRows (close := close) hr1 h4
  obtain ⟨wc, hc, ec, hrc⟩ := Ran.step (close := close) (m := .closeStmt) hr2 deliv_closeStmt (fun m' h => by cases h; rfl)
    (s1 := ⟨(D.runAll d m).1, .idle, false, w.chunkSize⟩) (r := .done) (by simp [Sess.step, Sess.release]) fun hr' => Ran.nil hr'
  obtain ⟨ps2, h6, w3, h7, e3, hr3⟩ := ran_exec (D := D) (close := close) hrc hs2
  exact ⟨ps2, h7, w3, h6, runCalls_cons e0 (runCalls_append (runCalls_append (a := [.closeRows]) (runCalls_append (a := [.closeStmt]) e3 ec) e2) _ e1), hr3.idle⟩

/-- Three queries; closed in the middle of the second. -/
example (close : M (Srv Nat) (Option GoErr)) : ∃ h' w', runCalls demo.peer close .none
    [.queryPipe [([65], []), ([65], []), ([65], [])], .nextPipe, .nextPipe, .nextPipe, .nextPipe, .closeRows, .exec [65] []] (freshConn 0 4096) =
      .ok ([.rows [([104], .int .int64 0)], .row [.int .int8 1], .row [.int .int8 2], .next [([104], .int .int64 1)] [([104], .int .int64 1)], .row [.int .int8 1],
        .done, .summary [([115], .int .int64 3)]], h') w' ∧ Idle w' 4 := by
  obtain ⟨m, h1, h2⟩ := c23_pipeline_partial (D := demo) (close := close) demo_idle rfl (l := [([65], []), ([65], []), ([65], [])]) (q := [65]) (kvs := [])
    (fun x hx => by simp at hx; subst hx; exact demo_sendable [65] (by decide)) (demo_sendable [65] (by decide))
  obtain ⟨p1, r1, -, ⟨p2, r2, -, ⟨p3, r3, -, rfl, rfl⟩, rfl⟩, rfl⟩ := h1
  obtain ⟨ps, h', w', _, h3, h4⟩ := h2 ⟨[([104], .int .int64 0)], [[.int .int8 1], [.int .int8 2]], [([115], .int .int64 0)]⟩
    [⟨[([104], .int .int64 1)], [[.int .int8 1], [.int .int8 2]], [([115], .int .int64 1)]⟩, ⟨[([104], .int .int64 2)], [[.int .int8 1], [.int .int8 2]], [([115], .int .int64 2)]⟩]
    4 rfl (by decide)
  exact ⟨h', w', h3, h4⟩

/-! ## C24 -/

theorem execAll_answers {as : List Answer} : ∀ {res : Except GoErr (List KVs)}, execAllResult (as.map Answer.outcome) res →
    res = .ok (as.map Answer.summary) := by
  induction as with
  | nil => intro res h; exact h
  | cons a as ih =>
    intro res h
    rcases h with ⟨mds, h1, rfl⟩ | ⟨e, h1, rfl⟩
    · have := ih h1
      simp only [Except.ok.injEq] at this
      simp [this]
    · have := ih h1
      cases this

theorem pipeSends_eq (l : List (Str × KVs)) : pipeSends l = l.flatMap fun x => [.run x.1 x.2, .pullAll] := by
  induction l with
  | nil => rfl
  | cons x l ih => simp [pipeSends, ih]

/-- C24: ExecPipeline first sends RUN and PULL_ALL for every query, before anything is received. If all queries
succeed, it sends nothing else and returns exactly their summaries, one per query, in order. -/
theorem c24_execPipeline_partial (h : Idle w d) {queries : List Str} {params : List KVs} (hlen : params.length = queries.length)
    (hs : ∀ x ∈ queries.zip params, Sendable w.chunkSize (.run x.1 x.2)) :
    ∃ qps res w', MeansAll (queries.zip params) qps ∧ execPipeline D.peer close queries params w = .ok res w' ∧ Idle w' (D.runAll d qps).1 ∧
      (∃ l, w'.log = w.log ++ ((queries.zip params).flatMap fun x => [.send (.run x.1 x.2) none, .send .pullAll none]) ++ l) ∧
      ∀ as : List Answer, (D.runAll d qps).2 = as.map Answer.outcome →
        res = .ok (as.map Answer.summary) ∧ as.length = queries.length ∧
        Wrote w w' ((queries.zip params).flatMap fun x => [.run x.1 x.2, .pullAll]) := by
  obtain ⟨qps, b, l, res, h1, h2, h3, h4⟩ := execPipeline_ok D close h.live h.synced.inbox h.statement hlen hs
  refine ⟨qps, res, _, h1, h4, ⟨⟨h.synced.closed, rfl, rfl, rfl⟩, h.statement, h.transaction, h.chunk⟩, ⟨l, ?_⟩, ?_⟩
  · have : pipeEvents (queries.zip params) = (queries.zip params).flatMap fun x => [Event.send (.run x.1 x.2) none, Event.send .pullAll none] := by
      unfold pipeEvents
      rw [pipeSends_eq, List.map_flatMap]
      rfl
    rw [← this]
    rfl
  · intro as ha
    rw [ha] at h3 h2
    refine ⟨execAll_answers h3, ?_, b, ?_, rfl⟩
    · rw [runAll_answers ha, meansAll_length h1]
      simp [hlen]
    · have : ackSends (as.map Answer.outcome) = [] := by
        unfold ackSends
        rw [if_pos]
        simp [Answer.outcome, Outcome.succeeds]
      rw [this, List.append_nil, pipeSends_eq] at h2
      exact h2

example (close : M (Srv Nat) (Option GoErr)) : ∃ w', execPipeline demo.peer close [[65], [67], [65]] [[], [], []] (freshConn 0 4096) =
    .ok (.ok [[([115], .int .int64 0)], [], [([115], .int .int64 2)]]) w' ∧ Idle w' 3 := by
  obtain ⟨m, res, w', h1, h2, h3, _, h5⟩ := c24_execPipeline_partial (D := demo) (close := close) demo_idle (queries := [[65], [67], [65]]) (params := [[], [], []]) rfl
    (fun x hx => by simp at hx; rcases hx with rfl | rfl | rfl <;> exact demo_sendable _ (by decide))
  obtain ⟨p1, r1, -, ⟨p2, r2, -, ⟨p3, r3, -, rfl, rfl⟩, rfl⟩, rfl⟩ := h1
  have := h5 [⟨[([104], .int .int64 0)], [[.int .int8 1], [.int .int8 2]], [([115], .int .int64 0)]⟩, ⟨[], [], []⟩,
    ⟨[([104], .int .int64 2)], [[.int .int8 1], [.int .int8 2]], [([115], .int .int64 2)]⟩] rfl
  rw [this.1] at h2
  exact ⟨w', h2, h3⟩

end Bolt
