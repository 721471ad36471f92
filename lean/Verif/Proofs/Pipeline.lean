import Verif.Proofs.Query2

/-! Pipelines on a session in step. -/

namespace Bolt
open PackStream

variable {δ : Type} (D : DB δ)

/-- RUN and PULL_ALL for each query in turn. -/
def DB.pipeline (D : DB δ) (d : δ) (m : Mode) : List (Str × List (Str × PS)) → δ × Mode × List Val
  | [] => (d, m, [])
  | (q, ps) :: rest =>
    let x := D.handle2 d m (.run q ps) .pullAll
    let y := D.pipeline x.1 x.2.1 rest
    (y.1, y.2.1, x.2.2 ++ y.2.2)

/-- The messages a pipeline sends. -/
def pipeSends : List (Str × KVs) → List Val
  | [] => []
  | (q, kvs) :: rest => .run q kvs :: .pullAll :: pipeSends rest

/-- As events. -/
def pipeEvents (qs : List (Str × KVs)) : List Event := (pipeSends qs).map fun v => .send v none

theorem sendAll_ok (msg : String) (qs : List (Str × KVs)) : ∀ {w : World (Srv δ)} {d : δ} {m : Mode}, Live w d m →
    (∀ x ∈ qs, Sendable w.chunkSize (.run x.1 x.2)) →
    ∃ qps b, MeansAll qs qps ∧ CarriesAll (pipeSends qs) b ∧
      sendAll D.peer msg qs w = .ok none (w.net ⟨w.sink.out ++ b, none⟩
        ⟨(D.pipeline d m qps).1, (D.pipeline d m qps).2.1, []⟩ (w.inbox ++ (D.pipeline d m qps).2.2.map .val)
        (w.log ++ pipeEvents qs)) := by
  induction qs with
  | nil =>
    intro w d m h _
    refine ⟨[], [], rfl, rfl, ?_⟩
    simp only [sendAll, pure_run, DB.pipeline, pipeEvents, pipeSends, List.map_nil, List.append_nil, ← h.srv, World.net]
    rw [← h.budget]
  | cons x qs ih =>
    intro w d m h hs
    obtain ⟨q, kvs⟩ := x
    obtain ⟨ps, b, h1, h2, h3⟩ := sendRunPullAll_ok D h (hs (q, kvs) (by simp))
    obtain ⟨qps, b', h4, h5, h6⟩ := ih (h.net (d' := (D.handle2 d m (.run q ps) .pullAll).1)
      (m' := (D.handle2 d m (.run q ps) .pullAll).2.1) (w.sink.out ++ b)
      (w.inbox ++ (D.handle2 d m (.run q ps) .pullAll).2.2.map .val)
      (w.log ++ [.send (.run q kvs) none, .send .pullAll none])) (fun x hx => hs x (by simp [hx]))
    refine ⟨(q, ps) :: qps, b ++ b', ⟨ps, qps, h1, h4, rfl⟩, carriesAll_append h2 h5, ?_⟩
    rw [sendAll, mbind_ok h3]
    simp only []
    rw [h6]
    simp [DB.pipeline, pipeEvents, pipeSends]

theorem meansAll_length {qs : List (Str × KVs)} {qps : List (Str × List (Str × PS))} (h : MeansAll qs qps) :
    qps.length = qs.length := by
  induction qs generalizing qps with
  | nil => simp only [MeansAll] at h; subst h; rfl
  | cons x qs ih =>
    obtain ⟨q, kvs⟩ := x
    obtain ⟨ps, rest, _, h2, rfl⟩ := h
    simp [ih h2]

theorem pipeline_failed (d : δ) (qps : List (Str × List (Str × PS))) :
    D.pipeline d .failed qps = (d, .failed, List.replicate (2 * qps.length) .ignored) := by
  induction qps with
  | nil => rfl
  | cons x qps ih =>
    obtain ⟨q, ps⟩ := x
    simp only [DB.pipeline, handle2_failed, ih]
    simp only [List.length_cons, show 2 * (qps.length + 1) = 2 * qps.length + 1 + 1 by omega, List.replicate_succ]
    rfl

/-- What `ExecPipeline` has to return for the given outcomes. -/
def execAllResult : List Outcome → Except GoErr (List KVs) → Prop
  | [], r => r = .ok []
  | .answer _ _ (.summary md) :: rest, r =>
    (∃ mds, execAllResult rest (.ok mds) ∧ r = .ok (md :: mds)) ∨ (∃ e, execAllResult rest (.error e) ∧ r = .error e)
  | .refused md :: _, r => FailsWith md r
  | .answer _ _ (.broken md) :: _, r => FailsWith md r

/-- The acknowledgement, if any. -/
def ackSends (os : List Outcome) : List Val := if os.all Outcome.succeeds then [] else [.ackFailure]

theorem collect_ok (close : M (Srv δ) (Option GoErr)) (qps : List (Str × List (Str × PS))) :
    ∀ {w : World (Srv δ)} {d : δ}, Live w (D.pipeline d .ready qps).1 (D.pipeline d .ready qps).2.1 →
    w.inbox = (D.pipeline d .ready qps).2.2.map .val →
    ∃ b l res, CarriesAll (ackSends (D.runAll d qps).2) b ∧ execAllResult (D.runAll d qps).2 res ∧
      collect D.peer close qps.length w = .ok res
        (w.net ⟨w.sink.out ++ b, none⟩ ⟨(D.runAll d qps).1, .ready, []⟩ [] (w.log ++ l)) := by
  induction qps with
  | nil =>
    intro w d h hi
    refine ⟨[], [], .ok [], rfl, rfl, ?_⟩
    have h2 := h.srv
    simp only [DB.pipeline] at h2 hi
    simp only [List.length_nil, collect, pure_run, DB.runAll, List.append_nil, ← h2, World.net]
    rw [← h.budget]
    simp only [List.map_nil] at hi
    rw [← hi]
  | cons x qps ih =>
    intro w d h hi
    obtain ⟨q, ps⟩ := x
    rcases hx : D.exec d q ps with ⟨d', o⟩
    simp only [DB.pipeline, handle2_ready, hx] at h hi
    cases o with
    | refused md =>
      simp only [Outcome.pulled] at h hi
      rw [pipeline_failed] at h hi
      obtain ⟨b, l, h1, h2⟩ := h.consume_failure D close (md := md) (n := 1 + 2 * qps.length)
        (by rw [hi, Nat.add_comm 1, List.replicate_succ]; simp)
      refine ⟨b, l, .error (.wrap "An error occurred getting result of exec command: %#v" (some (queryErr md))), ?_, ?_, ?_⟩
      · simp only [DB.runAll, hx, Outcome.succeeds, ackSends]
        exact carriesAll_one h1
      · simp only [DB.runAll, hx, Outcome.succeeds]
        exact ⟨_, rfl, rfl⟩
      · rw [List.length_cons, collect, mbind_ok h2]
        simp [DB.runAll, hx, Outcome.succeeds, queryErr]
    | answer hd rs e =>
      cases e with
      | broken md =>
        simp only [Outcome.pulled, Ending.reply] at h hi
        rw [pipeline_failed] at h hi
        have h1 := consume_val D.peer close (w := w) (v := .success hd)
          (t := (rs.map Val.record).map Item.val ++ .val (.failure md) :: List.replicate (2 * qps.length) (.val .ignored))
          (by rw [hi]; simp) (by simp)
        obtain ⟨b, l, h2, h3⟩ := (show Live (w.net w.sink w.srv ((rs.map Val.record).map Item.val ++ .val (.failure md) ::
          List.replicate (2 * qps.length) (.val .ignored)) (w.log ++ [.recv (.val (.success hd))])) _ _ from
          ⟨h.closed, h.srv, h.budget, h.cs⟩).consumeAll_failure D close (vs := rs.map .record) (md := md) (n := 2 * qps.length) rfl (plain_records rs)
        refine ⟨b, .recv (.val (.success hd)) :: l,
          .error (.wrap "An error occurred getting result of exec discard command: %#v" (some (queryErr md))), ?_, ?_, ?_⟩
        · simp only [DB.runAll, hx, Outcome.succeeds, ackSends]
          exact carriesAll_one h2
        · simp only [DB.runAll, hx, Outcome.succeeds]
          exact ⟨_, rfl, rfl⟩
        · rw [List.length_cons, collect, mbind_ok h1]
          simp only [Val.isSuccess, Bool.not_true, Bool.false_eq_true, if_false]
          rw [mbind_ok h3]
          simp [DB.runAll, hx, Outcome.succeeds, queryErr]
      | summary md =>
        simp only [Outcome.pulled, Ending.reply] at h hi
        have h1 := consume_val D.peer close (w := w) (v := .success hd)
          (t := (rs.map Val.record).map Item.val ++ .val (.success md) :: (D.pipeline d' .ready qps).2.2.map .val)
          (by rw [hi]; simp) (by simp)
        have h2 := consumeAll_success D.peer close (w := w.net w.sink w.srv ((rs.map Val.record).map Item.val ++
          .val (.success md) :: (D.pipeline d' .ready qps).2.2.map .val) (w.log ++ [.recv (.val (.success hd))]))
          (vs := rs.map .record) (md := md) (t := (D.pipeline d' .ready qps).2.2.map .val) rfl (plain_records rs)
        obtain ⟨b, l, res, h3, h4, h5⟩ := ih (w := w.net w.sink w.srv ((D.pipeline d' .ready qps).2.2.map .val)
          (w.log ++ [.recv (.val (.success hd))] ++ (rs.map Val.record).map (fun v => .recv (.val v)) ++ [.recv (.val (.success md))]))
          (d := d') ⟨h.closed, h.srv, h.budget, h.cs⟩ rfl
        have key : collect D.peer close (qps.length + 1) w = (match res with
            | .error e => M.pure (.error e)
            | .ok mds => M.pure (.ok (md :: mds)) : M (Srv δ) (Except GoErr (List KVs)))
              (w.net ⟨w.sink.out ++ b, none⟩ ⟨(D.runAll d' qps).1, .ready, []⟩ []
              (w.log ++ [.recv (.val (.success hd))] ++ (rs.map Val.record).map (fun v => .recv (.val v)) ++ [.recv (.val (.success md))] ++ l)) := by
          rw [collect, mbind_ok h1]
          simp only [Val.isSuccess, Bool.not_true, Bool.false_eq_true, if_false]
          rw [mbind_ok h2]
          simp only [net_net, net_log, net_sink, net_srv]
          simp only [net_net, net_log, net_sink, net_srv] at h5
          rw [mbind_ok h5]
          cases res <;> rfl
        have ha : CarriesAll (ackSends (D.runAll d ((q, ps) :: qps)).2) b := by
          simp only [DB.runAll, hx, Outcome.succeeds, if_true, ackSends, List.all_cons, Bool.true_and]
          exact h3
        cases res with
        | error e =>
          refine ⟨b, [.recv (.val (.success hd))] ++ (rs.map Val.record).map (fun v => .recv (.val v)) ++ [.recv (.val (.success md))] ++ l,
            .error e, ha, ?_, ?_⟩
          · simp only [DB.runAll, hx, Outcome.succeeds, if_true]
            exact .inr ⟨e, h4, rfl⟩
          · rw [List.length_cons, key]
            simp [DB.runAll, hx, Outcome.succeeds]
        | ok mds =>
          refine ⟨b, [.recv (.val (.success hd))] ++ (rs.map Val.record).map (fun v => .recv (.val v)) ++ [.recv (.val (.success md))] ++ l,
            .ok (md :: mds), ha, ?_, ?_⟩
          · simp only [DB.runAll, hx, Outcome.succeeds, if_true]
            exact .inl ⟨mds, h4, rfl⟩
          · rw [List.length_cons, key]
            simp [DB.runAll, hx, Outcome.succeeds]

/-- `ExecPipeline` of a statement. -/
theorem stmtExecPipeline_ok (close : M (Srv δ) (Option GoErr)) {w : World (Srv δ)} {d : δ} (h : Live w d .ready)
    (hi : w.inbox = []) {s : Nat} (h1 : (w.stmt s).closed = false) (h2 : (w.stmt s).conn = true)
    (h3 : (w.stmt s).rows = none) {params : List KVs} (hlen : params.length = (w.stmt s).queries.length)
    (hs : ∀ x ∈ (w.stmt s).queries.zip params, Sendable w.chunkSize (.run x.1 x.2)) :
    ∃ qps b l res, MeansAll ((w.stmt s).queries.zip params) qps ∧
      CarriesAll (pipeSends ((w.stmt s).queries.zip params) ++ ackSends (D.runAll d qps).2) b ∧
      execAllResult (D.runAll d qps).2 res ∧
      stmtExecPipeline D.peer close s params w = .ok res
        (w.net ⟨w.sink.out ++ b, none⟩ ⟨(D.runAll d qps).1, .ready, []⟩ []
          (w.log ++ pipeEvents ((w.stmt s).queries.zip params) ++ l)) := by
  obtain ⟨qps, b, h4, h5, h6⟩ := sendAll_ok D "Error running exec query:\n\n%s\n\nWith Params:\n%#v"
    ((w.stmt s).queries.zip params) h hs
  have hn : (w.stmt s).queries.length = qps.length := by rw [meansAll_length h4]; simp [hlen]
  simp only [hi, List.nil_append] at h6
  obtain ⟨b', l, res, h7, h8, h9⟩ := collect_ok D close qps (d := d)
    (w := w.net ⟨w.sink.out ++ b, none⟩ ⟨(D.pipeline d .ready qps).1, (D.pipeline d .ready qps).2.1, []⟩
      ((D.pipeline d .ready qps).2.2.map .val) (w.log ++ pipeEvents ((w.stmt s).queries.zip params)))
    (h.net _ _ _) rfl
  refine ⟨qps, b ++ b', l, res, h4, carriesAll_append h5 h7, h8, ?_⟩
  have hg : guardStmt s w = .ok none w := by simp [guardStmt, h1, h3]
  unfold stmtExecPipeline
  rw [mbind_ok hg]
  simp only [get_bind]
  rw [if_neg (by simp [hlen]), mbind_ok ((withConn_ok h2).trans h6)]
  simp only []
  rw [withConn_ok (by simpa using h2), hn, h9]
  simp

/-- `ExecPipeline` of the connection. -/
theorem execPipeline_ok (close : M (Srv δ) (Option GoErr)) {w : World (Srv δ)} {d : δ} (h : Live w d .ready)
    (hi : w.inbox = []) (ho : w.statement = none) {queries : List Str} {params : List KVs}
    (hlen : params.length = queries.length) (hs : ∀ x ∈ queries.zip params, Sendable w.chunkSize (.run x.1 x.2)) :
    ∃ qps b l res, MeansAll (queries.zip params) qps ∧
      CarriesAll (pipeSends (queries.zip params) ++ ackSends (D.runAll d qps).2) b ∧
      execAllResult (D.runAll d qps).2 res ∧
      execPipeline D.peer close queries params w = .ok res
        { w.net ⟨w.sink.out ++ b, none⟩ ⟨(D.runAll d qps).1, .ready, []⟩ []
          (w.log ++ pipeEvents (queries.zip params) ++ l) with
          stmts := w.stmts ++ [{ query := [], queries := queries, conn := false, closed := true, rows := none }] } := by
  let w1 : World (Srv δ) := { w with stmts := w.stmts ++ [{ query := [], queries := queries, conn := true, closed := false, rows := none }] }
  have e : w1.stmt w.stmts.length = { query := [], queries := queries, conn := true, closed := false, rows := none } := stmt_append w _
  have hl : Live w1 d .ready := ⟨h.closed, h.srv, h.budget, h.cs⟩
  obtain ⟨qps, b, l, res, h1, h2, h3, h4⟩ := stmtExecPipeline_ok D close hl hi (s := w.stmts.length) (params := params)
    (by rw [e]) (by rw [e]) (by rw [e]) (by rw [e]; exact hlen) (by rw [e]; exact hs)
  rw [e] at h1 h2 h4
  refine ⟨qps, b, l, res, h1, h2, h3, ?_⟩
  have hg : guardConn w = .ok none w := by simp [guardConn, ho, h.closed]
  have hn : newStmt [] queries w = .ok w.stmts.length w1 := rfl
  unfold execPipeline
  rw [mbind_ok hg]
  simp only []
  rw [mbind_ok hn, mbind_ok h4, mbind_ok (stmtClose_norows D.peer close (s := w.stmts.length) (by simp [e]) (by simp [e]) (by simp [e]))]
  simp [World.stmtDone, World.setStmt, World.net, w1, ho, modify_append_last]

end Bolt
