import Verif.Proofs.Sim1

/-! The driver simulates the abstract session: calls on the connection and on statements. -/

namespace Bolt
open PackStream

variable {δ : Type} (D : DB δ)
variable {ce : Bool}

/-- One call behaves like the abstract session. -/
def SimulatesE (ce : Bool) (close : M (Srv δ) (Option GoErr)) (c : Call KVs) (w : World (Srv δ)) (h : Handles) (s : Sess δ) : Prop :=
  ∃ m, c.Means m ∧ ∀ s' r, s.step D m = some (s', r) → ∃ w' h', c.run D.peer close h w = .ok (r, h') w' ∧ RepE ce w' h' s'

theorem Live.of {w w' : World (Srv δ)} {d : δ} {m : Mode} (h : Live w d m) (h1 : w'.closed = w.closed)
    (h2 : w'.srv = w.srv) (h3 : w'.sink = w.sink) (h4 : w'.chunkSize = w.chunkSize) : Live w' d m :=
  ⟨h1.trans h.closed, h2.trans h.srv, by rw [h3]; exact h.budget, by rw [h4]; exact h.cs⟩

/-! ### Pipelines and their parameters -/

theorem meansAll_fst {l : List (Str × KVs)} {m : List (Str × PSs)} (h : MeansAll l m) : m.map Prod.fst = l.map Prod.fst := by
  induction l generalizing m with
  | nil => simp only [MeansAll] at h; subst h; rfl
  | cons x l ih => obtain ⟨q, kvs⟩ := x; obtain ⟨ps, rest, _, h2, rfl⟩ := h; simp [ih h2]

theorem zip_map (l : List (Str × KVs)) : (l.map Prod.fst).zip (l.map Prod.snd) = l := by
  induction l with
  | nil => rfl
  | cons x l ih => simp [ih]

theorem meansAll_params {qs : List Str} {l : List KVs} (hl : l.length = qs.length) {m : List (Str × PSs)} (h : MeansAll (qs.zip l) m) :
    MeansParams l (m.map Prod.snd) ∧ m = qs.zip (m.map Prod.snd) := by
  induction qs generalizing l m with
  | nil =>
    obtain rfl : l = [] := by simpa using hl
    simp only [List.zip_nil_left, MeansAll] at h
    subst h
    exact ⟨rfl, rfl⟩
  | cons q qs ih =>
    cases l with
    | nil => simp at hl
    | cons kvs l =>
      simp only [List.zip_cons_cons, MeansAll] at h
      obtain ⟨ps, rest, h1, h2, rfl⟩ := h
      obtain ⟨h3, h4⟩ := ih (by simpa using hl) h2
      exact ⟨⟨ps, rest.map Prod.snd, h1, h3, rfl⟩, by simp [← h4]⟩

theorem meansParams_length {l : List KVs} {m : List PSs} (h : MeansParams l m) : m.length = l.length := by
  induction l generalizing m with
  | nil => simp only [MeansParams] at h; subst h; rfl
  | cons x l ih => obtain ⟨ps, rest, _, h2, rfl⟩ := h; simp [ih h2]

/-! ### Results -/

theorem execResult_res {o : Outcome} {res : Except GoErr KVs} (h : o.execResult res) : exceptRes .summary res = o.res := by
  cases o with
  | refused md => obtain ⟨e, rfl, h2⟩ := h; exact res_failure h2
  | answer hd rs en =>
    cases en with
    | summary md => simp only [Outcome.execResult] at h; subst h; rfl
    | broken md => obtain ⟨e, rfl, h2⟩ := h; exact res_failure h2

theorem execAllResult_res {os : List Outcome} : ∀ {res : Except GoErr (List KVs)}, execAllResult os res →
    exceptRes .summaries res = pipeRes os := by
  induction os with
  | nil => intro res h; simp only [execAllResult] at h; subst h; rfl
  | cons o os ih =>
    intro res h
    cases o with
    | refused md => obtain ⟨e, rfl, h2⟩ := h; simp [pipeRes, List.findSome?, Outcome.failure?, res_failure h2, exceptRes]
    | answer hd rs en =>
      cases en with
      | broken md => obtain ⟨e, rfl, h2⟩ := h; simp [pipeRes, List.findSome?, Outcome.failure?, res_failure h2, exceptRes]
      | summary md =>
        rcases h with ⟨mds, h1, rfl⟩ | ⟨e, h1, rfl⟩
        · have := ih h1
          simp only [pipeRes, List.findSome?, Outcome.failure?, exceptRes] at this ⊢
          cases hf : os.findSome? Outcome.failure? with
          | some x => rw [hf] at this; simp at this
          | none => rw [hf] at this; simp only [Res.summaries.injEq] at this; subst this; rfl
        · have := ih h1
          simp only [pipeRes, List.findSome?, Outcome.failure?, exceptRes] at this ⊢
          cases hf : os.findSome? Outcome.failure? with
          | some x => rw [hf] at this; exact this
          | none =>
            rw [hf] at this
            simp only [GoErr.res] at this
            split at this <;> cases this

/-! ### Calls on the connection -/

section
variable {D} (close : M (Srv δ) (Option GoErr)) {w : World (Srv δ)} {h : Handles} {s : Sess δ}

theorem gotRows_ok {h : Handles} {r : Nat} {md : KVs} {w : World (Srv δ)} (hm : (w.row r).md = md) :
    gotRows h (.ok r) w = .ok (.rows md, { h with r := some r }) w := by
  simp [gotRows, hm]

theorem sim_local (hr : RepE ce w h s) {c : Call KVs} {m : Call PSs} (hm : c.Means m) (hs : s.step D m = some (s, .localError))
    (hrun : c.run D.peer close h w = .ok (.localError, h) w) : SimulatesE D ce close c w h s := by
  refine ⟨m, hm, ?_⟩
  intro s' r hs'
  rw [hs] at hs'
  simp only [Option.some.injEq, Prod.mk.injEq] at hs'
  obtain ⟨rfl, rfl⟩ := hs'
  exact ⟨w, h, hrun, hr⟩

/-- Calls on the connection when something is open or it is closed. -/
theorem busy_step (ho : s.opn ≠ .idle) {c : Call PSs} (hc : match c with
    | .exec _ _ | .query _ _ | .queryAll _ _ | .execPipe _ | .queryPipe _ | .prepare _ | .preparePipe _ | .begin => True
    | _ => False) : s.step D c = some (s, .localError) := by
  rcases s with ⟨d, o, tx, cs⟩
  cases c <;> simp only at hc <;> cases o <;> first | exact absurd rfl ho | rfl

/-- Calls on a statement when it is not ready. -/
theorem busy_stmt (ho : ∀ p, s.opn ≠ .stmt p) {c : Call PSs} (hc : match c with
    | .stExec _ | .stQuery _ | .stExecPipe _ | .stQueryPipe _ => True
    | _ => False) : s.step D c = some (s, .localError) := by
  rcases s with ⟨d, o, tx, cs⟩
  cases c <;> simp only at hc <;> cases o <;> first | exact absurd rfl (ho _) | rfl

theorem sim_exec (hr : RepE ce w h s) {q : Str} {kvs : KVs} (hd : (Call.exec q kvs).Deliverable s) :
    SimulatesE D ce close (.exec q kvs) w h s := by
  by_cases ho : s.opn = .idle
  · rcases s with ⟨d, o, tx, cs⟩
    simp only at ho
    subst ho
    obtain ⟨h1, h2, h3, h4, h5⟩ := hr.body
    obtain ⟨ps, b, l, res, h6, _, h7, h8⟩ := exec_ok D close h1 h2 h3 (q := q) (kvs := kvs) (by rw [hr.cs.1]; exact hd.2)
    refine ⟨_, .exec h6, ?_⟩
    intro s' r hs
    simp only [Sess.step, Option.some.injEq, Prod.mk.injEq] at hs
    obtain ⟨rfl, rfl⟩ := hs
    refine ⟨_, h, (mbind_ok h8).trans (congrArg (fun x => Out.ok (x, h) _) (execResult_res h7)),
      hr.next ?_ ?_⟩
    · exact ⟨rfl, rfl, rfl, rfl, rfl, .append _ _, .refl _⟩
    · exact ⟨⟨h1.closed, rfl, rfl, h1.cs⟩, rfl, h3, h4.grows ⟨rfl, rfl, rfl, rfl, rfl, .append _ _, .refl _⟩,
        h5.grows ⟨rfl, rfl, rfl, rfl, rfl, .append _ _, .refl _⟩⟩
  · obtain ⟨e, h1, h2⟩ := hr.guardConn ho
    obtain ⟨m, hm⟩ := hd.1
    refine sim_local close hr hm (by cases hm; exact busy_step ho trivial) ?_
    simp only [Call.run, execNeo, mbind_run, h1, pure_run, exceptRes, h2]

theorem sim_execPipe (hr : RepE ce w h s) {l : List (Str × KVs)} (hd : (Call.execPipe l).Deliverable s) :
    SimulatesE D ce close (.execPipe l) w h s := by
  by_cases ho : s.opn = .idle
  · rcases s with ⟨d, o, tx, cs⟩
    simp only at ho
    subst ho
    obtain ⟨h1, h2, h3, h4, h5⟩ := hr.body
    obtain ⟨ps, b, l', res, h6, _, h7, h8⟩ := execPipeline_ok D close h1 h2 h3 (queries := l.map Prod.fst) (params := l.map Prod.snd)
      (by simp) (by rw [zip_map, hr.cs.1]; exact hd.2)
    rw [zip_map] at h6
    refine ⟨_, .execPipe h6, ?_⟩
    intro s' r hs
    simp only [Sess.step, Option.some.injEq, Prod.mk.injEq] at hs
    obtain ⟨rfl, rfl⟩ := hs
    refine ⟨_, h, (mbind_ok h8).trans (congrArg (fun x => Out.ok (x, h) _) (execAllResult_res h7)),
      hr.next ?_ ?_⟩
    · exact ⟨rfl, rfl, rfl, rfl, rfl, .append _ _, .refl _⟩
    · exact ⟨⟨h1.closed, rfl, rfl, h1.cs⟩, rfl, h3, h4.grows ⟨rfl, rfl, rfl, rfl, rfl, .append _ _, .refl _⟩,
        h5.grows ⟨rfl, rfl, rfl, rfl, rfl, .append _ _, .refl _⟩⟩
  · obtain ⟨e, h1, h2⟩ := hr.guardConn ho
    obtain ⟨m, hm⟩ := hd.1
    refine sim_local close hr hm (by cases hm; exact busy_step ho trivial) ?_
    simp only [Call.run, execPipeline, mbind_run, h1, pure_run, exceptRes, h2]

theorem restItems_single (rs : List (List Val)) (e : Ending) : restItems rs e [] 0 = (rs.map Val.record ++ e.reply.2).map Item.val := by
  simp [restItems, replies]

theorem restMode_single (e : Ending) : restMode e [] = e.reply.1 := by
  cases e <;> rfl

theorem afterOk_single (e : Ending) : AfterOk e [] 0 := by
  cases e <;> rfl

theorem sim_query (hr : RepE ce w h s) {q : Str} {kvs : KVs} (hd : (Call.query q kvs).Deliverable s) :
    SimulatesE D ce close (.query q kvs) w h s := by
  by_cases ho : s.opn = .idle
  · rcases s with ⟨d, o, tx, cs⟩
    simp only at ho
    subst ho
    obtain ⟨h1, h2, h3, h4, h5⟩ := hr.body
    obtain ⟨ps, h6, h7⟩ := queryNeo_ok D close h1 h2 h3 (q := q) (kvs := kvs) (by rw [hr.cs.1]; exact hd.2)
    refine ⟨_, .query h6, ?_⟩
    intro s' r hs
    simp only [Sess.step] at hs
    simp only at h7
    rcases hx : D.exec d q ps with ⟨d', o⟩
    rw [hx] at hs h7
    cases o with
    | refused md =>
      simp only [Option.some.injEq, Prod.mk.injEq] at hs
      obtain ⟨rfl, rfl⟩ := hs
      obtain ⟨b, l, _, h8⟩ := h7
      refine ⟨_, h, (mbind_ok h8).trans (congrArg (fun x => Out.ok (x, h) _) (res_query md)),
        hr.next ?_ ?_⟩
      · exact ⟨rfl, rfl, rfl, rfl, rfl, .append _ _, .refl _⟩
      · exact ⟨⟨h1.closed, rfl, rfl, h1.cs⟩, rfl, h3, h4.grows ⟨rfl, rfl, rfl, rfl, rfl, .append _ _, .refl _⟩,
          h5.grows ⟨rfl, rfl, rfl, rfl, rfl, .append _ _, .refl _⟩⟩
    | answer hd' rs e =>
      simp only [Option.some.injEq, Prod.mk.injEq] at hs
      obtain ⟨rfl, rfl⟩ := hs
      obtain ⟨b, l, _, h8⟩ := h7
      have hg : Grows w { w.net ⟨w.sink.out ++ b, none⟩ ⟨d', e.reply.1, []⟩ ((rs.map Val.record ++ e.reply.2).map Item.val) (w.log ++ l) with
              stmts := w.stmts ++ [{ query := q, queries := [], conn := true, closed := false, rows := some w.rows.length }]
              rows := w.rows ++ [directRow hd' w.stmts.length]
              statement := some w.stmts.length } := ⟨rfl, rfl, rfl, rfl, rfl, .append _ _, .append _ _⟩
      refine ⟨_, { h with r := some w.rows.length }, (mbind_ok h8).trans (gotRows_ok (md := hd') ?_), hr.next hg ?_⟩
      · simp [World.row, directRow]
      · refine ⟨⟨h1.closed, by rw [restMode_single]; rfl, rfl, h1.cs⟩, (restItems_single rs e).symm, afterOk_single e,
          w.stmts.length, w.rows.length, 0, ⟨rfl, ?_, rfl, by simp⟩, by simp [directRow], fun _ => ⟨rfl, rfl⟩, fun hc => absurd rfl hc⟩
        exact fun i hi => h4.grows hg i hi
  · obtain ⟨e, h1, h2⟩ := hr.guardConn ho
    obtain ⟨m, hm⟩ := hd.1
    refine sim_local close hr hm (by cases hm; exact busy_step ho trivial) ?_
    simp only [Call.run, queryNeo, mbind_run, h1, pure_run, gotRows, h2]

theorem sim_queryPipe (hr : RepE ce w h s) {l : List (Str × KVs)} (hd : (Call.queryPipe l).Deliverable s) :
    SimulatesE D ce close (.queryPipe l) w h s := by
  by_cases ho : s.opn = .idle
  · rcases s with ⟨d, o, tx, cs⟩
    simp only at ho
    subst ho
    obtain ⟨h1, h2, h3, h4, h5⟩ := hr.body
    obtain ⟨qps, b, h6, _, h7⟩ := queryPipeline_ok D close h1 h2 h3 (queries := l.map Prod.fst) (params := l.map Prod.snd)
      (by simp) (by rw [zip_map, hr.cs.1]; exact hd.2)
    rw [zip_map] at h6 h7
    have h66 := meansAll_fst h6
    refine ⟨_, .queryPipe h6, ?_⟩
    intro s' r hs
    simp only [Sess.step, h66] at hs
    cases qps with
    | nil => simp [Sess.openPipe] at hs
    | cons x rest =>
      obtain ⟨q, ps⟩ := x
      have h8 := h7 q ps rest rfl
      simp only [Sess.openPipe] at hs
      simp only at h8
      rcases hx : D.exec d q ps with ⟨d', o⟩
      rw [hx] at hs h8
      cases o with
      | refused md =>
        simp only [Option.some.injEq, Prod.mk.injEq] at hs
        obtain ⟨rfl, rfl⟩ := hs
        obtain ⟨b', l', _, h9⟩ := h8
        refine ⟨_, h, (mbind_ok h9).trans (congrArg (fun x => Out.ok (x, h) _) (res_failure rfl)),
          hr.next ?_ ?_⟩
        · exact ⟨rfl, rfl, rfl, rfl, rfl, .append _ _, .refl _⟩
        · exact ⟨⟨h1.closed, rfl, rfl, h1.cs⟩, rfl, h4.grows ⟨rfl, rfl, rfl, rfl, rfl, .append _ _, .refl _⟩,
            h5.grows ⟨rfl, rfl, rfl, rfl, rfl, .append _ _, .refl _⟩, w.stmts.length, ⟨[], l.map Prod.fst⟩, rfl, by simp⟩
      | answer hd' rs e =>
        simp only [Option.some.injEq, Prod.mk.injEq] at hs
        obtain ⟨rfl, rfl⟩ := hs
        have h9 : queryPipeline D.peer close (l.map Prod.fst) (l.map Prod.snd) w = _ := h8
        obtain ⟨hp, ha⟩ := pipeline_after D d' e rest
        rw [hp] at h9
        have hlen : (l.map Prod.fst).length = rest.length + 1 := by rw [← h66]; simp
        refine ⟨_, { h with r := some w.rows.length }, (mbind_ok h9).trans (gotRows_ok (md := hd') ?_),
          hr.next ⟨rfl, rfl, rfl, rfl, rfl, .append _ _, .append _ _⟩ ?_⟩
        · simp [World.row]
        · refine ⟨⟨h1.closed, rfl, rfl, h1.cs⟩, rfl, ha,
            w.stmts.length, w.rows.length, 0, ⟨rfl, ?_, rfl, by simp⟩, by simp, ?_, ?_⟩
          · exact fun i hi => by obtain ⟨x, hx1, hx2⟩ := h4 i hi; exact KeepS.append _ _ i x hx1 hx2
          · intro hc
            simp only at hc
            rw [hc] at hlen
            simp at hlen
          · intro _
            simp only at hlen ⊢
            omega
  · obtain ⟨e, h1, h2⟩ := hr.guardConn ho
    obtain ⟨m, hm⟩ := hd.1
    refine sim_local close hr hm (by cases hm; exact busy_step ho trivial) ?_
    simp only [Call.run, queryPipeline, mbind_run, h1, pure_run, gotRows, h2]

/-- `Prepare` and `PreparePipeline`. -/
theorem prepare_rep (hr : RepE ce w h s) (ho : s.opn = .idle) (q : Str) (qs : List Str) :
    ∃ w', prepare q qs w = .ok (.ok w.stmts.length) w' ∧ RepE ce w' { h with s := some w.stmts.length } { s with opn := .stmt ⟨q, qs⟩ } := by
  rcases s with ⟨d, o, tx, cs⟩
  simp only at ho
  subst ho
  obtain ⟨h1, h2, h3, h4, h5⟩ := hr.body
  have hg : guardConn w = .ok none w := by simp [guardConn, h3, h1.closed]
  refine ⟨{ w with stmts := w.stmts ++ [{ query := q, queries := qs, conn := true, closed := false, rows := none }], statement := some w.stmts.length }, ?_,
    hr.next ⟨rfl, rfl, rfl, rfl, rfl, .append _ _, .refl _⟩ ?_⟩
  · unfold prepare
    rw [mbind_ok hg]
    rfl
  · exact ⟨⟨h1.closed, h1.srv, h1.budget, h1.cs⟩, h2, h5, w.stmts.length, rfl, rfl, by simp⟩

theorem sim_prepare (hr : RepE ce w h s) {q : Str} : SimulatesE D ce close (.prepare q) w h s := by
  by_cases ho : s.opn = .idle
  · obtain ⟨w', h1, h2⟩ := prepare_rep hr ho q []
    refine ⟨_, .prepare, ?_⟩
    intro s' r hs
    simp only [Sess.step, ho, Option.some.injEq, Prod.mk.injEq] at hs
    obtain ⟨rfl, rfl⟩ := hs
    exact ⟨w', _, mbind_ok h1, h2⟩
  · obtain ⟨e, h1, h2⟩ := hr.guardConn ho
    refine sim_local close hr .prepare (busy_step ho trivial) ?_
    simp only [Call.run, Bolt.prepare, mbind_run, h1, pure_run, h2]

theorem sim_preparePipe (hr : RepE ce w h s) {qs : List Str} : SimulatesE D ce close (.preparePipe qs) w h s := by
  by_cases ho : s.opn = .idle
  · obtain ⟨w', h1, h2⟩ := prepare_rep hr ho [] qs
    refine ⟨_, .preparePipe, ?_⟩
    intro s' r hs
    simp only [Sess.step, ho, Option.some.injEq, Prod.mk.injEq] at hs
    obtain ⟨rfl, rfl⟩ := hs
    exact ⟨w', _, mbind_ok h1, h2⟩
  · obtain ⟨e, h1, h2⟩ := hr.guardConn ho
    refine sim_local close hr .preparePipe (busy_step ho trivial) ?_
    simp only [Call.run, Bolt.prepare, mbind_run, h1, pure_run, h2]

/-! ### Calls on statements -/

theorem sim_stExec (hr : RepE ce w h s) {kvs : KVs} (hd : (Call.stExec kvs).Deliverable s) :
    SimulatesE D ce close (.stExec kvs) w h s := by
  by_cases ho : ∃ p, s.opn = .stmt p
  · obtain ⟨p, ho⟩ := ho
    rcases s with ⟨d, o, tx, cs⟩
    simp only at ho
    subst ho
    obtain ⟨h1, h2, h5, i, h3, h4, h6⟩ := hr.body
    have e := stmt_of h6
    have hc : Call.run D.peer close h (.stExec kvs) = (do M.pure (exceptRes .summary (← stmtExecNeo D.peer close i kvs), h)) := by simp only [Call.run, h3]
    obtain ⟨ps, b, l, res, h7, _, h8, h9⟩ := stmtExec_ok D close h1 h2 (s := i) (by rw [e]) (by rw [e]) (by rw [e]) (kvs := kvs)
      (by rw [hr.cs.1, e]; exact hd.2)
    rw [e] at h8 h9
    refine ⟨_, .stExec h7, ?_⟩
    intro s' r hs
    simp only [Sess.step, Option.some.injEq, Prod.mk.injEq] at hs
    obtain ⟨rfl, rfl⟩ := hs
    refine ⟨_, h, (congrFun hc w).trans ((mbind_ok h9).trans (congrArg (fun x => Out.ok (x, h) _) (execResult_res h8))), hr.next (Grows.net _ _ _ _ _) ?_⟩
    · exact ⟨⟨h1.closed, rfl, rfl, h1.cs⟩, rfl, h5.grows (Grows.net _ _ _ _ _), i, h3, h4, h6⟩
  · obtain ⟨m, hm⟩ := hd.1
    refine sim_local close hr hm (by cases hm; exact busy_stmt (fun p hp => ho ⟨p, hp⟩) trivial) ?_
    cases hi : h.s with
    | none => simp only [Call.run, hi]; rfl
    | some i =>
      obtain ⟨e, h1, h2⟩ := hr.guardStmt (fun p hp => ho ⟨p, hp⟩) hi
      simp only [Call.run, hi, stmtExecNeo, mbind_run, h1, pure_run, exceptRes, h2]

theorem sim_stExecPipe (hr : RepE ce w h s) {l : List KVs} (hd : (Call.stExecPipe l).Deliverable s) :
    SimulatesE D ce close (.stExecPipe l) w h s := by
  by_cases ho : ∃ p, s.opn = .stmt p
  · obtain ⟨p, ho⟩ := ho
    rcases s with ⟨d, o, tx, cs⟩
    simp only at ho
    subst ho
    obtain ⟨h1, h2, h5, i, h3, h4, h6⟩ := hr.body
    have e := stmt_of h6
    have hc : Call.run D.peer close h (.stExecPipe l) = (do M.pure (exceptRes .summaries (← stmtExecPipeline D.peer close i l), h)) := by simp only [Call.run, h3]
    by_cases hlen : l.length = p.queries.length
    · obtain ⟨qps, b, l', res, h7, _, h8, h9⟩ := stmtExecPipeline_ok D close h1 h2 (s := i) (by rw [e]) (by rw [e]) (by rw [e])
        (params := l) (by rw [e]; exact hlen) (by rw [hr.cs.1, e]; exact hd.2)
      rw [e] at h7 h9
      obtain ⟨hp, hz⟩ := meansAll_params hlen h7
      refine ⟨_, .stExecPipe hp, ?_⟩
      intro s' r hs
      simp only [Sess.step, meansParams_length hp, hlen, ← hz, ne_eq, not_true_eq_false, if_false, Option.some.injEq, Prod.mk.injEq] at hs
      obtain ⟨rfl, rfl⟩ := hs
      refine ⟨_, h, (congrFun hc w).trans ((mbind_ok h9).trans (congrArg (fun x => Out.ok (x, h) _) (execAllResult_res h8))), hr.next (Grows.net _ _ _ _ _) ?_⟩
      · exact ⟨⟨h1.closed, rfl, rfl, h1.cs⟩, rfl, h5.grows (Grows.net _ _ _ _ _), i, h3, h4, h6⟩
    · obtain ⟨m, hm⟩ := hd.1
      refine sim_local close hr hm (by cases hm with | stExecPipe hp => simp [Sess.step, meansParams_length hp, hlen]) ?_
      have hg : Bolt.guardStmt i w = .ok none w := by simp [Bolt.guardStmt, e]
      simp only [Call.run, h3, stmtExecPipeline, mbind_run, hg, get_run, e, ne_eq, hlen, not_false_eq_true, if_true, pure_run]
      rfl
  · obtain ⟨m, hm⟩ := hd.1
    refine sim_local close hr hm (by cases hm; exact busy_stmt (fun p hp => ho ⟨p, hp⟩) trivial) ?_
    cases hi : h.s with
    | none => simp only [Call.run, hi]; rfl
    | some i =>
      obtain ⟨e, h1, h2⟩ := hr.guardStmt (fun p hp => ho ⟨p, hp⟩) hi
      simp only [Call.run, hi, stmtExecPipeline, mbind_run, h1, pure_run, exceptRes, h2]

theorem sim_stQuery (hr : RepE ce w h s) {kvs : KVs} (hd : (Call.stQuery kvs).Deliverable s) :
    SimulatesE D ce close (.stQuery kvs) w h s := by
  by_cases ho : ∃ p, s.opn = .stmt p
  · obtain ⟨p, ho⟩ := ho
    rcases s with ⟨d, o, tx, cs⟩
    simp only at ho
    subst ho
    obtain ⟨h1, h2, h5, i, h3, h4, h6⟩ := hr.body
    have e := stmt_of h6
    have hc : Call.run D.peer close h (.stQuery kvs) = (do gotRows h (← stmtQueryNeo D.peer close i kvs)) := by simp only [Call.run, h3]
    obtain ⟨ps, h7, h8⟩ := stmtQueryNeo_ok D close h1 h2 (s := i) (by rw [e]) (by rw [e]) (by rw [e]) (kvs := kvs)
      (by rw [hr.cs.1, e]; exact hd.2)
    simp only [e] at h8
    refine ⟨_, .stQuery h7, ?_⟩
    intro s' r hs
    simp only [Sess.step] at hs
    by_cases hq : p.queries = []
    case neg => simp [hq] at hs
    simp only [hq, ne_eq, not_true_eq_false, if_false] at hs
    rcases hx : D.exec d p.query ps with ⟨d', o⟩
    rw [hx] at hs h8
    cases o with
    | refused md =>
      simp only [Option.some.injEq, Prod.mk.injEq] at hs
      obtain ⟨rfl, rfl⟩ := hs
      obtain ⟨b, l, _, h9⟩ := h8
      refine ⟨_, h, (congrFun hc w).trans ((mbind_ok h9).trans (congrArg (fun x => Out.ok (x, h) _) (res_query md))), hr.next (Grows.net _ _ _ _ _) ?_⟩
      · exact ⟨⟨h1.closed, rfl, rfl, h1.cs⟩, rfl, h5.grows (Grows.net _ _ _ _ _), i, h3, h4, h6⟩
    | answer hd' rs en =>
      simp only [Option.some.injEq, Prod.mk.injEq] at hs
      obtain ⟨rfl, rfl⟩ := hs
      obtain ⟨b, l, _, h9⟩ := h8
      refine ⟨_, { h with r := some w.rows.length }, (congrFun hc w).trans ((mbind_ok h9).trans (gotRows_ok (md := hd') ?_)), ?_⟩
      · simp [World.row, stmtRow]
      · refine hr.next ⟨rfl, rfl, rfl, rfl, rfl, .modify _ _ _ (fun _ h => h), .append _ _⟩ ?_
        exact ⟨⟨h1.closed, rfl, rfl, h1.cs⟩, rfl, hq, i, w.rows.length, ⟨rfl, h3, h4, by simp [h6]⟩, by simp [stmtRow]⟩
  · obtain ⟨m, hm⟩ := hd.1
    refine sim_local close hr hm (by cases hm; exact busy_stmt (fun p hp => ho ⟨p, hp⟩) trivial) ?_
    cases hi : h.s with
    | none => simp only [Call.run, hi]; rfl
    | some i =>
      obtain ⟨e, h1, h2⟩ := hr.guardStmt (fun p hp => ho ⟨p, hp⟩) hi
      simp only [Call.run, hi, stmtQueryNeo, mbind_run, h1, pure_run, gotRows, h2]

theorem sim_stQueryPipe (hr : RepE ce w h s) {l : List KVs} (hd : (Call.stQueryPipe l).Deliverable s) :
    SimulatesE D ce close (.stQueryPipe l) w h s := by
  by_cases ho : ∃ p, s.opn = .stmt p
  · obtain ⟨p, ho⟩ := ho
    rcases s with ⟨d, o, tx, cs⟩
    simp only at ho
    subst ho
    obtain ⟨h1, h2, h5, i, h3, h4, h6⟩ := hr.body
    have e := stmt_of h6
    have hc : Call.run D.peer close h (.stQueryPipe l) = (do gotRows h (← stmtQueryPipeline D.peer close i l)) := by simp only [Call.run, h3]
    by_cases hlen : l.length = p.queries.length
    · obtain ⟨qps, b, h7, _, h8⟩ := stmtQueryPipeline_ok D close h1 h2 (s := i) (by rw [e]) (by rw [e]) (by rw [e])
        (params := l) (by rw [e]; exact hlen) (by rw [hr.cs.1, e]; exact hd.2)
      rw [e] at h7 h8
      obtain ⟨hp, hz⟩ := meansAll_params hlen h7
      refine ⟨_, .stQueryPipe hp, ?_⟩
      intro s' r hs
      simp only [Sess.step, meansParams_length hp, hlen, ← hz, ne_eq, not_true_eq_false, if_false] at hs
      have hql : p.queries.length = qps.length := by rw [meansAll_length h7]; simp [hlen]
      cases qps with
      | nil => simp [Sess.openPipe] at hs
      | cons x rest =>
        obtain ⟨q, ps⟩ := x
        have h9 := h8 q ps rest rfl
        simp only [Sess.openPipe] at hs
        simp only at h9
        rcases hx : D.exec d q ps with ⟨d', o⟩
        rw [hx] at hs h9
        cases o with
        | refused md =>
          simp only [Option.some.injEq, Prod.mk.injEq] at hs
          obtain ⟨rfl, rfl⟩ := hs
          obtain ⟨b', l', _, h10⟩ := h9
          refine ⟨_, h, (congrFun hc w).trans ((mbind_ok h10).trans (congrArg (fun x => Out.ok (x, h) _) (res_failure rfl))), hr.next (Grows.net _ _ _ _ _) ?_⟩
          · exact ⟨⟨h1.closed, rfl, rfl, h1.cs⟩, rfl, h5.grows (Grows.net _ _ _ _ _), i, h3, h4, h6⟩
        | answer hd' rs en =>
          simp only [Option.some.injEq, Prod.mk.injEq] at hs
          obtain ⟨rfl, rfl⟩ := hs
          have h10 : stmtQueryPipeline D.peer close i l w = _ := h9
          obtain ⟨hpl, ha⟩ := pipeline_after D d' en rest
          rw [hpl] at h10
          refine ⟨_, { h with r := some w.rows.length }, (congrFun hc w).trans ((mbind_ok h10).trans (gotRows_ok (md := hd') ?_)), ?_⟩
          · simp [World.row, stmtRow]
          · refine hr.next ⟨rfl, rfl, rfl, rfl, rfl, .modify _ _ _ (fun _ h => h), .append _ _⟩ ?_
            refine ⟨⟨h1.closed, rfl, rfl, h1.cs⟩, rfl, ha, i, w.rows.length, 0, ⟨rfl, h3, h4, by simp [h6]⟩, by simp, ?_, ?_⟩
            · intro hc
              rw [hc] at hql
              simp at hql
            · intro _
              simp only [List.length_cons] at hql
              omega
    · obtain ⟨m, hm⟩ := hd.1
      refine sim_local close hr hm (by cases hm with | stQueryPipe hp => simp [Sess.step, meansParams_length hp, hlen]) ?_
      have hg : Bolt.guardStmt i w = .ok none w := by simp [Bolt.guardStmt, e]
      simp only [Call.run, h3, stmtQueryPipeline, mbind_run, hg, get_run, e, ne_eq, hlen, not_false_eq_true, if_true, pure_run]
      rfl
  · obtain ⟨m, hm⟩ := hd.1
    refine sim_local close hr hm (by cases hm; exact busy_stmt (fun p hp => ho ⟨p, hp⟩) trivial) ?_
    cases hi : h.s with
    | none => simp only [Call.run, hi]; rfl
    | some i =>
      obtain ⟨e, h1, h2⟩ := hr.guardStmt (fun p hp => ho ⟨p, hp⟩) hi
      simp only [Call.run, hi, stmtQueryPipeline, mbind_run, h1, pure_run, gotRows, h2]

end

end Bolt
