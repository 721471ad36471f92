import Verif.Proofs.Pipeline2
import Verif.Spec.Abstract

/-! Opening and closing the rows of a pipeline. -/

namespace Bolt
open PackStream

variable {δ : Type} (D : DB δ)

/-- `QueryPipeline` of a statement. -/
theorem stmtQueryPipeline_ok (close : M (Srv δ) (Option GoErr)) {w : World (Srv δ)} {d : δ} (h : Live w d .ready)
    (hi : w.inbox = []) {s : Nat} (h1 : (w.stmt s).closed = false) (h2 : (w.stmt s).conn = true)
    (h3 : (w.stmt s).rows = none) {params : List KVs} (hlen : params.length = (w.stmt s).queries.length)
    (hs : ∀ x ∈ (w.stmt s).queries.zip params, Sendable w.chunkSize (.run x.1 x.2)) :
    ∃ qps b, MeansAll ((w.stmt s).queries.zip params) qps ∧ CarriesAll (pipeSends ((w.stmt s).queries.zip params)) b ∧
      ∀ q ps rest, qps = (q, ps) :: rest →
      match D.exec d q ps with
      | (d', .refused md) => ∃ b' l, Carries .ackFailure b' ∧
          stmtQueryPipeline D.peer close s params w =
            .ok (.error (.wrap "An error occurred consuming initial pipeline command" (some (queryErr md))))
            (w.net ⟨w.sink.out ++ (b ++ b'), none⟩ ⟨d', .ready, []⟩ [] (w.log ++ pipeEvents ((w.stmt s).queries.zip params) ++ l))
      | (d', .answer hd rs e) =>
          stmtQueryPipeline D.peer close s params w = .ok (.ok w.rows.length)
            { w.net ⟨w.sink.out ++ b, none⟩ ⟨(D.pipeline d' e.reply.1 rest).1, (D.pipeline d' e.reply.1 rest).2.1, []⟩
              ((rs.map Val.record ++ e.reply.2 ++ (D.pipeline d' e.reply.1 rest).2.2).map Item.val)
              (w.log ++ pipeEvents ((w.stmt s).queries.zip params) ++ [.recv (.val (.success hd))]) with
              stmts := w.stmts.modify s fun x => { x with rows := some w.rows.length }
              rows := w.rows ++ [{ md := hd, stmt := s, closed := false, consumed := true, finished := false, idx := 0, closeStmt := false }] } := by
  obtain ⟨qps, b, h4, h5, h6⟩ := sendAll_ok D "Error running query:\n\n%s\n\nWith Params:\n%#v"
    ((w.stmt s).queries.zip params) h hs
  simp only [hi, List.nil_append] at h6
  refine ⟨qps, b, h4, h5, ?_⟩
  intro q ps rest hq
  subst hq
  have hg : guardStmt s w = .ok none w := by simp [guardStmt, h1, h3]
  have key := (withConn_ok h2).trans h6
  rcases hx : D.exec d q ps with ⟨d', o⟩
  simp only [DB.pipeline, handle2_ready, hx] at h6 key
  cases o with
  | refused md =>
    simp only [Outcome.pulled] at key
    rw [pipeline_failed] at key
    obtain ⟨b', l, h7, h8⟩ := (h.net (d' := d') (m' := .failed) (w.sink.out ++ b)
      (List.map Item.val ([.failure md, .ignored] ++ List.replicate (2 * rest.length) .ignored))
      (w.log ++ pipeEvents ((w.stmt s).queries.zip params))).consume_failure D close (md := md) (n := 1 + 2 * rest.length)
        (by simp only [net_inbox]; rw [Nat.add_comm 1, List.replicate_succ]; simp)
    refine ⟨b', l, h7, ?_⟩
    unfold stmtQueryPipeline
    rw [mbind_ok hg]
    simp only [get_bind]
    rw [if_neg (by simp [hlen]), mbind_ok key]
    simp only []
    rw [mbind_ok ((withConn_ok (by simpa using h2)).trans h8)]
    simp [queryErr]
  | answer hd rs e =>
    simp only [Outcome.pulled] at key
    have h8 := consume_val D.peer close (w := w.net ⟨w.sink.out ++ b, none⟩
      ⟨(D.pipeline d' e.reply.1 rest).1, (D.pipeline d' e.reply.1 rest).2.1, []⟩
      (List.map Item.val (.success hd :: (rs.map Val.record ++ e.reply.2) ++ (D.pipeline d' e.reply.1 rest).2.2))
      (w.log ++ pipeEvents ((w.stmt s).queries.zip params))) (v := .success hd)
      (t := List.map Item.val (rs.map Val.record ++ e.reply.2 ++ (D.pipeline d' e.reply.1 rest).2.2)) (by simp) (by simp)
    show stmtQueryPipeline D.peer close s params w = _
    unfold stmtQueryPipeline
    rw [mbind_ok hg]
    simp only [get_bind]
    rw [if_neg (by simp [hlen]), mbind_ok key]
    simp only []
    rw [mbind_ok ((withConn_ok (by simpa using h2)).trans h8)]
    simp [newRowsObj, mbind_run, World.setStmt, World.net]

/-- `QueryPipeline` of the connection. -/
theorem queryPipeline_ok (close : M (Srv δ) (Option GoErr)) {w : World (Srv δ)} {d : δ} (h : Live w d .ready)
    (hi : w.inbox = []) (ho : w.statement = none) {queries : List Str} {params : List KVs}
    (hlen : params.length = queries.length) (hs : ∀ x ∈ queries.zip params, Sendable w.chunkSize (.run x.1 x.2)) :
    ∃ qps b, MeansAll (queries.zip params) qps ∧ CarriesAll (pipeSends (queries.zip params)) b ∧
      ∀ q ps rest, qps = (q, ps) :: rest →
      match D.exec d q ps with
      | (d', .refused md) => ∃ b' l, Carries .ackFailure b' ∧
          queryPipeline D.peer close queries params w =
            .ok (.error (.wrap "An error occurred consuming initial pipeline command" (some (queryErr md))))
            { w.net ⟨w.sink.out ++ (b ++ b'), none⟩ ⟨d', .ready, []⟩ [] (w.log ++ pipeEvents (queries.zip params) ++ l) with
              stmts := w.stmts ++ [{ query := [], queries := queries, conn := true, closed := false, rows := none }]
              statement := some w.stmts.length }
      | (d', .answer hd rs e) =>
          queryPipeline D.peer close queries params w = .ok (.ok w.rows.length)
            { w.net ⟨w.sink.out ++ b, none⟩ ⟨(D.pipeline d' e.reply.1 rest).1, (D.pipeline d' e.reply.1 rest).2.1, []⟩
              ((rs.map Val.record ++ e.reply.2 ++ (D.pipeline d' e.reply.1 rest).2.2).map Item.val)
              (w.log ++ pipeEvents (queries.zip params) ++ [.recv (.val (.success hd))]) with
              stmts := w.stmts ++ [{ query := [], queries := queries, conn := true, closed := false, rows := some w.rows.length }]
              rows := w.rows ++ [{ md := hd, stmt := w.stmts.length, closed := false, consumed := true, finished := false, idx := 0, closeStmt := true }]
              statement := some w.stmts.length } := by
  let w1 : World (Srv δ) := { w with stmts := w.stmts ++ [{ query := [], queries := queries, conn := true, closed := false, rows := none }], statement := some w.stmts.length }
  have e : w1.stmt w.stmts.length = { query := [], queries := queries, conn := true, closed := false, rows := none } := stmt_append w _
  have hl : Live w1 d .ready := ⟨h.closed, h.srv, h.budget, h.cs⟩
  obtain ⟨qps, b, h1, h2, h3⟩ := stmtQueryPipeline_ok D close hl hi (s := w.stmts.length) (params := params)
    (by rw [e]) (by rw [e]) (by rw [e]) (by rw [e]; exact hlen) (by rw [e]; exact hs)
  rw [e] at h1 h2 h3
  refine ⟨qps, b, h1, h2, ?_⟩
  intro q ps rest hq
  have h4 := h3 q ps rest hq
  have hg : guardConn w = .ok none w := by simp [guardConn, ho, h.closed]
  have hn : newStmt [] queries w = .ok w.stmts.length { w with stmts := w1.stmts } := rfl
  have key : ∀ x w', stmtQueryPipeline D.peer close w.stmts.length params w1 = .ok x w' →
      queryPipeline D.peer close queries params w = (match x with
        | .error e => M.pure (Except.error e)
        | .ok r => do
          M.modify fun w => w.setRow r fun x => { x with closeStmt := true }
          M.pure (Except.ok r) : M (Srv δ) (Except GoErr Nat)) w' := by
    intro x w' hx
    unfold queryPipeline
    rw [mbind_ok hg]
    simp only []
    rw [mbind_ok hn]
    simp only [modify_bind]
    rw [mbind_ok hx]
    cases x <;> rfl
  rcases hx : D.exec d q ps with ⟨d', o⟩
  rw [hx] at h4
  cases o with
  | refused md =>
    obtain ⟨b', l, h5, h6⟩ := h4
    refine ⟨b', l, h5, ?_⟩
    rw [key _ _ h6]
    simp [World.net, w1]
  | answer hd rs en =>
    have h6 : stmtQueryPipeline D.peer close w.stmts.length params w1 = _ := h4
    show queryPipeline D.peer close queries params w = _
    rw [key _ _ h6]
    simp [World.net, w1, World.setRow, modify_append_last]

/-! ### Draining -/

/-- The messages still to come for the later queries. -/
def replies : List Outcome → Nat → List Val
  | [], n => List.replicate (2 * n) .ignored
  | .refused md :: _, n => .failure md :: List.replicate (2 * n - 1) .ignored
  | .answer h rs (.broken md) :: _, n => .success h :: (rs.map .record ++ .failure md :: List.replicate (2 * (n - 1)) .ignored)
  | .answer h rs (.summary md) :: os, n => .success h :: (rs.map .record ++ .success md :: replies os (n - 1))

/-- `n` later queries with these outcomes, up to the first that fails. -/
def MoreOk : List Outcome → Nat → Prop
  | [], n => n = 0
  | .refused _ :: os, n => os = [] ∧ 0 < n
  | .answer _ _ (.broken _) :: os, n => os = [] ∧ 0 < n
  | .answer _ _ (.summary _) :: os, n => 0 < n ∧ MoreOk os (n - 1)

/-- The same after a query that ended with `e`. -/
def AfterOk : Ending → List Outcome → Nat → Prop
  | .broken _, more, _ => more = []
  | .summary _, more, n => MoreOk more n

/-- The mode of the server behind it. -/
def restMode (e : Ending) (more : List Outcome) : Mode :=
  match restFails e more with
  | none => .ready
  | some _ => .failed

theorem pipeline_replies (rest : List (Str × PSs)) : ∀ d : δ,
    D.pipeline d .ready rest = ((D.runAll d rest).1, restMode (.summary []) (D.runAll d rest).2, replies (D.runAll d rest).2 rest.length) ∧
    MoreOk (D.runAll d rest).2 rest.length := by
  induction rest with
  | nil => intro d; exact ⟨rfl, rfl⟩
  | cons x rest ih =>
    intro d
    obtain ⟨q, ps⟩ := x
    rcases hx : D.exec d q ps with ⟨d', o⟩
    have e2 : 2 * (rest.length + 1) - 1 = 2 * rest.length + 1 := by omega
    cases o with
    | refused md =>
      refine ⟨?_, ?_⟩
      · simp only [DB.pipeline, handle2_ready, hx, Outcome.pulled, pipeline_failed, DB.runAll, Outcome.succeeds]
        simp [replies, restMode, restFails, Outcome.failure?, e2, List.replicate_succ]
      · simp [DB.runAll, hx, Outcome.succeeds, MoreOk]
    | answer hd rs e =>
      cases e with
      | broken md =>
        refine ⟨?_, ?_⟩
        · simp only [DB.pipeline, handle2_ready, hx, Outcome.pulled, pipeline_failed, DB.runAll, Outcome.succeeds, Ending.reply]
          simp [replies, restMode, restFails, Outcome.failure?]
        · simp [DB.runAll, hx, Outcome.succeeds, MoreOk]
      | summary md =>
        obtain ⟨h1, h2⟩ := ih d'
        refine ⟨?_, ?_⟩
        · simp only [DB.pipeline, handle2_ready, hx, Outcome.pulled, DB.runAll, Outcome.succeeds, Ending.reply, h1]
          simp [replies, restMode, restFails, Outcome.failure?, List.findSome?]
        · simp [DB.runAll, hx, Outcome.succeeds, MoreOk, h2]

theorem pipeline_after (d : δ) (e : Ending) (rest : List (Str × PSs)) :
    D.pipeline d e.reply.1 rest = ((D.after d e rest).1, restMode e (D.after d e rest).2, replies (D.after d e rest).2 rest.length) ∧
    AfterOk e (D.after d e rest).2 rest.length := by
  cases e with
  | broken md =>
    simp only [Ending.reply, pipeline_failed]
    exact ⟨rfl, rfl⟩
  | summary md => exact pipeline_replies D rest d

/-- The messages for queries that all succeed, as groups. -/
theorem replies_groups (os : List Outcome) : ∀ n, MoreOk os n → os.findSome? Outcome.failure? = none →
    ∃ gs : List (List Val × KVs), (∀ g ∈ gs, ∀ v ∈ g.1, Item.isPlain (.val v) = true) ∧ gs.length = 2 * n ∧
      (replies os n).map .val = (gs.map group).flatten := by
  induction os with
  | nil => intro n h _; simp only [MoreOk] at h; subst h; exact ⟨[], by simp, rfl, rfl⟩
  | cons o os ih =>
    intro n h hf
    cases o with
    | refused md => simp [Outcome.failure?] at hf
    | answer hd rs e =>
      cases e with
      | broken md => simp [Outcome.failure?] at hf
      | summary md =>
        simp only [MoreOk] at h
        simp only [List.findSome?, Outcome.failure?] at hf
        obtain ⟨gs, h1, h2, h3⟩ := ih (n - 1) h.2 hf
        refine ⟨([], hd) :: (rs.map .record, md) :: gs, ?_, ?_, ?_⟩
        · intro g hg
          simp only [List.mem_cons] at hg
          rcases hg with rfl | rfl | hg
          · simp
          · exact plain_records rs
          · exact h1 g hg
        · simp [h2]; omega
        · simp [replies, group, h3]

/-- The messages for queries one of which fails. -/
theorem replies_groups_failure (os : List Outcome) (md : KVs) : ∀ n, MoreOk os n → os.findSome? Outcome.failure? = some md →
    ∃ (gs : List (List Val × KVs)) (vs : List Val) (i k : Nat), (∀ g ∈ gs, ∀ v ∈ g.1, Item.isPlain (.val v) = true) ∧
      (∀ v ∈ vs, Item.isPlain (.val v) = true) ∧ gs.length + (k + 1) = 2 * n ∧
      (replies os n).map .val =
        (gs.map group).flatten ++ (vs.map .val ++ .val (.failure md) :: List.replicate i (.val .ignored)) := by
  induction os with
  | nil => intro n _ hf; simp at hf
  | cons o os ih =>
    intro n h hf
    cases o with
    | refused md' =>
      simp only [MoreOk] at h
      obtain rfl : md' = md := by simpa [Outcome.failure?, List.findSome?] using hf
      refine ⟨[], [], 2 * n - 1, 2 * n - 1, by simp, by simp, by simp; omega, ?_⟩
      simp [replies]
    | answer hd rs e =>
      cases e with
      | broken md' =>
        simp only [MoreOk] at h
        obtain rfl : md' = md := by simpa [Outcome.failure?, List.findSome?] using hf
        refine ⟨[([], hd)], rs.map .record, 2 * (n - 1), 2 * n - 2, by simp, plain_records rs, by simp; omega, ?_⟩
        simp [replies, group]
      | summary md' =>
        simp only [MoreOk] at h
        simp only [List.findSome?, Outcome.failure?] at hf
        obtain ⟨gs, vs, i, k, h0, h1, h2, h3⟩ := ih (n - 1) h.2 hf
        refine ⟨([], hd) :: (rs.map .record, md') :: gs, vs, i, k, ?_, h1, ?_, ?_⟩
        · intro g hg
          simp only [List.mem_cons] at hg
          rcases hg with rfl | rfl | hg
          · simp
          · exact plain_records rs
          · exact h0 g hg
        · simp; omega
        · simp [replies, group, h3]

/-- The messages of a reader's rest. -/
def restItems (rs : List (List Val)) (e : Ending) (more : List Outcome) (n : Nat) : List Item :=
  (rs.map Val.record ++ e.reply.2 ++ replies more n).map Item.val

/-- Draining the rows of a query and of the later queries of its pipeline. -/
theorem drain_rest (close : M (Srv δ) (Option GoErr)) {w : World (Srv δ)} {d : δ} {rs : List (List Val)} {e : Ending}
    {more : List Outcome} {n : Nat} (hm : AfterOk e more n) (h : Live w d (restMode e more))
    (hi : w.inbox = restItems rs e more n) :
    ∃ b l, CarriesAll (if (restFails e more).isSome then [.ackFailure] else []) b ∧
      consumeAllMultiple D.peer close (2 * n + 1) w = .ok ((restFails e more).map queryErr)
        (w.net ⟨w.sink.out ++ b, none⟩ ⟨d, .ready, []⟩ [] (w.log ++ l)) := by
  unfold restItems at hi
  cases e with
  | broken md =>
    simp only [AfterOk] at hm
    subst hm
    simp only [restMode, restFails] at h
    obtain ⟨b, l, h1, h2⟩ := consumeAllMultiple_failure D close [] (by simp) (rs.map .record) (plain_records rs) md
      (2 * n) (2 * n) d w h (by rw [hi]; simp [Ending.reply, replies])
    refine ⟨b, l, carriesAll_one h1, ?_⟩
    simp only [List.length_nil, Nat.zero_add] at h2
    exact h2
  | summary md =>
    simp only [AfterOk] at hm
    cases hf : more.findSome? Outcome.failure? with
    | none =>
      simp only [restMode, restFails, hf] at h ⊢
      obtain ⟨gs, h1, h2, h3⟩ := replies_groups more n hm hf
      obtain ⟨l, h6⟩ := consumeAllMultiple_ok D.peer close ((rs.map .record, md) :: gs) [] (by
        intro g hg
        simp only [List.mem_cons] at hg
        rcases hg with rfl | hg
        · exact plain_records rs
        · exact h1 g hg) w (by rw [hi, List.map_append, h3]; simp [group, Ending.reply])
      refine ⟨[], l, rfl, ?_⟩
      rw [List.length_cons, h2] at h6
      rw [h6]
      simp only [Option.map_none, List.append_nil, h.srv]
      rw [← h.budget]
    | some md' =>
      simp only [restMode, restFails, hf] at h ⊢
      obtain ⟨gs, vs, i, k, h0, h1, h2, h3⟩ := replies_groups_failure more md' n hm hf
      obtain ⟨b, l, h6, h7⟩ := consumeAllMultiple_failure D close ((rs.map .record, md) :: gs) (by
        intro g hg
        simp only [List.mem_cons] at hg
        rcases hg with rfl | hg
        · exact plain_records rs
        · exact h0 g hg) vs h1 md' i k _ w h (by rw [hi, List.map_append, h3]; simp [group, Ending.reply])
      refine ⟨b, l, carriesAll_one h6, ?_⟩
      rw [show (((rs.map Val.record, md) :: gs).length + (k + 1)) = 2 * n + 1 by simp; omega] at h7
      exact h7

end Bolt
