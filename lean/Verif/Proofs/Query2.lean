import Verif.Proofs.Query

/-! Direct queries, prepared queries and transactions on a session in step. -/

namespace Bolt
open PackStream

variable {δ : Type} (D : DB δ)

/-- A refused direct query. -/
theorem queryNeo_ok (close : M (Srv δ) (Option GoErr)) {w : World (Srv δ)} {d : δ} (h : Live w d .ready)
    (hi : w.inbox = []) (ho : w.statement = none) {q : Str} {kvs : KVs} (hs : Sendable w.chunkSize (.run q kvs)) :
    ∃ ps, MeansKVs kvs ps ∧
      match D.exec d q ps with
      | (d', .refused md) => ∃ b l, CarriesAll [.run q kvs, .pullAll, .ackFailure] b ∧
          queryNeo D.peer close q kvs w = .ok (.error (queryErr md))
            { w.net ⟨w.sink.out ++ b, none⟩ ⟨d', .ready, []⟩ [] (w.log ++ l) with
              stmts := w.stmts ++ [{ query := q, queries := [], conn := false, closed := true, rows := none }] }
      | (d', .answer hd rs e) => ∃ b l, CarriesAll [.run q kvs, .pullAll] b ∧
          queryNeo D.peer close q kvs w = .ok (.ok w.rows.length)
            { w.net ⟨w.sink.out ++ b, none⟩ ⟨d', e.reply.1, []⟩ ((rs.map Val.record ++ e.reply.2).map Item.val) (w.log ++ l) with
              stmts := w.stmts ++ [{ query := q, queries := [], conn := true, closed := false, rows := some w.rows.length }]
              rows := w.rows ++ [directRow hd w.stmts.length]
              statement := some w.stmts.length } := by
  let st : Stmt := { query := q, queries := [], conn := true, closed := false, rows := none }
  let w1 : World (Srv δ) := { w with stmts := w.stmts ++ [st], statement := some w.stmts.length }
  have hl : Live w1 d .ready := ⟨h.closed, h.srv, h.budget, h.cs⟩
  have hi1 : w1.inbox = [] := hi
  obtain ⟨ps, b, h1, h2, h3⟩ := sendRunPullAll_ok D hl (q := q) (kvs := kvs) hs
  refine ⟨ps, h1, ?_⟩
  rw [handle2_ready] at h3
  have hg : guardConn w = .ok none w := by simp [guardConn, ho, h.closed]
  have hq : ∀ x w', sendRunPullAllConsumeRun D.peer close q kvs w1 = .ok x w' →
      queryNeo D.peer close q kvs w = (match x with
        | (_, some e) => do
          let _ ← queryNeo.stmtCloseCurrent D.peer close
          M.pure (Except.error e)
        | (.success md, none) => do
          let r ← newRowsObj (directRow md w.stmts.length)
          M.modify fun w0 => w0.setStmt w.stmts.length fun x => { x with rows := some r }
          M.pure (Except.ok r)
        | (_, none) => do
          let _ ← queryNeo.stmtCloseCurrent D.peer close
          M.pure (Except.error (.new "Unexpected response querying neo from connection: %#v")) : M (Srv δ) (Except GoErr Nat)) w' := by
    intro x w' hx
    unfold queryNeo
    rw [mbind_ok hg]
    simp only []
    rw [mbind_ok (show newStmt q [] w = .ok w.stmts.length { w with stmts := w.stmts ++ [st] } from rfl)]
    simp only [modify_bind]
    rw [mbind_ok hx]
    rfl
  rcases hx : D.exec d q ps with ⟨d', o⟩
  rw [hx] at h3
  cases o with
  | refused md =>
    simp only [Outcome.pulled, List.map_cons, List.map_nil, hi1, List.nil_append] at h3
    obtain ⟨b', l, h4, h5⟩ := (hl.net (d' := d') (m' := .failed) (w.sink.out ++ b) [.val (.failure md), .val .ignored]
      (w.log ++ [.send (.run q kvs) none, .send .pullAll none])).consume_failure D close (md := md) (n := 1) rfl
    have h6 : sendRunPullAllConsumeRun D.peer close q kvs w1 = .ok (.failure md, some (queryErr md))
        (w1.net ⟨w.sink.out ++ (b ++ b'), none⟩ ⟨d', .ready, []⟩ []
          (w.log ++ ([.send (.run q kvs) none, .send .pullAll none] ++ l))) := by
      unfold sendRunPullAllConsumeRun
      rw [mbind_ok h3]
      simp only []
      rw [h5]
      simp [queryErr]
    refine ⟨b ++ b', [.send (.run q kvs) none, .send .pullAll none] ++ l, carriesAll_append h2 (carriesAll_one h4), ?_⟩
    rw [hq _ _ h6]
    have e : (w1.net ⟨w.sink.out ++ (b ++ b'), none⟩ ⟨d', .ready, []⟩ []
          (w.log ++ ([.send (.run q kvs) none, .send .pullAll none] ++ l))).stmt w.stmts.length = st := stmt_append w st
    have h7 : queryNeo.stmtCloseCurrent D.peer close (w1.net ⟨w.sink.out ++ (b ++ b'), none⟩ ⟨d', .ready, []⟩ []
          (w.log ++ ([.send (.run q kvs) none, .send .pullAll none] ++ l))) = .ok none
        ((w1.net ⟨w.sink.out ++ (b ++ b'), none⟩ ⟨d', .ready, []⟩ []
          (w.log ++ ([.send (.run q kvs) none, .send .pullAll none] ++ l))).stmtDone w.stmts.length) := by
      unfold queryNeo.stmtCloseCurrent
      simp only [get_bind, net_statement, w1]
      exact stmtClose_norows _ close (by rw [e]) (by rw [e]) (by rw [e])
    simp only []
    rw [mbind_ok h7]
    simp [World.stmtDone, World.setStmt, World.net, w1, st, modify_append_last, ho]
  | answer hd rs en =>
    simp only [Outcome.pulled, List.map_cons, hi1, List.nil_append] at h3
    have h6 : sendRunPullAllConsumeRun D.peer close q kvs w1 = .ok (.success hd, none)
        (w1.net ⟨w.sink.out ++ b, none⟩ ⟨d', en.reply.1, []⟩ ((rs.map Val.record ++ en.reply.2).map Item.val)
          (w.log ++ ([.send (.run q kvs) none, .send .pullAll none] ++ [.recv (.val (.success hd))]))) := by
      unfold sendRunPullAllConsumeRun
      rw [mbind_ok h3]
      simp only []
      rw [consume_val _ close (v := .success hd) rfl (by simp)]
      simp [w1]
    refine ⟨b, [.send (.run q kvs) none, .send .pullAll none] ++ [.recv (.val (.success hd))], h2, ?_⟩
    rw [hq _ _ h6]
    simp [newRowsObj, mbind_run, World.setStmt, World.net, w1, st, modify_append_last]

/-- A query of a prepared statement. -/
theorem stmtQueryNeo_ok (close : M (Srv δ) (Option GoErr)) {w : World (Srv δ)} {d : δ} (h : Live w d .ready)
    (hi : w.inbox = []) {s : Nat} (h1 : (w.stmt s).closed = false) (h2 : (w.stmt s).conn = true)
    (h3 : (w.stmt s).rows = none) {kvs : KVs} (hs : Sendable w.chunkSize (.run (w.stmt s).query kvs)) :
    ∃ ps, MeansKVs kvs ps ∧
      match D.exec d (w.stmt s).query ps with
      | (d', .refused md) => ∃ b l, CarriesAll [.run (w.stmt s).query kvs, .ackFailure] b ∧
          stmtQueryNeo D.peer close s kvs w = .ok (.error (queryErr md))
            (w.net ⟨w.sink.out ++ b, none⟩ ⟨d', .ready, []⟩ [] (w.log ++ l))
      | (d', .answer hd rs e) => ∃ b l, CarriesAll [.run (w.stmt s).query kvs] b ∧
          stmtQueryNeo D.peer close s kvs w = .ok (.ok w.rows.length)
            { w.net ⟨w.sink.out ++ b, none⟩ ⟨d', .streaming rs e, []⟩ [] (w.log ++ l) with
              stmts := w.stmts.modify s fun x => { x with rows := some w.rows.length }
              rows := w.rows ++ [stmtRow hd s] } := by
  obtain ⟨ps, b, h4, h5, h6⟩ := sendRun_ok D h hs
  refine ⟨ps, h4, ?_⟩
  have hg : guardStmt s w = .ok none w := by simp [guardStmt, h1, h3]
  have hc := withConn_ok (k := sendRunConsume D.peer close (w.stmt s).query kvs) h2
  rcases hx : D.exec d (w.stmt s).query ps with ⟨d', o⟩
  cases o with
  | refused md =>
    simp only [DB.handle, hx, hi, List.nil_append, List.map_cons, List.map_nil] at h6
    obtain ⟨b', l, h7, h8⟩ := (h.net (d' := d') (m' := .failed) (w.sink.out ++ b) [.val (.failure md)]
      (w.log ++ [.send (.run (w.stmt s).query kvs) none])).consume_failure D close (md := md) (n := 0) rfl
    refine ⟨b ++ b', .send (.run (w.stmt s).query kvs) none :: l, carriesAll_two h5 h7, ?_⟩
    have h9 : sendRunConsume D.peer close (w.stmt s).query kvs w = .ok (.failure md, some (queryErr md))
        (w.net ⟨w.sink.out ++ (b ++ b'), none⟩ ⟨d', .ready, []⟩ [] (w.log ++ .send (.run (w.stmt s).query kvs) none :: l)) := by
      unfold sendRunConsume
      rw [mbind_ok h6]
      simp only []
      rw [h8]
      simp [queryErr]
    unfold stmtQueryNeo
    rw [mbind_ok hg]
    simp only [get_bind]
    rw [mbind_ok (hc.trans h9)]
    rfl
  | answer hd rs en =>
    simp only [DB.handle, hx, hi, List.nil_append, List.map_cons, List.map_nil] at h6
    refine ⟨b, [.send (.run (w.stmt s).query kvs) none, .recv (.val (.success hd))], carriesAll_one h5, ?_⟩
    have h9 : sendRunConsume D.peer close (w.stmt s).query kvs w = .ok (.success hd, none)
        (w.net ⟨w.sink.out ++ b, none⟩ ⟨d', .streaming rs en, []⟩ []
          (w.log ++ [.send (.run (w.stmt s).query kvs) none, .recv (.val (.success hd))])) := by
      unfold sendRunConsume
      rw [mbind_ok h6]
      simp only []
      rw [consume_val _ close (v := .success hd) rfl (by simp)]
      simp
    unfold stmtQueryNeo
    rw [mbind_ok hg]
    simp only [get_bind]
    rw [mbind_ok (hc.trans h9)]
    rfl

/-- A command that returns no records: what BEGIN, COMMIT and ROLLBACK do. -/
def Outcome.quiet : Outcome → Prop
  | .refused _ => True
  | .answer _ rs _ => rs = []

/-- RUN and PULL_ALL of a quiet command. -/
theorem runSingle_ok (close : M (Srv δ) (Option GoErr)) {w : World (Srv δ)} {d : δ} (h : Live w d .ready)
    (hi : w.inbox = []) {q : Str} (hq : q.length ≤ 60000) (hquiet : (D.exec d q []).2.quiet) :
    ∃ b l, CarriesAll ((D.exec d q []).2.execSends q []) b ∧
      ∃ run pull err, sendRunPullAllConsumeSingle D.peer close q [] w = .ok (run, pull, err)
        (w.net ⟨w.sink.out ++ b, none⟩ ⟨(D.exec d q []).1, .ready, []⟩ [] (w.log ++ l)) ∧
        match (D.exec d q []).2 with
        | .refused md => err = some (queryErr md)
        | .answer _ _ (.broken md) => err = some (queryErr md)
        | .answer h _ (.summary md) => run = .success h ∧ pull = .success md ∧ err = none := by
  obtain ⟨ps, b, h1, h2, h3⟩ := sendRunPullAll_ok D h (q := q) (kvs := []) (tiny_sendable h.cs.1 h.cs.2 (tiny_run hq))
  simp only [MeansKVs] at h1
  subst h1
  rw [handle2_ready] at h3
  simp only [hi, List.nil_append] at h3
  rcases hx : D.exec d q [] with ⟨d', o⟩
  rw [hx] at h3 hquiet
  cases o with
  | refused md =>
    simp only [Outcome.pulled, List.map_cons, List.map_nil] at h3
    have hl := h.net (d' := d') (m' := .failed) (w.sink.out ++ b) [.val (.failure md), .val .ignored]
      (w.log ++ [.send (.run q []) none, .send .pullAll none])
    obtain ⟨b', l, h4, h5⟩ := hl.consume_failure D close (md := md) (n := 1) rfl
    refine ⟨b ++ b', [.send (.run q []) none, .send .pullAll none] ++ l, carriesAll_append h2 (carriesAll_one h4),
      .failure md, .nil, some (queryErr md), ?_, rfl⟩
    unfold sendRunPullAllConsumeSingle
    rw [mbind_ok h3]
    simp only []
    rw [mbind_ok h5]
    simp [queryErr]
  | answer hd rs e =>
    simp only [Outcome.quiet] at hquiet
    subst hquiet
    cases e with
    | summary md =>
      simp only [Outcome.pulled, List.map_cons, List.map_append, List.map_nil, Ending.reply, List.nil_append] at h3
      refine ⟨b, [.send (.run q []) none, .send .pullAll none, .recv (.val (.success hd)), .recv (.val (.success md))], h2,
        .success hd, .success md, none, ?_, rfl, rfl, rfl⟩
      unfold sendRunPullAllConsumeSingle
      rw [mbind_ok h3]
      simp only []
      rw [mbind_ok (consume_val _ close (v := .success hd) rfl (by simp))]
      simp only []
      rw [mbind_ok (consume_val _ close (v := .success md) rfl (by simp))]
      simp
    | broken md =>
      simp only [Outcome.pulled, List.map_cons, List.map_append, List.map_nil, Ending.reply, List.nil_append] at h3
      have hl := h.net (d' := d') (m' := .failed) (w.sink.out ++ b) [Item.val (.failure md)]
        (w.log ++ [.send (.run q []) none, .send .pullAll none] ++ [.recv (.val (.success hd))])
      obtain ⟨b', l, h4, h5⟩ := hl.consume_failure D close (md := md) (n := 0) rfl
      refine ⟨b ++ b', [.send (.run q []) none, .send .pullAll none] ++ [.recv (.val (.success hd))] ++ l,
        carriesAll_append h2 (carriesAll_one h4), .success hd, .failure md, some (queryErr md), ?_, rfl⟩
      unfold sendRunPullAllConsumeSingle
      rw [mbind_ok h3]
      simp only []
      rw [mbind_ok (consume_val _ close (v := .success hd) rfl (by simp))]
      simp only [net_log, net_net, net_sink, net_srv]
      rw [mbind_ok h5]
      simp [queryErr]

end Bolt
