import Verif.Proofs.Run

/-! The calls of the API on a session in step. -/

namespace Bolt
open PackStream

variable {δ : Type} (D : DB δ)

/-- Replies to RUN followed by PULL_ALL in mode ready. -/
def Outcome.pulled : Outcome → Mode × List Val
  | .refused md => (.failed, [.failure md, .ignored])
  | .answer h rs e => (e.reply.1, .success h :: (rs.map .record ++ e.reply.2))

/-- The error `consume` returns for a FAILURE. -/
def queryErr (md : KVs) : GoErr := .wrap "Neo4J reported a failure for the query" (some (.failure md))

theorem carriesAll_two {a b : Val} {x y : Bytes} (h1 : Carries a x) (h2 : Carries b y) : CarriesAll [a, b] (x ++ y) :=
  ⟨x, y, h1, ⟨y, [], h2, rfl, by simp⟩, rfl⟩

theorem carriesAll_one {a : Val} {x : Bytes} (h1 : Carries a x) : CarriesAll [a] x :=
  ⟨x, [], h1, rfl, by simp⟩

theorem carriesAll_append {vs us : List Val} {x y : Bytes} (h1 : CarriesAll vs x) (h2 : CarriesAll us y) :
    CarriesAll (vs ++ us) (x ++ y) := by
  induction vs generalizing x with
  | nil => simp only [CarriesAll] at h1; subst h1; simpa using h2
  | cons v vs ih =>
    obtain ⟨b, bs, h3, h4, rfl⟩ := h1
    exact ⟨b, bs ++ y, h3, ih h4, by simp⟩

theorem sendRun_ok {w : World (Srv δ)} {d : δ} {m : Mode} (h : Live w d m) {q : Str} {kvs : KVs}
    (hs : Sendable w.chunkSize (.run q kvs)) :
    ∃ ps b, MeansKVs kvs ps ∧ Carries (.run q kvs) b ∧
      sendRun D.peer q kvs w = .ok none (w.net ⟨w.sink.out ++ b, none⟩
        ⟨(D.handle d m (.run q ps)).1, (D.handle d m (.run q ps)).2.1, []⟩
        (w.inbox ++ (D.handle d m (.run q ps)).2.2.map .val)
        (w.log ++ [.send (.run q kvs) none])) := by
  obtain ⟨q', b, h1, h2, h3⟩ := h.send D hs
  obtain ⟨ps, h4, h5⟩ := req_run h1
  refine ⟨ps, b, h4, h2, ?_⟩
  unfold sendRun
  rw [mbind_ok h3, h5]
  rfl

theorem sendPullAll_ok {w : World (Srv δ)} {d : δ} {m : Mode} (h : Live w d m) :
    ∃ b, Carries .pullAll b ∧
      sendPullAll D.peer w = .ok none (w.net ⟨w.sink.out ++ b, none⟩
        ⟨(D.handle d m .pullAll).1, (D.handle d m .pullAll).2.1, []⟩
        (w.inbox ++ (D.handle d m .pullAll).2.2.map .val)
        (w.log ++ [.send .pullAll none])) := by
  obtain ⟨q', b, h1, h2, h3⟩ := h.send D (tiny_sendable h.cs.1 h.cs.2 tiny_pullAll)
  refine ⟨b, h2, ?_⟩
  unfold sendPullAll
  rw [mbind_ok h3, req_pullAll h1]
  rfl

theorem sendDiscardAll_ok {w : World (Srv δ)} {d : δ} {m : Mode} (h : Live w d m) :
    ∃ b, Carries .discardAll b ∧
      sendDiscardAll D.peer w = .ok none (w.net ⟨w.sink.out ++ b, none⟩
        ⟨(D.handle d m .discardAll).1, (D.handle d m .discardAll).2.1, []⟩
        (w.inbox ++ (D.handle d m .discardAll).2.2.map .val)
        (w.log ++ [.send .discardAll none])) := by
  obtain ⟨q', b, h1, h2, h3⟩ := h.send D (tiny_sendable h.cs.1 h.cs.2 tiny_discardAll)
  refine ⟨b, h2, ?_⟩
  unfold sendDiscardAll
  rw [mbind_ok h3, req_discardAll h1]
  rfl

/-- Two requests in a row. -/
def DB.handle2 (D : DB δ) (d : δ) (m : Mode) (a b : Req) : δ × Mode × List Val :=
  let x := D.handle d m a
  let y := D.handle x.1 x.2.1 b
  (y.1, y.2.1, x.2.2 ++ y.2.2)

theorem handle2_ready (d : δ) (q : Str) (ps : List (Str × PS)) :
    D.handle2 d .ready (.run q ps) .pullAll =
      ((D.exec d q ps).1, (D.exec d q ps).2.pulled.1, (D.exec d q ps).2.pulled.2) := by
  unfold DB.handle2
  simp only [DB.handle]
  rcases D.exec d q ps with ⟨d', o⟩
  cases o with
  | refused md => simp [DB.handle, Outcome.pulled]
  | answer h rs e => simp [DB.handle, Outcome.pulled]

theorem handle2_failed (d : δ) (q : Str) (ps : List (Str × PS)) :
    D.handle2 d .failed (.run q ps) .pullAll = (d, .failed, [.ignored, .ignored]) := rfl

theorem sendRunPullAll_ok {w : World (Srv δ)} {d : δ} {m : Mode} (h : Live w d m) {q : Str} {kvs : KVs}
    (hs : Sendable w.chunkSize (.run q kvs)) :
    ∃ ps b, MeansKVs kvs ps ∧ CarriesAll [.run q kvs, .pullAll] b ∧
      sendRunPullAll D.peer q kvs w = .ok none (w.net ⟨w.sink.out ++ b, none⟩
        ⟨(D.handle2 d m (.run q ps) .pullAll).1, (D.handle2 d m (.run q ps) .pullAll).2.1, []⟩
        (w.inbox ++ (D.handle2 d m (.run q ps) .pullAll).2.2.map .val)
        (w.log ++ [.send (.run q kvs) none, .send .pullAll none])) := by
  obtain ⟨ps, b, h1, h2, h3⟩ := sendRun_ok D h hs
  obtain ⟨b', h4, h5⟩ := sendPullAll_ok D (h.net (d' := (D.handle d m (.run q ps)).1) (m' := (D.handle d m (.run q ps)).2.1)
    (w.sink.out ++ b) (w.inbox ++ (D.handle d m (.run q ps)).2.2.map .val) (w.log ++ [.send (.run q kvs) none]))
  refine ⟨ps, b ++ b', h1, carriesAll_two h2 h4, ?_⟩
  unfold sendRunPullAll
  rw [mbind_ok h3]
  simp only []
  rw [h5]
  simp [DB.handle2]

/-! ## Statements -/

section
variable {σ α : Type}

theorem withConn_ok {w : World σ} {s : Nat} {k : M σ α} (h : (w.stmt s).conn = true) : withConn s k w = k w := by
  unfold withConn; simp [h]

theorem modify_append_last {α : Type} (l : List α) (x : α) (f : α → α) :
    (l ++ [x]).modify l.length f = l ++ [f x] := by
  induction l with
  | nil => rfl
  | cons a l ih => simpa using ih

theorem stmt_append (w : World σ) (x : Stmt) :
    ({ w with stmts := w.stmts ++ [x] } : World σ).stmt w.stmts.length = x := by
  simp [World.stmt]

end

/-- Error results carry the server's failure. -/
def FailsWith {α : Type} (md : KVs) (r : Except GoErr α) : Prop := ∃ e, r = .error e ∧ e.innerMost = .failure md

/-- What executing a query for its summary has to return. -/
def Outcome.execResult : Outcome → Except GoErr KVs → Prop
  | .refused md, r => FailsWith md r
  | .answer _ _ (.broken md), r => FailsWith md r
  | .answer _ _ (.summary md), r => r = .ok md

/-- The messages the driver sends for it. -/
def Outcome.execSends (q : Str) (kvs : KVs) : Outcome → List Val
  | .answer _ _ (.summary _) => [.run q kvs, .pullAll]
  | _ => [.run q kvs, .pullAll, .ackFailure]

theorem plain_records (rs : List (List Val)) : ∀ v ∈ rs.map Val.record, Item.isPlain (.val v) = true := by
  intro v hv
  obtain ⟨r, _, rfl⟩ := List.mem_map.mp hv
  rfl

/-- `sendRunPullAllConsumeAll` on a session in step. -/
theorem runConsumeAll_ok (close : M (Srv δ) (Option GoErr)) {w : World (Srv δ)} {d : δ} (h : Live w d .ready)
    (hi : w.inbox = []) {q : Str} {kvs : KVs} (hs : Sendable w.chunkSize (.run q kvs)) :
    ∃ ps b l, MeansKVs kvs ps ∧ CarriesAll ((D.exec d q ps).2.execSends q kvs) b ∧
      ∃ run pull err, sendRunPullAllConsumeAll D.peer close q kvs w = .ok (run, pull, err)
        (w.net ⟨w.sink.out ++ b, none⟩ ⟨(D.exec d q ps).1, .ready, []⟩ []
          (w.log ++ [.send (.run q kvs) none, .send .pullAll none] ++ l)) ∧
        match (D.exec d q ps).2 with
        | .refused md => ∃ e, err = some e ∧ e.innerMost = .failure md
        | .answer _ _ (.broken md) => ∃ e, err = some e ∧ e.innerMost = .failure md
        | .answer h _ (.summary md) => run = .success h ∧ pull = .success md ∧ err = none := by
  obtain ⟨ps, b, h1, h2, h3⟩ := sendRunPullAll_ok D h hs
  rw [handle2_ready] at h3
  simp only [hi, List.nil_append] at h3
  rcases hx : D.exec d q ps with ⟨d', o⟩
  rw [hx] at h3
  cases o with
  | refused md =>
    simp only [Outcome.pulled, List.map_cons, List.map_nil] at h3
    have hl := h.net (d' := d') (m' := .failed) (w.sink.out ++ b) [.val (.failure md), .val .ignored]
      (w.log ++ [.send (.run q kvs) none, .send .pullAll none])
    obtain ⟨b', l, h4, h5⟩ := hl.consume_failure D close (md := md) (n := 1) rfl
    refine ⟨ps, b ++ b', l, h1, ?_, .failure md, .nil, some (queryErr md), ?_, ?_⟩
    · rw [hx]; exact carriesAll_append h2 (carriesAll_one h4)
    · unfold sendRunPullAllConsumeAll
      rw [mbind_ok h3]
      simp only []
      rw [mbind_ok h5]
      simp [hx, queryErr]
    · rw [hx]; exact ⟨_, rfl, rfl⟩
  | answer hd rs e =>
    cases e with
    | summary md =>
      simp only [Outcome.pulled, List.map_cons, List.map_append, List.map_nil, Ending.reply] at h3
      refine ⟨ps, b, ?_, h1, ?_, ?_⟩
      · exact [.recv (.val (.success hd))] ++ (rs.map Val.record).map (fun v => .recv (.val v)) ++ [.recv (.val (.success md))]
      · rw [hx]; exact h2
      refine ⟨.success hd, .success md, none, ?_, by rw [hx]; exact ⟨rfl, rfl, rfl⟩⟩
      unfold sendRunPullAllConsumeAll
      rw [mbind_ok h3]
      simp only []
      rw [mbind_ok (consume_val _ close (v := .success hd) rfl (by simp))]
      simp only []
      rw [mbind_ok (consumeAll_success _ close (vs := rs.map .record) (md := md) (t := []) rfl (plain_records rs))]
      simp [hx]
    | broken md =>
      simp only [Outcome.pulled, List.map_cons, List.map_append, List.map_nil, Ending.reply] at h3
      have hl := h.net (d' := d') (m' := .failed) (w.sink.out ++ b) ((rs.map Val.record).map Item.val ++ [Item.val (.failure md)])
        (w.log ++ [.send (.run q kvs) none, .send .pullAll none] ++ [.recv (.val (.success hd))])
      obtain ⟨b', l, h4, h5⟩ := hl.consumeAll_failure D close (vs := rs.map .record) (md := md) (n := 0) rfl (plain_records rs)
      refine ⟨ps, b ++ b', .recv (.val (.success hd)) :: l, h1, ?_, .success hd, .failure md,
        some (queryErr md), ?_, ?_⟩
      · rw [hx]; exact carriesAll_append h2 (carriesAll_one h4)
      · unfold sendRunPullAllConsumeAll
        rw [mbind_ok h3]
        simp only []
        rw [mbind_ok (consume_val _ close (v := .success hd) rfl (by simp))]
        simp only [net_log, net_net, net_sink, net_srv]
        rw [mbind_ok h5]
        simp [queryErr, hx]
      · rw [hx]; exact ⟨_, rfl, rfl⟩

/-! ## Closing -/

section
variable {σ : Type}

/-- `rowsMark` as a function. -/
def World.rowsDone (w : World σ) (r : Nat) : World σ :=
  (w.setRow r fun x => { x with closed := true }).setStmt (w.row r).stmt fun s => { s with rows := none }

/-- `stmtMark` as a function. -/
def World.stmtDone (w : World σ) (s : Nat) : World σ :=
  ({ w with statement := none } : World σ).setStmt s fun x => { x with closed := true, conn := false }

theorem rowsMark_run (w : World σ) (r : Nat) : rowsMark r w = .ok () (w.rowsDone r) := rfl

theorem stmtMark_run {w : World σ} {s : Nat} (h : (w.stmt s).conn = true) : stmtMark s w = .ok () (w.stmtDone s) := by
  unfold stmtMark; rw [if_pos h]; rfl

theorem stmtClose_closed (P : Peer σ) (close : M σ (Option GoErr)) {w : World σ} {s : Nat} (h : (w.stmt s).closed = true) :
    stmtClose P close s w = .ok none w := by
  unfold stmtClose; simp [h]

theorem rowsClose_closed (P : Peer σ) (close : M σ (Option GoErr)) {w : World σ} {r : Nat} (h : (w.row r).closed = true) :
    rowsClose P close r w = .ok none w := by
  unfold rowsClose; simp [h]

theorem stmtClose_norows (P : Peer σ) (close : M σ (Option GoErr)) {w : World σ} {s : Nat}
    (h : (w.stmt s).closed = false) (hc : (w.stmt s).conn = true) (hr : (w.stmt s).rows = none) :
    stmtClose P close s w = .ok none (w.stmtDone s) := by
  unfold stmtClose
  simp only [h, hr, Bool.false_eq_true, if_false, mbind_run, get_run, pure_run]
  rw [stmtMark_run hc]

theorem stmtClose_queryRows (P : Peer σ) (close : M σ (Option GoErr)) {w : World σ} {s r : Nat}
    (h : (w.stmt s).closed = false) (hc : (w.stmt s).conn = true) (hr : (w.stmt s).rows = some r)
    (hq : (w.row r).closeStmt = true) :
    stmtClose P close s w = .ok none (w.stmtDone s) := by
  unfold stmtClose
  simp only [get_bind, h, hr, hq, Bool.false_eq_true, if_false, if_true, pure_bind', mbind_run, get_run, pure_run]
  rw [stmtMark_run hc]

end

/-- `ExecNeo` of a statement on a session in step. -/
theorem stmtExec_ok (close : M (Srv δ) (Option GoErr)) {w : World (Srv δ)} {d : δ} (h : Live w d .ready)
    (hi : w.inbox = []) {s : Nat} (h1 : (w.stmt s).closed = false) (h2 : (w.stmt s).conn = true)
    (h3 : (w.stmt s).rows = none) {kvs : KVs} (hs : Sendable w.chunkSize (.run (w.stmt s).query kvs)) :
    ∃ ps b l res, MeansKVs kvs ps ∧ CarriesAll ((D.exec d (w.stmt s).query ps).2.execSends (w.stmt s).query kvs) b ∧
      (D.exec d (w.stmt s).query ps).2.execResult res ∧
      stmtExecNeo D.peer close s kvs w = .ok res
        (w.net ⟨w.sink.out ++ b, none⟩ ⟨(D.exec d (w.stmt s).query ps).1, .ready, []⟩ []
          (w.log ++ [.send (.run (w.stmt s).query kvs) none, .send .pullAll none] ++ l)) := by
  obtain ⟨ps, b, l, h4, h5, run, pull, err, h6, h7⟩ := runConsumeAll_ok D close h hi hs
  have hg : guardStmt s w = .ok none w := by simp [guardStmt, h1, h3]
  rcases hx : D.exec d (w.stmt s).query ps with ⟨d', o⟩
  rw [hx] at h5 h6 h7
  have hc := withConn_ok (k := sendRunPullAllConsumeAll D.peer close (w.stmt s).query kvs) h2
  have key : ∀ e, err = some e → stmtExecNeo D.peer close s kvs w = .ok (.error e)
        (w.net ⟨w.sink.out ++ b, none⟩ ⟨d', .ready, []⟩ []
          (w.log ++ [.send (.run (w.stmt s).query kvs) none, .send .pullAll none] ++ l)) := by
    intro e he
    unfold stmtExecNeo
    rw [mbind_ok hg]
    simp only [get_bind]
    rw [mbind_ok (hc.trans h6), he]
    rfl
  cases o with
  | refused md =>
    obtain ⟨e, h8, h9⟩ := h7
    exact ⟨ps, b, l, .error e, h4, by rw [hx]; exact h5, by rw [hx]; exact ⟨e, rfl, h9⟩, by rw [hx]; exact key e h8⟩
  | answer hd rs en =>
    cases en with
    | broken md =>
      obtain ⟨e, h8, h9⟩ := h7
      exact ⟨ps, b, l, .error e, h4, by rw [hx]; exact h5, by rw [hx]; exact ⟨e, rfl, h9⟩, by rw [hx]; exact key e h8⟩
    | summary md =>
      obtain ⟨rfl, rfl, rfl⟩ := h7
      refine ⟨ps, b, l, .ok md, h4, by rw [hx]; exact h5, by rw [hx]; rfl, ?_⟩
      unfold stmtExecNeo
      rw [mbind_ok hg]
      simp only [get_bind]
      rw [mbind_ok (hc.trans h6), hx]
      rfl

/-- `ExecNeo` of the connection on a session in step. -/
theorem exec_ok (close : M (Srv δ) (Option GoErr)) {w : World (Srv δ)} {d : δ} (h : Live w d .ready)
    (hi : w.inbox = []) (ho : w.statement = none) {q : Str} {kvs : KVs} (hs : Sendable w.chunkSize (.run q kvs)) :
    ∃ ps b l res, MeansKVs kvs ps ∧ CarriesAll ((D.exec d q ps).2.execSends q kvs) b ∧
      (D.exec d q ps).2.execResult res ∧
      execNeo D.peer close q kvs w = .ok res
        { w.net ⟨w.sink.out ++ b, none⟩ ⟨(D.exec d q ps).1, .ready, []⟩ []
          (w.log ++ [.send (.run q kvs) none, .send .pullAll none] ++ l) with
          stmts := w.stmts ++ [{ query := q, queries := [], conn := false, closed := true, rows := none }] } := by
  let w1 : World (Srv δ) := { w with stmts := w.stmts ++ [{ query := q, queries := [], conn := true, closed := false, rows := none }] }
  have e : w1.stmt w.stmts.length = { query := q, queries := [], conn := true, closed := false, rows := none } := stmt_append w _
  have hl : Live w1 d .ready := ⟨h.closed, h.srv, h.budget, h.cs⟩
  obtain ⟨ps, b, l, res, h1, h2, h3, h4⟩ := stmtExec_ok D close hl hi (s := w.stmts.length) (by rw [e]) (by rw [e]) (by rw [e])
    (kvs := kvs) (by rw [e]; exact hs)
  rw [e] at h2 h3 h4
  refine ⟨ps, b, l, res, h1, h2, h3, ?_⟩
  have hg : guardConn w = .ok none w := by simp [guardConn, ho, h.closed]
  have hn : newStmt q [] w = .ok w.stmts.length w1 := rfl
  unfold execNeo
  rw [mbind_ok hg]
  simp only []
  rw [mbind_ok hn, mbind_ok h4, mbind_ok (stmtClose_norows D.peer close (s := w.stmts.length) (by simp [e]) (by simp [e]) (by simp [e]))]
  simp [World.stmtDone, World.setStmt, World.net, w1, ho, modify_append_last]

end Bolt
