import Verif.Proofs.Blocked
import Verif.Proofs.Accept

/-! Queries whose parameters the encoder rejects. -/

namespace Bolt
open PackStream

variable {σ : Type} {P : Peer σ} {close : M σ (Option GoErr)} {w : World σ}

theorem send_reject {q : Str} {kvs : KVs} (h : Rejected w.chunkSize q kvs) :
    ∃ e, send P (.run q kvs) w = .ok (some e) { w with log := w.log ++ [.send (.run q kvs) (some e)] } := by
  obtain ⟨h, hf⟩ := h
  have h1 := payload_footprint (.run q kvs)
  have h2 := run_short (cs := w.chunkSize) (encOps (.run q kvs)).writes [] w.sink (by unfold payload at h1; simp only [List.length_nil, Nat.zero_add]; omega)
  have h3 : (encOps (.run q kvs)).err ≠ none := fun he => h ((acc _).mp he)
  cases he : (encOps (.run q kvs)).err with
  | none => exact absurd he h3
  | some e =>
    refine ⟨e, ?_⟩
    have h4 : encodeTo w.chunkSize w.sink (.run q kvs) = (w.sink, some e) := by
      unfold encodeTo
      dsimp only
      rw [h2, he]
    have h5 : streamFails w.chunkSize w.sink (.run q kvs) = false := by
      unfold streamFails
      rw [h2, he]
      simp
    unfold send
    simp [h4, h5]

theorem sendRun_reject {q : Str} {kvs : KVs} (h : Rejected w.chunkSize q kvs) :
    ∃ e l, sendRun P q kvs w = .ok (some e) { w with log := w.log ++ l } := by
  obtain ⟨e, h1⟩ := send_reject (P := P) h
  exact ⟨_, _, (mbind_ok h1).trans rfl⟩

theorem sendRunPullAll_reject {q : Str} {kvs : KVs} (h : Rejected w.chunkSize q kvs) :
    ∃ e l, sendRunPullAll P q kvs w = .ok (some e) { w with log := w.log ++ l } := by
  obtain ⟨e, l, h1⟩ := sendRun_reject (P := P) h
  exact ⟨_, _, (mbind_ok h1).trans rfl⟩

theorem guardStmt_run (s : Nat) (w : World σ) : ∃ o, guardStmt s w = .ok o w ∧ (o = none → (w.stmt s).closed = false ∧ (w.stmt s).rows = none) := by
  unfold guardStmt
  split
  · exact ⟨_, rfl, fun h => by cases h⟩
  · next h1 =>
    split
    · exact ⟨_, rfl, fun h => by cases h⟩
    · next h2 => exact ⟨_, rfl, fun _ => ⟨by simpa using h1, by simpa using h2⟩⟩

theorem guardConn_run (w : World σ) : ∃ o, guardConn w = .ok o w ∧ (o = none → w.statement = none ∧ w.closed = false) := by
  unfold guardConn
  split
  · exact ⟨_, rfl, fun h => by cases h⟩
  · next h1 =>
    split
    · exact ⟨_, rfl, fun h => by cases h⟩
    · next h2 => exact ⟨_, rfl, fun _ => ⟨by simpa using h1, by simpa using h2⟩⟩

/-- The call on a statement: only the log changes. -/
theorem stmtExecNeo_reject {s : Nat} (hc : (w.stmt s).closed = false → (w.stmt s).conn = true) {kvs : KVs} (h : Rejected w.chunkSize (w.stmt s).query kvs) :
    ∃ e l, stmtExecNeo P close s kvs w = .ok (.error e) { w with log := w.log ++ l } := by
  obtain ⟨o, h1, h2⟩ := guardStmt_run s w
  unfold stmtExecNeo
  rw [mbind_ok h1]
  cases o with
  | some e => exact ⟨e, [], by simp [M.pure]⟩
  | none =>
    obtain ⟨e, l, h3⟩ := sendRunPullAll_reject (P := P) h
    refine ⟨e, l, ?_⟩
    refine (mbind_ok (x := M.get fun w => (w.stmt s).query) (a := (w.stmt s).query) (w' := w) rfl).trans ?_
    have h4 : withConn s (sendRunPullAllConsumeAll P close (w.stmt s).query kvs) w = .ok (.nil, .nil, some e) { w with log := w.log ++ l } := by
      rw [withConn_ok (hc (h2 rfl).1)]
      exact (mbind_ok h3).trans rfl
    exact (mbind_ok h4).trans rfl

theorem stmtQueryNeo_reject {s : Nat} (hc : (w.stmt s).closed = false → (w.stmt s).conn = true) {kvs : KVs} (h : Rejected w.chunkSize (w.stmt s).query kvs) :
    ∃ e l, stmtQueryNeo P close s kvs w = .ok (.error e) { w with log := w.log ++ l } := by
  obtain ⟨o, h1, h2⟩ := guardStmt_run s w
  unfold stmtQueryNeo
  rw [mbind_ok h1]
  cases o with
  | some e => exact ⟨e, [], by simp [M.pure]⟩
  | none =>
    obtain ⟨e, l, h3⟩ := sendRun_reject (P := P) h
    refine ⟨e, l, ?_⟩
    refine (mbind_ok (x := M.get fun w => (w.stmt s).query) (a := (w.stmt s).query) (w' := w) rfl).trans ?_
    have h4 : withConn s (sendRunConsume P close (w.stmt s).query kvs) w = .ok (.nil, some e) { w with log := w.log ++ l } := by
      rw [withConn_ok (hc (h2 rfl).1)]
      exact (mbind_ok h3).trans rfl
    exact (mbind_ok h4).trans rfl

/-- The world after a statement was made and closed again. -/
theorem untouched_done {x : Stmt} {o : Option Nat} (hn : w.statement = none) (l : List Event) :
    Untouched w (({ w with stmts := w.stmts ++ [x], statement := o, log := l } : World σ).stmtDone w.stmts.length) where
  sink := rfl
  srv := rfl
  inbox := rfl
  statement := hn.symm
  transaction := rfl
  closed := rfl
  connErr := rfl
  chunkSize := rfl
  stmts := fun s hs => by
    simp only [World.stmtDone, World.setStmt, List.getElem?_modify]
    rw [List.getElem?_append_left hs]
    have : ¬ w.stmts.length = s := by omega
    simp [this]
  rows := rfl
  txs := rfl

theorem Untouched.refl (w : World σ) : Untouched w w := ⟨rfl, rfl, rfl, rfl, rfl, rfl, rfl, rfl, fun _ _ => rfl, rfl, rfl⟩
theorem Untouched.log (w : World σ) (l : List Event) : Untouched w { w with log := l } := ⟨rfl, rfl, rfl, rfl, rfl, rfl, rfl, rfl, fun _ _ => rfl, rfl, rfl⟩

theorem Untouched.idle {δ : Type} {w w' : World (Srv δ)} {d : δ} (h : Untouched w w') (hi : Idle w d) : Idle w' d where
  synced := ⟨h.closed.trans hi.synced.closed, h.inbox.trans hi.synced.inbox, h.srv.trans hi.synced.srv, by rw [h.sink]; exact hi.synced.budget⟩
  statement := h.statement.trans hi.statement
  transaction := h.transaction.trans hi.transaction
  chunk := by rw [h.chunkSize]; exact hi.chunk

theorem execNeo_reject {q : Str} {kvs : KVs} (h : Rejected w.chunkSize q kvs) :
    ∃ e w', execNeo P close q kvs w = .ok (.error e) w' ∧ Untouched w w' := by
  obtain ⟨o, h1, h2⟩ := guardConn_run w
  unfold execNeo
  rw [mbind_ok h1]
  cases o with
  | some e => exact ⟨e, w, rfl, .refl w⟩
  | none =>
    let w1 : World σ := { w with stmts := w.stmts ++ [⟨q, [], true, false, none⟩] }
    have es : w1.stmt w.stmts.length = ⟨q, [], true, false, none⟩ := stmt_append w _
    obtain ⟨e, l, h3⟩ := stmtExecNeo_reject (P := P) (close := close) (w := w1) (s := w.stmts.length) (fun _ => by rw [es]) (kvs := kvs) (by rw [es]; exact h)
    refine ⟨e, World.stmtDone { w1 with log := w1.log ++ l } w.stmts.length, ?_, untouched_done (h2 rfl).1 _⟩
    refine (mbind_ok (x := newStmt q []) (a := w.stmts.length) (w' := w1) rfl).trans ?_
    refine (mbind_ok h3).trans ?_
    have es' : ({ w1 with log := w1.log ++ l } : World σ).stmt w.stmts.length = ⟨q, [], true, false, none⟩ := es
    exact (mbind_ok (stmtClose_norows P close (by rw [es']) (by rw [es']) (by rw [es']))).trans rfl

theorem queryNeo_reject {q : Str} {kvs : KVs} (h : Rejected w.chunkSize q kvs) :
    ∃ e w', queryNeo P close q kvs w = .ok (.error e) w' ∧ Untouched w w' := by
  obtain ⟨o, h1, h2⟩ := guardConn_run w
  unfold queryNeo
  rw [mbind_ok h1]
  cases o with
  | some e => exact ⟨e, w, rfl, .refl w⟩
  | none =>
    let w1 : World σ := { w with stmts := w.stmts ++ [⟨q, [], true, false, none⟩] }
    let w2 : World σ := { w1 with statement := some w.stmts.length }
    obtain ⟨e, l, h3⟩ := sendRunPullAll_reject (P := P) (w := w2) (q := q) (kvs := kvs) h
    let w3 : World σ := { w2 with log := w2.log ++ l }
    have es : w3.stmt w.stmts.length = ⟨q, [], true, false, none⟩ := stmt_append w _
    refine ⟨e, w3.stmtDone w.stmts.length, ?_, untouched_done (h2 rfl).1 _⟩
    refine (mbind_ok (x := newStmt q []) (a := w.stmts.length) (w' := w1) rfl).trans ?_
    refine (mbind_ok (x := M.modify fun w => { w with statement := some _ }) (a := ()) (w' := w2) rfl).trans ?_
    have h4 : sendRunPullAllConsumeRun P close q kvs w2 = .ok (.nil, some e) w3 := (mbind_ok h3).trans rfl
    refine (mbind_ok h4).trans ?_
    have h5 : queryNeo.stmtCloseCurrent P close w3 = .ok none (w3.stmtDone w.stmts.length) := by
      unfold queryNeo.stmtCloseCurrent
      refine (mbind_ok (x := M.get fun w => w.statement) (a := some w.stmts.length) (w' := w3) rfl).trans ?_
      exact stmtClose_norows P close (by rw [es]) (by rw [es]) (by rw [es])
    exact (mbind_ok h5).trans rfl

theorem queryNeoAll_reject {q : Str} {kvs : KVs} (h : Rejected w.chunkSize q kvs) :
    ∃ e w', queryNeoAll P close q kvs w = .ok (.error e) w' ∧ Untouched w w' := by
  obtain ⟨e, w', h1, h2⟩ := queryNeo_reject (P := P) (close := close) h
  exact ⟨e, w', (mbind_ok h1).trans rfl, h2⟩

/-! ### A pipeline with a rejected query -/

section
variable {δ : Type} (D : DB δ) (close : M (Srv δ) (Option GoErr)) {w : World (Srv δ)} {d : δ}

/-- A pipeline of two queries, the second rejected: the first was sent, its answer waits. -/
theorem execPipe_reject (h : Idle w d) {q q' : Str} {kvs kvs' : KVs} (hs : Sendable w.chunkSize (.run q kvs)) (hr : Rejected w.chunkSize q' kvs') :
    ∃ ps, MeansKVs kvs ps ∧ ∀ hd rs md, (D.exec d q ps).2 = .answer hd rs (.summary md) →
      ∃ e w', execPipeline D.peer close [q, q'] [kvs, kvs'] w = .ok (.error e) w' ∧ Live w' (D.exec d q ps).1 .ready ∧ w'.statement = none ∧ w'.transaction = none ∧
        w'.chunkSize = w.chunkSize ∧ w'.inbox = .val (.success hd) :: (rs.map Val.record ++ [Val.success md]).map Item.val := by
  let w1 : World (Srv δ) := { w with stmts := w.stmts ++ [⟨[], [q, q'], true, false, none⟩] }
  have es : w1.stmt w.stmts.length = ⟨[], [q, q'], true, false, none⟩ := stmt_append w _
  have hl : Live w1 d .ready := ⟨h.live.closed, h.live.srv, h.live.budget, h.live.cs⟩
  obtain ⟨ps, b, h1, h2, h3⟩ := sendRunPullAll_ok D hl (q := q) (kvs := kvs) hs
  refine ⟨ps, h1, fun hd rs md ha => ?_⟩
  rw [handle2_ready, ha] at h3
  obtain ⟨w2, hw2⟩ : ∃ w2, w2 = w1.net ⟨w1.sink.out ++ b, none⟩ ⟨(D.exec d q ps).1, .ready, []⟩
    (w1.inbox ++ (Val.success hd :: (rs.map Val.record ++ [Val.success md])).map Item.val) (w1.log ++ [.send (.run q kvs) none, .send .pullAll none]) := ⟨_, rfl⟩
  have h3' : sendRunPullAll D.peer q kvs w1 = .ok none w2 := by rw [hw2]; exact h3
  obtain ⟨e, l, h4⟩ := sendRunPullAll_reject (P := D.peer) (w := w2) (q := q') (kvs := kvs') (by rw [hw2]; exact hr)
  have h5 : sendAll D.peer "Error running exec query:\n\n%s\n\nWith Params:\n%#v" [(q, kvs), (q', kvs')] w1 =
      .ok (some (.wrap "Error running exec query:\n\n%s\n\nWith Params:\n%#v" (some e))) { w2 with log := w2.log ++ l } := by
    unfold sendAll
    rw [mbind_ok h3']
    unfold sendAll
    exact (mbind_ok h4).trans rfl
  have h6 : stmtExecPipeline D.peer close w.stmts.length [kvs, kvs'] w1 =
      .ok (.error (.wrap "Error running exec query:\n\n%s\n\nWith Params:\n%#v" (some e))) { w2 with log := w2.log ++ l } := by
    unfold stmtExecPipeline
    have hg : guardStmt w.stmts.length w1 = .ok none w1 := by simp [guardStmt, es]
    refine (mbind_ok hg).trans ?_
    refine (mbind_ok (x := M.get fun w' => (w'.stmt w.stmts.length).queries) (a := [q, q']) (w' := w1) (congrArg (fun x => Out.ok x w1) (congrArg Stmt.queries es))).trans ?_
    rw [if_neg (by simp)]
    refine (mbind_ok (a := some (.wrap "Error running exec query:\n\n%s\n\nWith Params:\n%#v" (some e))) (w' := { w2 with log := w2.log ++ l }) ?_).trans rfl
    rw [withConn_ok (by rw [es])]
    exact h5
  have es2 : ({ w2 with log := w2.log ++ l } : World (Srv δ)).stmt w.stmts.length = ⟨[], [q, q'], true, false, none⟩ := by rw [hw2]; exact es
  refine ⟨.wrap "Error running exec query:\n\n%s\n\nWith Params:\n%#v" (some e), World.stmtDone { w2 with log := w2.log ++ l } w.stmts.length, ?_, ?_, rfl, ?_, ?_, ?_⟩
  · unfold execPipeline
    have hg : guardConn w = .ok none w := by simp [guardConn, h.statement, h.synced.closed]
    refine (mbind_ok hg).trans ?_
    refine (mbind_ok (x := newStmt [] [q, q']) (a := w.stmts.length) (w' := w1) rfl).trans ?_
    refine (mbind_ok h6).trans ?_
    exact (mbind_ok (stmtClose_norows D.peer close (by rw [es2]) (by rw [es2]) (by rw [es2]))).trans rfl
  · subst hw2; exact ⟨h.synced.closed, rfl, rfl, h.chunk⟩
  · subst hw2; exact h.transaction
  · subst hw2; rfl
  · subst hw2
    show w.inbox ++ _ = _
    rw [h.synced.inbox]
    simp

/-- An exec while the answer to another query waits returns that query's summary. -/
theorem exec_stale (h : Live w d .ready) (hst : w.statement = none) {q : Str} {kvs : KVs} (hs : Sendable w.chunkSize (.run q kvs)) {hd md : KVs} {rs : List (List Val)}
    (hi : w.inbox = .val (.success hd) :: (rs.map Val.record ++ [Val.success md]).map Item.val) :
    ∃ ps w', MeansKVs kvs ps ∧ execNeo D.peer close q kvs w = .ok (.ok md) w' ∧ w'.srv.db = (D.exec d q ps).1 := by
  let w1 : World (Srv δ) := { w with stmts := w.stmts ++ [⟨q, [], true, false, none⟩] }
  have es : w1.stmt w.stmts.length = ⟨q, [], true, false, none⟩ := stmt_append w _
  have hl : Live w1 d .ready := ⟨h.closed, h.srv, h.budget, h.cs⟩
  obtain ⟨ps, b, h1, h2, h3⟩ := sendRunPullAll_ok D hl (q := q) (kvs := kvs) hs
  rw [handle2_ready] at h3
  let t := ((D.exec d q ps).2.pulled.2).map Item.val
  obtain ⟨w2, hw2⟩ : ∃ w2, w2 = w1.net ⟨w1.sink.out ++ b, none⟩ ⟨(D.exec d q ps).1, (D.exec d q ps).2.pulled.1, []⟩
    (w1.inbox ++ t) (w1.log ++ [.send (.run q kvs) none, .send .pullAll none]) := ⟨_, rfl⟩
  have h3' : sendRunPullAll D.peer q kvs w1 = .ok none w2 := by rw [hw2]; exact h3
  have hi2 : w2.inbox = .val (.success hd) :: ((rs.map Val.record).map .val ++ .val (.success md) :: t) := by
    rw [hw2]
    show w.inbox ++ t = _
    rw [hi]
    simp
  have h4 := consume_val D.peer close hi2 (by simp)
  obtain ⟨w3, hw3⟩ : ∃ w3, w3 = w2.net w2.sink w2.srv ((rs.map Val.record).map .val ++ .val (.success md) :: t) (w2.log ++ [.recv (.val (.success hd))]) := ⟨_, rfl⟩
  rw [← hw3] at h4
  have h5 := consumeAll_success D.peer close (w := w3) (vs := rs.map Val.record) (md := md) (t := t) (by rw [hw3]; rfl) (plain_records rs)
  obtain ⟨w4, hw4⟩ : ∃ w4, w4 = w3.net w3.sink w3.srv t (w3.log ++ (rs.map Val.record).map (fun v => .recv (.val v)) ++ [.recv (.val (.success md))]) := ⟨_, rfl⟩
  rw [← hw4] at h5
  have h6 : sendRunPullAllConsumeAll D.peer close q kvs w1 = .ok (.success hd, .success md, none) w4 :=
    (mbind_ok h3').trans ((mbind_ok h4).trans ((mbind_ok h5).trans rfl))
  have h7 : stmtExecNeo D.peer close w.stmts.length kvs w1 = .ok (.ok md) w4 := by
    unfold stmtExecNeo
    have hg : guardStmt w.stmts.length w1 = .ok none w1 := by simp [guardStmt, es]
    refine (mbind_ok hg).trans ?_
    refine (mbind_ok (x := M.get fun w' => (w'.stmt w.stmts.length).query) (a := q) (w' := w1) (congrArg (fun x => Out.ok x w1) (congrArg Stmt.query es))).trans ?_
    have hc : withConn w.stmts.length (sendRunPullAllConsumeAll D.peer close q kvs) w1 = .ok (.success hd, .success md, none) w4 := by
      rw [withConn_ok (by rw [es])]; exact h6
    exact (mbind_ok hc).trans rfl
  have es4 : w4.stmt w.stmts.length = ⟨q, [], true, false, none⟩ := by rw [hw4, hw3, hw2]; exact es
  refine ⟨ps, w4.stmtDone w.stmts.length, h1, ?_, ?_⟩
  · unfold execNeo
    have hg : guardConn w = .ok none w := by simp [guardConn, hst, h.closed]
    refine (mbind_ok hg).trans ?_
    refine (mbind_ok (x := newStmt q []) (a := w.stmts.length) (w' := w1) rfl).trans ?_
    refine (mbind_ok h7).trans ?_
    exact (mbind_ok (stmtClose_norows D.peer close (by rw [es4]) (by rw [es4]) (by rw [es4]))).trans rfl
  · show w4.srv.db = _
    rw [hw4, hw3, hw2]
    rfl

end

end Bolt
