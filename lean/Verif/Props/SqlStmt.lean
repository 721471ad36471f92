import Verif.Model.SqlStmt
import Verif.Props.SqlRows

/-!
# Prepared statements under database/sql: C110
-/

namespace Bolt
open PackStream

variable {δ : Type} {D : DB δ} {n : Nat}

/-- Rows already asked for, whose answer has a summary: what the loop gives, and that nothing is left to read when they are closed. -/
theorem sqlLoop_summary (close : M (Srv δ) (Option GoErr)) {w : World (Srv δ)} {r m : Nat} {x : Rows} {hd md : KVs} {rs : List (List Val)} (hr : w.rows[r]? = some x)
    (h1 : x.closed = false) (h2 : x.consumed = true) (h3 : (w.stmt x.stmt).conn = true) (h4 : x.finished = false)
    (h5 : numConsume (w.stmt x.stmt).queries.length x.idx = (1 : Nat)) (hi : w.inbox = (rs.map Val.record ++ [Val.success md]).map Item.val)
    {dest : List DVal} (hd' : dest.length = (columns hd).length) (hs : Scannable hd (rs.take m)) :
    ∃ out wa fin l, List.Forall₂ CellsOf (rs.take m) out ∧
      sqlLoop D.peer close r m dest [] w = (rowsClose D.peer close r >>= fun c => M.pure (out, none, c) : M (Srv δ) _) wa ∧ (wa.row r).closed = false ∧
      rowsDrain D.peer close r wa = .ok none ((w.net w.sink w.srv [] (w.log ++ l)).setRow r fun x => { x with finished := fin }) := by
  have e1 := row_of hr
  have c1 : (w.row r).closed = false := by rw [e1]; exact h1
  have p1 : (w.row r).consumed = true := by rw [e1]; exact h2
  have s1 : (w.stmt (w.row r).stmt).conn = true := by rw [e1]; exact h3
  have f1 : (w.row r).finished = false := by rw [e1]; exact h4
  have n1 : numConsume (w.stmt (w.row r).stmt).queries.length (w.row r).idx = (1 : Nat) := by rw [e1]; exact h5
  have hin : w.inbox = ((rs.take m).map Val.record).map Item.val ++ (((rs.drop m).map Val.record).map Item.val ++ [.val (.success md)]) := by
    rw [← List.append_assoc, ← List.map_append, ← List.map_append, List.take_append_drop, hi, List.map_append]
    rfl
  by_cases hm : m ≤ rs.length
  · have ht : (rs.take m).length + 0 = m := by simp [hm]
    obtain ⟨dest', out, h9, h10⟩ := sqlLoop_records (D := D) close r (columns hd).length 0 _ (rs.take m) w dest [] c1 p1 s1 hd' hs hin
    rw [ht] at h10
    obtain ⟨l3, h11⟩ := consumeAllMultiple_ok D.peer close [((rs.drop m).map Val.record, md)] []
      (fun g hg => by
        rw [List.mem_singleton.1 hg]
        intro v hv
        obtain ⟨x, _, rfl⟩ := List.mem_map.1 hv
        rfl) (w.net w.sink w.srv (((rs.drop m).map Val.record).map Item.val ++ [.val (.success md)]) (w.log ++ gotRecords (rs.take m))) (by simp [group, World.net])
    have h12 := rowsDrain_pulled D.peer close (w := w.net w.sink w.srv _ (w.log ++ gotRecords (rs.take m))) (r := r) p1 f1 s1 (n := 1) n1 h11
    refine ⟨out, _, false, gotRecords (rs.take m) ++ l3, h9, h10, c1, h12.trans ?_⟩
    have : (w.net w.sink w.srv [] (w.log ++ (gotRecords (rs.take m) ++ l3))).setRow r (fun x => { x with finished := false }) =
        w.net w.sink w.srv [] (w.log ++ (gotRecords (rs.take m) ++ l3)) := by
      simp only [World.setRow, World.net]
      congr 1
      apply List.ext_getElem?
      intro i
      rw [List.getElem?_modify]
      split
      · rename_i hir
        subst hir
        rw [hr]
        cases x
        cases h4
        rfl
      · simp
    rw [this]
    simp [World.net]
  · obtain ⟨k, rfl⟩ : ∃ k, m = rs.length + (k + 1) := ⟨m - rs.length - 1, by omega⟩
    have tk : rs.take (rs.length + (k + 1)) = rs := List.take_of_length_le (by omega)
    have dr : rs.drop (rs.length + (k + 1)) = [] := List.drop_of_length_le (by omega)
    rw [tk, dr, List.map_nil, List.map_nil, List.nil_append] at hin
    rw [tk] at hs ⊢
    obtain ⟨dest', out, h9, h10⟩ := sqlLoop_records (D := D) close r (columns hd).length (k + 1) _ rs w dest [] c1 p1 s1 hd' hs hin
    have h11 := nextNeo_end D.peer close (w := w.net w.sink w.srv [.val (.success md)] (w.log ++ gotRecords rs)) (md := md) (t := []) c1 p1 s1 rfl
    have h12 := (c61_next_partial D.peer close r dest' _ _).2 _ _ _ h11
    have r2 := row_of (row_setRow (w := (w.net w.sink w.srv [.val (.success md)] (w.log ++ gotRecords rs)).net w.sink w.srv [] (w.log ++ gotRecords rs ++ [.recv (.val (.success md))]))
      (f := fun x => { x with finished := true }) hr)
    refine ⟨out, ((w.net w.sink w.srv [.val (.success md)] (w.log ++ gotRecords rs)).net w.sink w.srv [] (w.log ++ gotRecords rs ++ [.recv (.val (.success md))])).setRow r fun x => { x with finished := true }, true, gotRecords rs ++ [.recv (.val (.success md))], h9, ?_, ?_, (rowsDrain_finished D.peer close ?_ ?_).trans ?_⟩
    · rw [h10, sqlLoop]
      exact (mbind_ok h12).trans rfl
    · rw [r2]; exact h1
    · rw [r2]; exact h2
    · rw [r2]
    · simp [World.net, World.setRow]

/-- A connection on which statement `s` is prepared and nothing is going on. -/
structure Prepared (w : World (Srv δ)) (d : δ) (s : Nat) (q : Str) : Prop where
  live : Live w d .ready
  inbox : w.inbox = []
  statement : w.statement = some s
  transaction : w.transaction = none
  stmt : w.stmts[s]? = some { query := q, queries := [], conn := true, closed := false, rows := none }

/-- What the user of a prepared statement is told of an execution. -/
def ToldRows (o : Outcome) (m : Nat) (x : Except GoErr (List (List DVal) × Option GoErr × Option GoErr)) : Prop :=
  match o with
  | .refused md => ∃ e, x = .error e ∧ e.innerMost = .failure md
  | .answer _ rs (.summary _) => ∃ out, x = .ok (out, none, none) ∧ List.Forall₂ CellsOf (rs.take m) out
  | .answer _ _ (.broken _) => False

/-- The database refuses the query or answers it to the end, with records `sql.Rows` can give. -/
def Wholesome (o : Outcome) : Prop :=
  match o with
  | .refused _ => True
  | .answer hd rs (.summary _) => Scannable hd rs
  | .answer _ _ (.broken _) => False

theorem prepared_run {w : World (Srv δ)} {d : δ} {s : Nat} {q : Str} (h : Prepared w d s q) {args : List DVal} {kvs : KVs} (ha : driverArgsToMap args = .ok kvs)
    (hs : Sendable w.chunkSize (.run q kvs)) (m : Nat) (close : M (Srv δ) (Option GoErr)) (hD : ∀ ps, Wholesome (D.exec d q ps).2) :
    ∃ ps x w', MeansKVs kvs ps ∧ stmtRun D.peer close s (.query args m) w = .ok (.query x) w' ∧ ToldRows (D.exec d q ps).2 m x ∧ Prepared w' (D.exec d q ps).1 s q ∧ w'.chunkSize = w.chunkSize := by
  have e := stmt_of h.stmt
  obtain ⟨ps, h1, h2⟩ := stmtQueryNeo_ok D close h.live h.inbox (s := s) (by rw [e]) (by rw [e]) (by rw [e]) (kvs := kvs) (by rw [e]; exact hs)
  rw [e] at h2
  have hD := hD ps
  refine ⟨ps, ?_⟩
  rcases hx : D.exec d q ps with ⟨d', o⟩
  simp only [hx] at h2 hD
  have hq : ∀ r w', stmtQueryNeo D.peer close s kvs w = .ok r w' → sqlStmtQuery D.peer close s args w = .ok (viaPtr r) w' :=
    fun r w' hr => (mbind_ok (convert_ok ha w)).trans ((mbind_ok hr).trans rfl)
  cases o with
  | refused md =>
    obtain ⟨b, l, _, h3⟩ := h2
    exact ⟨_, _, h1, (mbind_ok (hq _ _ h3)).trans rfl, ⟨_, rfl, rfl⟩, ⟨⟨h.live.closed, rfl, rfl, h.live.cs⟩, rfl, h.statement, h.transaction, h.stmt⟩, rfl⟩
  | answer hd rs en =>
    cases en with
    | broken md => exact hD.elim
    | summary md =>
      obtain ⟨b, l, _, h3⟩ := h2
      have h3 := hq _ _ h3
      generalize hw1 : ({ w.net ⟨w.sink.out ++ b, none⟩ ⟨d', .streaming rs (.summary md), []⟩ [] (w.log ++ l) with
              stmts := w.stmts.modify s fun x => { x with rows := some w.rows.length }
              rows := w.rows ++ [stmtRow hd s] } : World (Srv δ)) = w1 at h3
      have r1 : w1.rows[w.rows.length]? = some (stmtRow hd s) := by subst hw1; simp
      have t1 : w1.stmts[s]? = some { query := q, queries := [], conn := true, closed := false, rows := some w.rows.length } := by
        subst hw1; simp [h.stmt]
      have l1 : Live w1 d' (.streaming rs (.summary md)) := by subst hw1; exact ⟨h.live.closed, rfl, rfl, h.live.cs⟩
      have i1 : w1.inbox = [] := by subst hw1; rfl
      have o1 : w1.statement = some s := by subst hw1; exact h.statement
      have x1 : w1.transaction = none := by subst hw1; exact h.transaction
      have k1 : w1.chunkSize = w.chunkSize := by subst hw1; rfl
      have e1 := row_of r1
      have es := stmt_of t1
      have c1 : (w1.stmt (w1.row w.rows.length).stmt).conn = true := by rw [e1, show (stmtRow hd s).stmt = s from rfl, es]
      have fin : ∀ y w2 wa wb, List.Forall₂ CellsOf (rs.take m) y →
          sqlLoop D.peer close w.rows.length m (List.replicate (columns hd).length (.plain .nil)) [] w1 =
            (rowsClose D.peer close w.rows.length >>= fun c => M.pure (y, none, c) : M (Srv δ) _) wa → (wa.row w.rows.length).closed = false →
          rowsDrain D.peer close w.rows.length wa = .ok none wb → wb.rows[w.rows.length]? = some w2 → w2.closeStmt = false → w2.stmt = s →
          wb.stmts = w1.stmts → Live wb d' .ready → wb.inbox = [] → wb.statement = some s → wb.transaction = none → wb.chunkSize = w1.chunkSize →
          ∃ x w', MeansKVs kvs ps ∧ stmtRun D.peer close s (.query args m) w = .ok (.query x) w' ∧ ToldRows (.answer hd rs (.summary md)) m x ∧ Prepared w' d' s q ∧ w'.chunkSize = w.chunkSize := by
        intro y w2 wa wb hy hl hc hdr hrow hcs hst hss hlive hinb hstm htx hcz
        have h4 := rowsClose_stmtRows D.peer close hc hdr (by rw [row_of (rowsDone_row hrow)]; exact hcs)
        have h5 : sqlRows D.peer close m w.rows.length w1 = .ok (y, none, none) (wb.rowsDone w.rows.length) := by
          unfold sqlRows
          simp only [get_bind, e1]
          exact hl.trans ((mbind_ok h4).trans rfl)
        refine ⟨.ok (y, none, none), wb.rowsDone w.rows.length, h1, ?_, ⟨y, rfl, hy⟩, ⟨⟨hlive.closed, hlive.srv, hlive.budget, hlive.cs⟩, hinb, hstm, htx, ?_⟩, hcz.trans k1⟩
        · exact (mbind_ok h3).trans ((mbind_ok h5).trans rfl)
        · exact rowsDone_stmt hrow hst (by rw [hss]; exact t1)
      cases m with
      | zero =>
        obtain ⟨b2, l2, _, h5⟩ := rowsDrain_discard D close l1 i1 (r := w.rows.length) (by rw [e1]; rfl) c1
        exact fin [] (stmtRow hd s) w1 _ .nil rfl (by rw [e1]; rfl) h5 r1 rfl rfl rfl ⟨l1.closed, rfl, rfl, l1.cs⟩ rfl o1 x1 rfl
      | succ m =>
        obtain ⟨b2, _, h5⟩ := nextNeo_pull D close l1 r1 rfl rfl (by rw [show (stmtRow hd s).stmt = s from rfl, es])
        generalize hw2 : ((w1.setRow w.rows.length fun x => { x with consumed := true }).net ⟨w1.sink.out ++ b2, none⟩ _ _ _) = w2 at h5
        have r2 : w2.rows[w.rows.length]? = some { stmtRow hd s with consumed := true } := by subst hw2; exact row_setRow (w := w1) r1
        have t2 : w2.stmts = w1.stmts := by subst hw2; rfl
        have es2 : w2.stmt s = _ := stmt_of (t2 ▸ t1)
        have l2 : Live w2 d' .ready := by subst hw2; exact ⟨l1.closed, rfl, rfl, l1.cs⟩
        have i2 : w2.inbox = (rs.map Val.record ++ [Val.success md]).map Item.val := by subst hw2; simp [i1, DB.handle, Ending.reply, World.net]
        have o2 : w2.statement = some s := by subst hw2; exact o1
        have x2 : w2.transaction = none := by subst hw2; exact x1
        have z2 : w2.chunkSize = w1.chunkSize := by subst hw2; rfl
        have hl : ∀ dest, sqlLoop D.peer close w.rows.length (m + 1) dest [] w1 = sqlLoop D.peer close w.rows.length (m + 1) dest [] w2 := by
          intro dest
          unfold sqlLoop sqlNext
          simp only [mbind_run, h5]
        obtain ⟨out, wa, fn, l3, h6, h7, h8, h9⟩ := sqlLoop_summary (D := D) close (m := m + 1) (hd := hd) (md := md) (rs := rs) r2 rfl rfl
          (by rw [show (stmtRow hd s).stmt = s from rfl, es2]) rfl (by rw [show (stmtRow hd s).stmt = s from rfl, es2]; rfl) i2
          (dest := List.replicate (columns hd).length (.plain .nil)) (by simp) (fun vs hv => hD vs (List.mem_of_mem_take hv))
        exact fin out _ wa _ h6 ((hl _).trans h7) h8 h9 (row_setRow (w := w2.net _ _ _ _) r2) rfl rfl t2 ⟨l2.closed, l2.srv, l2.budget, l2.cs⟩ rfl o2 x2 z2

theorem prepared_exec {w : World (Srv δ)} {d : δ} {s : Nat} {q : Str} (h : Prepared w d s q) {args : List DVal} {kvs : KVs} (ha : driverArgsToMap args = .ok kvs)
    (hs : Sendable w.chunkSize (.run q kvs)) (close : M (Srv δ) (Option GoErr)) :
    ∃ ps x w', MeansKVs kvs ps ∧ stmtRun D.peer close s (.exec args) w = .ok (.exec x) w' ∧ (D.exec d q ps).2.execResult x ∧ Prepared w' (D.exec d q ps).1 s q ∧ w'.chunkSize = w.chunkSize := by
  have e := stmt_of h.stmt
  obtain ⟨ps, b, l, res, h1, _, h2, h3⟩ := stmtExec_ok D close h.live h.inbox (s := s) (by rw [e]) (by rw [e]) (by rw [e]) (kvs := kvs) (by rw [e]; exact hs)
  rw [e] at h2 h3
  have h4 : sqlStmtExec D.peer close s args w = .ok res _ := (mbind_ok (convert_ok ha w)).trans h3
  exact ⟨ps, res, _, h1, (mbind_ok h4).trans rfl, h2, ⟨⟨h.live.closed, rfl, rfl, h.live.cs⟩, rfl, h.statement, h.transaction, h.stmt⟩, rfl⟩

/-- What the user is told of one use. -/
def ToldRun (o : Outcome) : StmtCall → StmtRes → Prop
  | .exec _, .exec x => match o with
    | .refused md => ∃ e, x = .error e ∧ e.innerMost = .failure md
    | .answer _ _ (.broken md) => ∃ e, x = .error e ∧ e.innerMost = .failure md
    | .answer _ _ (.summary md) => x = .ok md
  | .query _ m, .query x => ToldRows o m x
  | _, _ => False

/-- The executions of a prepared statement by the database, and what the user is told of each. -/
def ToldRuns (D : DB δ) (q : Str) : List StmtCall → δ → δ → List StmtRes → Prop
  | [], d, d', xs => d' = d ∧ xs = []
  | a :: l, d, d', xs => ∃ kvs ps x rest, driverArgsToMap a.args = .ok kvs ∧ MeansKVs kvs ps ∧ xs = x :: rest ∧ ToldRun (D.exec d q ps).2 a x ∧
      ToldRuns D q l (D.exec d q ps).1 d' rest

theorem prepared_runs (close : M (Srv δ) (Option GoErr)) {q : Str} {s cs : Nat} : ∀ (l : List StmtCall) {w : World (Srv δ)} {d : δ},
    Prepared w d s q → w.chunkSize = cs → (∀ args m, .query args m ∈ l → ∀ d ps, Wholesome (D.exec d q ps).2) →
    (∀ a ∈ l, ∃ kvs, driverArgsToMap a.args = .ok kvs ∧ Sendable cs (.run q kvs)) →
    ∃ xs w' d', stmtRuns D.peer close s l w = .ok xs w' ∧ ToldRuns D q l d d' xs ∧ Prepared w' d' s q
  | [], w, d, h, _, _, _ => ⟨[], w, d, rfl, ⟨rfl, rfl⟩, h⟩
  | .exec args :: l, w, d, h, hcs, hD, hl => by
    obtain ⟨⟨kvs, ha, hs⟩, hl⟩ := List.forall_mem_cons.1 hl
    obtain ⟨ps, x, w1, h1, h2, h3, h4, h5⟩ := prepared_exec (D := D) h ha (by rw [hcs]; exact hs) close
    obtain ⟨xs, w', d', h6, h7, h8⟩ := prepared_runs close l h4 (h5.trans hcs) (fun a m ha => hD a m (List.mem_cons_of_mem _ ha)) hl
    refine ⟨.exec x :: xs, w', d', (mbind_ok h2).trans ((mbind_ok h6).trans rfl), ⟨kvs, ps, .exec x, xs, ha, h1, rfl, ?_, h7⟩, h8⟩
    unfold ToldRun
    rcases hx : (D.exec d q ps).2 with md | ⟨hd, rs, md | md⟩ <;> rw [hx] at h3 <;> exact h3
  | .query args m :: l, w, d, h, hcs, hD, hl => by
    obtain ⟨⟨kvs, ha, hs⟩, hl⟩ := List.forall_mem_cons.1 hl
    obtain ⟨ps, x, w1, h1, h2, h3, h4, h5⟩ := prepared_run (D := D) h ha (by rw [hcs]; exact hs) m close (hD args m List.mem_cons_self d)
    obtain ⟨xs, w', d', h6, h7, h8⟩ := prepared_runs close l h4 (h5.trans hcs) (fun a m ha => hD a m (List.mem_cons_of_mem _ ha)) hl
    exact ⟨.query x :: xs, w', d', (mbind_ok h2).trans ((mbind_ok h6).trans rfl), ⟨kvs, ps, .query x, xs, ha, h1, rfl, h3, h7⟩, h8⟩

/-- C110 with an honest server, any number of executions in any order by Exec and Query, with any arguments that are maps, any number of records read of each; with Query
among them, for a statement that is refused or answered to the end: the server executes the statement once for each execution and in their order, the user of each is told its own result, and after Close the connection
is idle again. -/
theorem c110_partial (close : M (Srv δ) (Option GoErr)) {w : World (Srv δ)} {d : δ} (h : Idle w d) {q : Str} {l : List StmtCall} (hD : ∀ args m, .query args m ∈ l → ∀ d ps, Wholesome (D.exec d q ps).2)
    (hl : ∀ a ∈ l, ∃ kvs, driverArgsToMap a.args = .ok kvs ∧ Sendable w.chunkSize (.run q kvs)) :
    ∃ xs w' d', sqlPrepared D.peer close q l w = .ok (.ok (xs, none)) w' ∧ ToldRuns D q l d d' xs ∧ Idle w' d' := by
  let w1 : World (Srv δ) := { w with stmts := w.stmts ++ [{ query := q, queries := [], conn := true, closed := false, rows := none }], statement := some w.stmts.length }
  have hp : apiPrepare q w = .ok (.ptr (some w.stmts.length), none) w1 := by
    have : prepare q [] w = .ok (.ok w.stmts.length) w1 := (mbind_ok (Retry.guard_open h.statement h.synced.closed)).trans rfl
    exact (mbind_ok this).trans rfl
  have h1 : Prepared w1 d w.stmts.length q := ⟨⟨h.synced.closed, h.synced.srv, h.synced.budget, h.chunk⟩, h.synced.inbox, rfl, h.transaction, by simp [w1]⟩
  obtain ⟨xs, w2, d', h2, h3, h4⟩ := prepared_runs close l h1 rfl hD hl
  have es := stmt_of h4.stmt
  have h5 := stmtClose_norows D.peer close (w := w2) (s := w.stmts.length) (by rw [es]) (by rw [es]) (by rw [es])
  exact ⟨xs, _, d', (mbind_ok hp).trans ((mbind_ok h2).trans ((mbind_ok h5).trans rfl)), h3,
    ⟨h4.live.closed, h4.inbox, h4.live.srv, h4.live.budget⟩, rfl, h4.transaction, h4.live.cs⟩

/-- C110 is false, any database: when the answer of the statement breaks off and its rows are read to the end, `sql.Rows.Err` returns the failure, but
`sql.Stmt.Close` fails, the driver's statement stays open, and every call of `database/sql` that uses the connection afterwards fails without anything being sent. -/
theorem c110_false (close : M (Srv δ) (Option GoErr)) {w : World (Srv δ)} {d : δ} (h : Idle w d) {q : Str} {args : List DVal} {kvs : KVs} (ha : driverArgsToMap args = .ok kvs)
    (hs : Sendable w.chunkSize (.run q kvs)) {md hd : KVs} {rs : List (List Val)} (hx : ∀ ps, (D.exec d q ps).2 = .answer hd rs (.broken md)) {m : Nat} (hm : rs.length < m)
    (hsc : Scannable hd rs) :
    ∃ out e c c' w', sqlPrepared D.peer close q [.query args m] w = .ok (.ok ([.query (.ok (out, some e, some c))], some c')) w' ∧ e.innerMost = .failure md ∧
      List.Forall₂ CellsOf rs out ∧ ∀ call : SqlCall, call.sends ∨ (∃ q', call = .prepare q') → ∃ t, call.run D.peer close w' = .ok (some (.new t)) w' := by
  let w0 : World (Srv δ) := { w with stmts := w.stmts ++ [{ query := q, queries := [], conn := true, closed := false, rows := none }], statement := some w.stmts.length }
  have hp : apiPrepare q w = .ok (.ptr (some w.stmts.length), none) w0 := by
    have : prepare q [] w = .ok (.ok w.stmts.length) w0 := (mbind_ok (Retry.guard_open h.statement h.synced.closed)).trans rfl
    exact (mbind_ok this).trans rfl
  have h0 : Prepared w0 d w.stmts.length q := ⟨⟨h.synced.closed, h.synced.srv, h.synced.budget, h.chunk⟩, h.synced.inbox, rfl, h.transaction, by simp [w0]⟩
  have k0 : w0.chunkSize = w.chunkSize := rfl
  clear_value w0
  generalize w.stmts.length = s at hp h0
  have e := stmt_of h0.stmt
  obtain ⟨ps, _, h2⟩ := stmtQueryNeo_ok D close h0.live h0.inbox (s := s) (by rw [e]) (by rw [e]) (by rw [e]) (kvs := kvs) (by rw [e, k0]; exact hs)
  rw [e] at h2
  have hx := hx ps
  rcases hy : D.exec d q ps with ⟨d', o⟩
  simp only [hy] at h2 hx
  subst hx
  obtain ⟨b, l, _, h3⟩ := h2
  have h3 : sqlStmtQuery D.peer close s args w0 = .ok (.ptr (some w0.rows.length), none) _ := (mbind_ok (convert_ok ha w0)).trans ((mbind_ok h3).trans rfl)
  generalize hw1 : ({ w0.net ⟨w0.sink.out ++ b, none⟩ ⟨d', .streaming rs (.broken md), []⟩ [] (w0.log ++ l) with
          stmts := w0.stmts.modify s fun x => { x with rows := some w0.rows.length }
          rows := w0.rows ++ [stmtRow hd s] } : World (Srv δ)) = w1 at h3
  have r1 : w1.rows[w0.rows.length]? = some (stmtRow hd s) := by subst hw1; simp
  have t1 : w1.stmts[s]? = some { query := q, queries := [], conn := true, closed := false, rows := some w0.rows.length } := by
    subst hw1; simp [h0.stmt]
  have l1 : Live w1 d' (.streaming rs (.broken md)) := by subst hw1; exact ⟨h0.live.closed, rfl, rfl, h0.live.cs⟩
  have i1 : w1.inbox = [] := by subst hw1; rfl
  have o1 : w1.statement = some s := by subst hw1; exact h0.statement
  have x1 : w1.transaction = none := by subst hw1; exact h0.transaction
  generalize w0.rows.length = r at h3 r1 t1
  have es := stmt_of t1
  obtain ⟨b2, _, h5⟩ := nextNeo_pull D close l1 r1 rfl rfl (by rw [show (stmtRow hd s).stmt = s from rfl, es])
  generalize hw2 : ((w1.setRow r fun x => { x with consumed := true }).net ⟨w1.sink.out ++ b2, none⟩ _ _ _) = w2 at h5
  have r2 : w2.rows[r]? = some { stmtRow hd s with consumed := true } := by subst hw2; exact row_setRow (w := w1) r1
  have t2 : w2.stmts[s]? = some { query := q, queries := [], conn := true, closed := false, rows := some r } := by subst hw2; exact t1
  have l2 : Live w2 d' .failed := by subst hw2; exact ⟨l1.closed, rfl, rfl, l1.cs⟩
  have i2 : w2.inbox = (rs.map Val.record).map Item.val ++ [.val (.failure md)] := by subst hw2; simp [i1, DB.handle, Ending.reply, World.net]
  have o2 : w2.statement = some s := by subst hw2; exact o1
  have x2 : w2.transaction = none := by subst hw2; exact x1
  obtain ⟨k, rfl⟩ : ∃ k, m = rs.length + (k + 1) := ⟨m - rs.length - 1, by omega⟩
  have hl : ∀ dest, sqlLoop D.peer close r (rs.length + (k + 1)) dest [] w1 = sqlLoop D.peer close r (rs.length + (k + 1)) dest [] w2 := by
    intro dest
    rw [show rs.length + (k + 1) = (rs.length + k) + 1 by omega]
    unfold sqlLoop sqlNext
    simp only [mbind_run, h5]
  have e2 := row_of r2
  have es2 := stmt_of t2
  have c2 : (w2.row r).closed = false := by rw [e2]; rfl
  have p2 : (w2.row r).consumed = true := by rw [e2]
  have f2 : (w2.row r).finished = false := by rw [e2]; rfl
  have s2 : (w2.stmt (w2.row r).stmt).conn = true := by rw [e2, show ({ stmtRow hd s with consumed := true } : Rows).stmt = s from rfl, es2]
  have n2 : numConsume (w2.stmt (w2.row r).stmt).queries.length (w2.row r).idx = (1 : Nat) := by
    rw [e2, show ({ stmtRow hd s with consumed := true } : Rows).stmt = s from rfl, es2]; rfl
  obtain ⟨dest', out, h9, h10⟩ := sqlLoop_records (D := D) close r (columns hd).length (k + 1) _ rs w2
    (List.replicate (columns hd).length (.plain .nil)) [] c2 p2 s2 (by simp) hsc i2
  have hlv : Live (w2.net w2.sink w2.srv [.val (.failure md)] (w2.log ++ gotRecords rs)) d' .failed := ⟨l2.closed, l2.srv, l2.budget, l2.cs⟩
  obtain ⟨b3, l3, _, h11⟩ := hlv.consume_failure D close (md := md) (n := 0) rfl
  have h11 := nextNeo_err D.peer close (w := w2.net w2.sink w2.srv [.val (.failure md)] (w2.log ++ gotRecords rs)) c2 p2 s2 h11
  have h12 := (c61_next_partial D.peer close r dest' _ _).2 _ _ _ h11
  generalize hw3 : ((w2.net w2.sink w2.srv [.val (.failure md)] (w2.log ++ gotRecords rs)).net _ _ _ _) = w3 at h12
  have drain : ∀ w3 : World (Srv δ), Live w3 d' .ready → w3.inbox = [] → w3.rows = w2.rows → w3.stmts = w2.stmts → rowsDrain D.peer close r w3 =
      .ok (some (.wrap "An error occurred clearing out unconsumed stream" (some (readErr .badConn)))) w3.timedOut := by
    intro w3 l3 i3 q3 q4
    have h13 : consumeAllMultiple D.peer close 1 w3 = .ok (some (readErr .badConn)) w3.timedOut := by
      unfold consumeAllMultiple
      rw [mbind_ok (consumeAll_blocked D close l3 (by simp) i3)]
      rfl
    have er : w3.row r = w2.row r := by unfold World.row; rw [q3]
    have et : ∀ j, w3.stmt j = w2.stmt j := fun j => by unfold World.stmt; rw [q4]
    exact rowsDrain_pulled D.peer close (w := w3) (r := r) (by rw [er]; exact p2) (by rw [er]; exact f2) (by rw [er, et]; exact s2) (n := 1) (by rw [er, et]; exact n2) h13
  have l3' : Live w3 d' .ready := by subst hw3; exact ⟨hlv.closed, rfl, rfl, hlv.cs⟩
  have q3 : w3.rows = w2.rows := by subst hw3; rfl
  have q4 : w3.stmts = w2.stmts := by subst hw3; rfl
  have i3 : w3.inbox = [] := by subst hw3; rfl
  have o3 : w3.statement = some s := by subst hw3; exact o2
  have x3 : w3.transaction = none := by subst hw3; exact x2
  have h14 := drain w3 l3' i3 q3 q4
  have h15 := rowsClose_fail D.peer close (by unfold World.row at c2 ⊢; rw [q3]; exact c2) h14
  have h16 := drain w3.timedOut ⟨l3'.closed, l3'.srv, l3'.budget, l3'.cs⟩ i3 q3 q4
  have h17 := rowsClose0_fail D.peer close (by unfold World.row at c2 ⊢; rw [show w3.timedOut.rows = w2.rows from q3]; exact c2) h16
  have es3 : w3.timedOut.stmt s = { query := q, queries := [], conn := true, closed := false, rows := some r } :=
    stmt_of (show w3.timedOut.stmts[s]? = _ by rw [show w3.timedOut.stmts = w2.stmts from q4]; exact t2)
  have er3 : w3.timedOut.row r = { stmtRow hd s with consumed := true } :=
    row_of (show w3.timedOut.rows[r]? = _ by rw [show w3.timedOut.rows = w2.rows from q3]; exact r2)
  have h18 : ∃ c', stmtClose D.peer close s w3.timedOut = .ok (some c') w3.timedOut.timedOut := by
    unfold stmtClose
    simp only [get_bind, es3, Bool.false_eq_true, if_false]
    rw [mbind_run, get_bind, es3]
    simp only [get_bind, er3]
    rw [if_neg (by simp [stmtRow]), h17]
    exact ⟨_, rfl⟩
  obtain ⟨c', h18⟩ := h18
  have h19 : sqlRows D.peer close (rs.length + (k + 1)) r w1 = .ok (out, some (queryErr md), some (.wrap "An error occurred clearing out unconsumed stream" (some (readErr .badConn)))) w3.timedOut := by
    unfold sqlRows
    simp only [get_bind, row_of r1]
    refine (hl _).trans (h10.trans ?_)
    rw [sqlLoop]
    refine (mbind_ok h12).trans ?_
    exact (mbind_ok h15).trans rfl
  have h20 : stmtRun D.peer close s (.query args (rs.length + (k + 1))) w0 = .ok (.query (.ok (out, some (queryErr md), some _))) w3.timedOut := (mbind_ok h3).trans ((mbind_ok h19).trans rfl)
  have h21 : stmtRuns D.peer close s [.query args (rs.length + (k + 1))] w0 = .ok [.query (.ok (out, some (queryErr md), some _))] w3.timedOut := (mbind_ok h20).trans rfl
  exact ⟨out, queryErr md, _, c', w3.timedOut.timedOut, (mbind_ok hp).trans ((mbind_ok h21).trans ((mbind_ok h18).trans rfl)), rfl, h9,
    fun call hcall => blocked_call (w := w3.timedOut.timedOut) (s := s) o3 x3 hcall⟩

theorem pairs_wholesome {q : Str} (hq : q ≠ [66]) (d : Nat) (ps : List (Str × PS)) : Wholesome (pairs.exec d q ps).2 := by
  simp only [pairs, if_neg hq]
  exact pairs_scannable

/-- Three executions of a prepared statement, the first left after one record. -/
example : ∃ a b md c d e f w', sqlPrepared pairs.peer (closeN pairs.peer 1) [65] [.query [] 1, .exec [], .query [] 9] (freshConn 0 4096) =
      .ok (.ok ([.query (.ok ([[a, b]], none, none)), .exec (.ok md), .query (.ok ([[c, d], [e, f]], none, none))], none)) w' ∧
    a = .plain (.int .int64 7) ∧ e = .plain (.int .int64 8) ∧ Idle w' 3 := by
  obtain ⟨xs, w', d', h1, h2, h3⟩ := c110_partial (D := pairs) (closeN pairs.peer 1) demo_idle (q := [65]) (l := [.query [] 1, .exec [], .query [] 9])
    (fun _ _ _ => pairs_wholesome (by decide)) (by
      intro a ha
      simp only [List.mem_cons, List.not_mem_nil, or_false] at ha
      rcases ha with rfl | rfl | rfl <;> exact ⟨[], rfl, demo_sendable [65] (by decide)⟩)
  obtain ⟨_, _, x, _, _, _, rfl, t1, _, _, z, _, _, _, rfl, t2, _, _, y, _, _, _, rfl, t3, rfl, rfl⟩ := h2
  cases x with
  | exec => exact t1.elim
  | query x =>
  cases y with
  | exec => exact t3.elim
  | query y =>
  cases z with
  | query => exact t2.elim
  | exec z =>
  obtain ⟨o1, rfl, f1⟩ := t1
  obtain ⟨o2, rfl, f2⟩ := t3
  cases t2
  cases f1 with
  | cons a1 f1 =>
    cases f1
    cases f2 with
    | cons a2 f2 =>
      cases f2 with
      | cons a3 f2 =>
        cases f2
        obtain ⟨k1, k2⟩ := a1
        obtain ⟨k3, k4⟩ := a2
        obtain ⟨k5, k6⟩ := a3
        obtain ⟨a, b, rfl⟩ := List.length_eq_two.1 k1
        obtain ⟨c, d, rfl⟩ := List.length_eq_two.1 k3
        obtain ⟨e, f, rfl⟩ := List.length_eq_two.1 k5
        obtain ⟨_, q1, q2⟩ := k2 0 _ rfl
        obtain ⟨_, q3, q4⟩ := k6 0 _ rfl
        cases q1; cases q3
        exact ⟨a, b, _, c, d, e, f, w', h1, q2.1 trivial, q4.1 trivial, h3⟩

/-- The answer that breaks off. -/
example : ∃ out e c c' w', sqlPrepared pairs.peer (closeN pairs.peer 1) [66] [.query [] 3] (freshConn 0 4096) = .ok (.ok ([.query (.ok (out, some e, some c))], some c')) w' ∧ e.innerMost = .failure [] ∧
    ∃ t, SqlCall.begin.run pairs.peer (closeN pairs.peer 1) w' = .ok (some (.new t)) w' := by
  obtain ⟨out, e, c, c', w', h1, h2, _, h4⟩ := c110_false (D := pairs) (closeN pairs.peer 1) demo_idle (q := [66]) (args := []) (kvs := []) rfl (demo_sendable [66] (by decide)) (fun _ => rfl)
    (m := 3) (by decide) pairs_scannable
  exact ⟨out, e, c, c', w', h1, h2, h4 .begin (.inl trivial)⟩

end Bolt
