import Verif.Model.SqlRows
import Verif.Props.SqlTx
import Verif.Props.Surface
import Verif.Proofs.QueryAll

/-!
# Rows under database/sql: C109
-/

namespace Bolt
open PackStream

variable {δ : Type} {D : DB δ} {n : Nat} {dial : Nat → Except GoErr (World (Srv δ))}

/-- The cells the user of `sql.Rows` should find for a record. -/
def CellsOf (vs : List Val) (cells : List DVal) : Prop :=
  cells.length = vs.length ∧ ∀ (j : Nat) (v : Val), vs[j]? = some v → ∃ c, cells[j]? = some c ∧ CellOf v c

/-- The records of an answer fit its columns and are made of values that survive the conversion. -/
def Scannable (hd : KVs) (rs : List (List Val)) : Prop := ∀ vs ∈ rs, vs.length = (columns hd).length ∧ ∀ v ∈ vs, Storable v

theorem sqlLoop_records (close : M (Srv δ) (Option GoErr)) (r : Nat) (k : Nat) (f : Nat) (t : List Item) (rs : List (List Val)) :
    ∀ (w : World (Srv δ)) (dest : List DVal) (out : List (List DVal)),
    (w.row r).closed = false → (w.row r).consumed = true → (w.stmt (w.row r).stmt).conn = true → dest.length = k →
    (∀ vs ∈ rs, vs.length = k ∧ ∀ v ∈ vs, Storable v) → w.inbox = (rs.map Val.record).map Item.val ++ t →
    ∃ dest' more, List.Forall₂ CellsOf rs more ∧ sqlLoop D.peer close r (rs.length + f) dest out w =
      sqlLoop D.peer close r f dest' (out ++ more) (w.net w.sink w.srv t (w.log ++ gotRecords rs)) := by
  induction rs with
  | nil =>
    intro w dest out _ _ _ _ _ hi
    simp only [List.map_nil, List.nil_append] at hi
    exact ⟨dest, [], .nil, by simp [← hi, World.net, gotRecords]⟩
  | cons vs rs ih =>
    intro w dest out h1 h2 h3 hd hrs hi
    have h4 := nextNeo_record D.peer close h1 h2 h3 (t := (rs.map Val.record).map Item.val ++ t) (by simpa using hi)
    simp only [List.forall_mem_cons] at hrs
    obtain ⟨cells, h5, h6, h7, _⟩ := (c61_next_partial D.peer close r dest w _).1 vs none h4 (by omega) hrs.1.2
    obtain ⟨dest', more, h8, h9⟩ := ih (w.net w.sink w.srv ((rs.map Val.record).map Item.val ++ t) (w.log ++ [Event.recv (Item.val (Val.record vs))]))
      cells (out ++ [cells]) h1 h2 h3 (h6.trans hd) hrs.2 rfl
    refine ⟨dest', cells :: more, .cons ⟨by omega, h7⟩ h8, ?_⟩
    rw [show (vs :: rs).length + f = (rs.length + f) + 1 by simp; omega, sqlLoop, mbind_ok h5]
    simp only []
    rw [h9]
    simp [World.net, gotRecords]

/-- C109 with an honest server, any database, any statement with arguments that are maps, any number of records read: `DB.Query` and the loop over
its rows on an idle connection. The server executes the statement once. When it refuses, the error is the failure and the connection is idle again. When
its answer has a summary the user finds the records, in order, and the connection is idle again, also when the rows were left early. When
its answer breaks off the user finds the records before the failure, and it is returned by `sql.Rows.Err` when they read to the end,
by `sql.Rows.Close` otherwise; the connection goes back with its statement open. -/
theorem c109_rows_partial {db : Db (Srv δ)} {w : World (Srv δ)} {rest : List (World (Srv δ))} {d : δ} (hf : db.free = w :: rest) (h : Idle w d)
    {q : Str} {args : List DVal} {kvs : KVs} (ha : driverArgsToMap args = .ok kvs) (hs : Sendable w.chunkSize (.run q kvs)) (m : Nat) :
    ∃ ps, MeansKVs kvs ps ∧
      match (D.exec d q ps).2 with
      | .refused md => ∃ e w', db.rows D.peer n dial q args m = some (.error e, { db with free := rest ++ [w'], tries := db.tries ++ [⟨w, w'⟩] }) ∧
          e.innerMost = .failure md ∧ Idle w' (D.exec d q ps).1
      | .answer hd rs (.summary _) => Scannable hd (rs.take m) → ∃ out w1 w', List.Forall₂ CellsOf (rs.take m) out ∧
          db.rows D.peer n dial q args m = some (.ok (out, none, none), { db with free := rest ++ [w'], tries := db.tries ++ [⟨w, w1⟩, ⟨w1, w'⟩] }) ∧
          Idle w' (D.exec d q ps).1
      | .answer hd rs (.broken md) => Scannable hd (rs.take m) → ∃ out e c w1 w', List.Forall₂ CellsOf (rs.take m) out ∧
          (if m ≤ rs.length then e = none ∧ c.innerMost = .failure md else ∃ x, e = some x ∧ x.innerMost = .failure md) ∧
          db.rows D.peer n dial q args m = some (.ok (out, e, some c), { db with free := rest ++ [w'], tries := db.tries ++ [⟨w, w1⟩, ⟨w1, w'⟩] }) ∧
          Synced w' (D.exec d q ps).1 .ready ∧ w'.transaction = none ∧ w'.statement = some w.stmts.length := by
  obtain ⟨ps, h6, h7⟩ := queryNeo_ok D (closeN D.peer n) h.live h.synced.inbox h.statement (q := q) (kvs := kvs) hs
  refine ⟨ps, h6, ?_⟩
  rcases hx : D.exec d q ps with ⟨d', o⟩
  rw [hx] at h7
  cases o with
  | refused md =>
    obtain ⟨b, l, hb, h8⟩ := h7
    have h9 : ∀ w', queryNeo D.peer (closeN D.peer n) q kvs w = .ok (.error (queryErr md)) w' →
        db.rows D.peer n dial q args m = some (.error (queryErr md), { db with free := rest ++ [w'], tries := db.tries ++ [⟨w, w'⟩] }) := by
      intro w' h8
      unfold Db.rows
      rw [call_one hf (run_query ha h8) rfl]
      rfl
    exact ⟨_, _, h9 _ h8, rfl, ⟨h.synced.closed, rfl, rfl, rfl⟩, h.statement, h.transaction, h.chunk⟩
  | answer hd rs e =>
    obtain ⟨b, l, hb, h8⟩ := h7
    have hc := call_one (n := n) (dial := dial) hf (run_query ha h8) rfl
    generalize hw1 : ({ w.net ⟨w.sink.out ++ b, none⟩ ⟨d', e.reply.1, []⟩ ((rs.map Val.record ++ e.reply.2).map Item.val) (w.log ++ l) with
              stmts := w.stmts ++ [{ query := q, queries := [], conn := true, closed := false, rows := some w.rows.length }]
              rows := w.rows ++ [directRow hd w.stmts.length]
              statement := some w.stmts.length } : World (Srv δ)) = w1 at hc
    have rl : w1.rows.length - 1 = w.rows.length := by subst hw1; simp
    have r1 : w1.rows[w.rows.length]? = some (directRow hd w.stmts.length) := by subst hw1; simp
    have s1 : w1.stmts[w.stmts.length]? = some { query := q, queries := [], conn := true, closed := false, rows := some w.rows.length } := by
      subst hw1; simp
    have e1 := row_of r1
    have e1s : (w1.stmt (w1.row w.rows.length).stmt).conn = true := by
      rw [e1, show (directRow hd w.stmts.length).stmt = w.stmts.length from rfl, stmt_of s1]
    have hrow : ∀ x w', sqlLoop D.peer (closeN D.peer n) w.rows.length m (List.replicate (columns hd).length (.plain .nil)) [] w1 = .ok x w' →
        isErrBadConn x.2.2 = false →
        db.rows D.peer n dial q args m = some (.ok x, { db with free := rest ++ [w'], tries := db.tries ++ [⟨w, w1⟩, ⟨w1, w'⟩] }) := by
      intro x w' hl hb
      have hr : sqlRows D.peer (closeN D.peer n) m (w1.rows.length - 1) w1 = .ok x w' := by
        unfold sqlRows
        simp only [get_bind, rl, e1]
        exact hl
      unfold Db.rows
      rw [hc]
      simp [exceptErr, SqlCall.keeps, hr, hb]
    have c1 : (w1.row w.rows.length).closed = false := by rw [e1]; rfl
    have p1 : (w1.row w.rows.length).consumed = true := by rw [e1]; rfl
    have f1 : (w1.row w.rows.length).finished = false := by rw [e1]; rfl
    have n1 : numConsume (w1.stmt (w1.row w.rows.length).stmt).queries.length (w1.row w.rows.length).idx = (1 : Nat) := by
      rw [e1, show (directRow hd w.stmts.length).stmt = w.stmts.length from rfl, stmt_of s1]; rfl
    have plain : ∀ v ∈ (rs.drop m).map Val.record, Item.isPlain (.val v) = true := by
      intro v hv
      obtain ⟨x, _, rfl⟩ := List.mem_map.1 hv
      rfl
    have hin : w1.inbox = ((rs.take m).map Val.record).map Item.val ++ (((rs.drop m).map Val.record).map Item.val ++ e.reply.2.map Item.val) := by
      rw [← List.append_assoc, ← List.map_append, ← List.map_append, ← List.map_append, List.take_append_drop]
      subst hw1
      rfl
    have live : Live w1 d' e.reply.1 := by subst hw1; exact ⟨h.synced.closed, rfl, rfl, h.chunk⟩
    have tx : w1.transaction = none := by subst hw1; exact h.transaction
    have sv : w1.srv = ⟨d', e.reply.1, []⟩ := by subst hw1; rfl
    have so : w1.statement = some w.stmts.length := by subst hw1; rfl
    have bd : w1.sink.budget = none := by subst hw1; rfl
    by_cases hm : m ≤ rs.length
    · have ht : (rs.take m).length + 0 = m := by simp [hm]
      cases e with
      | summary md =>
        intro hsc
        obtain ⟨dest', out, h9, h10⟩ := sqlLoop_records (D := D) (closeN D.peer n) w.rows.length (columns hd).length 0 _ (rs.take m) w1
          (List.replicate (columns hd).length (.plain .nil)) [] c1 p1 e1s (by simp) hsc hin
        rw [ht] at h10
        generalize hw2 : w1.net w1.sink w1.srv _ (w1.log ++ gotRecords (rs.take m)) = w2 at h10
        obtain ⟨l3, h11⟩ := consumeAllMultiple_ok D.peer (closeN D.peer n) [((rs.drop m).map Val.record, md)] []
          (fun g hg => by rw [List.mem_singleton.1 hg]; exact plain) w2 (by subst hw2; simp [group, Ending.reply, World.net])
        have h12 := rowsDrain_pulled D.peer (closeN D.peer n) (w := w2) (r := w.rows.length) (by subst hw2; exact p1) (by subst hw2; exact f1)
          (by subst hw2; exact e1s) (n := 1) (by subst hw2; exact n1) h11
        have h13 := rowsClose_direct D.peer (closeN D.peer n) (w := w2) (x := directRow hd w.stmts.length) (s := w.stmts.length) (by subst hw2; exact r1) rfl h12
          (by subst hw2; exact r1) rfl rfl (y := _) (by subst hw2; exact s1) rfl rfl
        refine ⟨out, w1, _, h9, hrow (out, none, none) _ (h10.trans ((mbind_ok h13).trans rfl)) rfl, ?_⟩
        subst hw2
        exact ⟨⟨live.closed, rfl, sv, bd⟩, rfl, tx, live.cs⟩
      | broken md =>
        intro hsc
        obtain ⟨dest', out, h9, h10⟩ := sqlLoop_records (D := D) (closeN D.peer n) w.rows.length (columns hd).length 0 _ (rs.take m) w1
          (List.replicate (columns hd).length (.plain .nil)) [] c1 p1 e1s (by simp) hsc hin
        rw [ht] at h10
        generalize hw2 : w1.net w1.sink w1.srv _ (w1.log ++ gotRecords (rs.take m)) = w2 at h10
        obtain ⟨b3, l3, _, h11⟩ := consumeAllMultiple_failure D (closeN D.peer n) [] (by simp) ((rs.drop m).map Val.record) plain md 0 0 d' w2
          (by subst hw2; exact ⟨live.closed, sv, bd, live.cs⟩) (by subst hw2; simp [Ending.reply, World.net])
        have h12 := rowsDrain_pulled D.peer (closeN D.peer n) (w := w2) (r := w.rows.length) (by subst hw2; exact p1) (by subst hw2; exact f1)
          (by subst hw2; exact e1s) (n := 1) (by subst hw2; exact n1) h11
        have h13 := rowsClose_fail D.peer (closeN D.peer n) (by subst hw2; exact c1) h12
        simp only [if_pos hm]
        refine ⟨out, none, .wrap "An error occurred clearing out unconsumed stream" (some (queryErr md)), w1, _, h9, ⟨rfl, rfl⟩,
          hrow (out, none, some _) _ (h10.trans ((mbind_ok h13).trans rfl)) rfl, ?_⟩
        subst hw2
        exact ⟨⟨live.closed, rfl, rfl, rfl⟩, tx, so⟩
    · obtain ⟨k, rfl⟩ : ∃ k, m = rs.length + (k + 1) := ⟨m - rs.length - 1, by omega⟩
      have tk : rs.take (rs.length + (k + 1)) = rs := List.take_of_length_le (by omega)
      have dr : rs.drop (rs.length + (k + 1)) = [] := List.drop_of_length_le (by omega)
      rw [tk, dr, List.map_nil, List.map_nil, List.nil_append] at hin
      cases e with
      | summary md =>
        simp only [tk]
        intro hsc
        obtain ⟨dest', out, h9, h10⟩ := sqlLoop_records (D := D) (closeN D.peer n) w.rows.length (columns hd).length (k + 1) _ rs w1
          (List.replicate (columns hd).length (.plain .nil)) [] c1 p1 e1s (by simp) hsc hin
        have h11 := nextNeo_end D.peer (closeN D.peer n) (w := w1.net w1.sink w1.srv [.val (.success md)] (w1.log ++ gotRecords rs)) (md := md) (t := []) c1 p1 e1s rfl
        have h12 := (c61_next_partial D.peer (closeN D.peer n) w.rows.length dest' _ _).2 _ _ _ h11
        generalize hw2 : (((w1.net w1.sink w1.srv [.val (.success md)] (w1.log ++ gotRecords rs)).net _ _ [] _).setRow w.rows.length fun x => { x with finished := true }) = w2 at h12
        have r2 : w2.rows[w.rows.length]? = some { directRow hd w.stmts.length with finished := true } := by
          subst hw2; exact row_setRow (w := (w1.net _ _ _ _).net _ _ _ _) r1
        have s2 : w2.stmts[w.stmts.length]? = some { query := q, queries := [], conn := true, closed := false, rows := some w.rows.length } := by
          subst hw2; exact s1
        have e2 := row_of r2
        have h13 := rowsDrain_finished D.peer (closeN D.peer n) (w := w2) (r := w.rows.length) (by rw [e2]; rfl) (by rw [e2])
        have h14 := rowsClose_direct D.peer (closeN D.peer n) r2 rfl h13 r2 rfl rfl s2 rfl rfl
        refine ⟨out, w1, _, h9, hrow (out, none, none) ((w2.rowsDone w.rows.length).stmtDone w.stmts.length) ?_ rfl, ?_⟩
        · rw [h10, sqlLoop]
          refine (mbind_ok h12).trans ?_
          simp only []
          exact (mbind_ok h14).trans rfl
        · subst hw2
          exact ⟨⟨live.closed, rfl, sv, bd⟩, rfl, tx, live.cs⟩
      | broken md =>
        simp only [tk]
        intro hsc
        obtain ⟨dest', out, h9, h10⟩ := sqlLoop_records (D := D) (closeN D.peer n) w.rows.length (columns hd).length (k + 1) _ rs w1
          (List.replicate (columns hd).length (.plain .nil)) [] c1 p1 e1s (by simp) hsc hin
        have hl : Live (w1.net w1.sink w1.srv [.val (.failure md)] (w1.log ++ gotRecords rs)) d' .failed := ⟨live.closed, sv, bd, live.cs⟩
        obtain ⟨b2, l2, hb2, h11⟩ := hl.consume_failure D (closeN D.peer n) (md := md) (n := 0) rfl
        have h11 := nextNeo_err D.peer (closeN D.peer n) (w := w1.net w1.sink w1.srv [.val (.failure md)] (w1.log ++ gotRecords rs)) c1 p1 e1s h11
        have h12 := (c61_next_partial D.peer (closeN D.peer n) w.rows.length dest' _ _).2 _ _ _ h11
        generalize hw2 : ((w1.net w1.sink w1.srv [.val (.failure md)] (w1.log ++ gotRecords rs)).net _ _ _ _) = w2 at h12
        have l2' : Live w2 d' .ready := by subst hw2; exact ⟨hl.closed, rfl, rfl, hl.cs⟩
        have h13 : consumeAllMultiple D.peer (closeN D.peer n) 1 w2 = .ok (some (readErr .badConn)) w2.timedOut := by
          unfold consumeAllMultiple
          rw [mbind_ok (consumeAll_blocked D (closeN D.peer n) l2' (by simp) (by subst hw2; rfl))]
          rfl
        have h14 := rowsDrain_pulled D.peer (closeN D.peer n) (w := w2) (r := w.rows.length) (by subst hw2; exact p1) (by subst hw2; exact f1)
          (by subst hw2; exact e1s) (n := 1) (by subst hw2; exact n1) h13
        have h15 := rowsClose_fail D.peer (closeN D.peer n) (by subst hw2; exact c1) h14
        simp only [if_neg hm]
        refine ⟨out, some (queryErr md), _, w1, _, h9, ⟨_, rfl, rfl⟩,
          hrow (out, some (queryErr md), some (.wrap "An error occurred clearing out unconsumed stream" (some (readErr .badConn)))) w2.timedOut ?_ rfl, ?_⟩
        · rw [h10, sqlLoop]
          refine (mbind_ok h12).trans ?_
          simp only []
          exact (mbind_ok h15).trans rfl
        · subst hw2
          exact ⟨⟨live.closed, rfl, rfl, rfl⟩, tx, so⟩

/-- A call of `database/sql` on a connection with an open statement fails, and nothing is sent. -/
theorem blocked_call {σ : Type} {P : Peer σ} {close : M σ (Option GoErr)} {w : World σ} {s : Nat} (hs : w.statement = some s) (ht : w.transaction = none)
    {c : SqlCall} (hc : c.sends ∨ ∃ q, c = .prepare q) : ∃ m, c.run P close w = .ok (some (.new m)) w := by
  have hg : guardConn w = .ok (some (.new "An open statement already exists")) w := by simp [guardConn, hs]
  cases c with
  | exec q args => exact ⟨_, run_exec (r := .error (.new _)) ((mbind_ok hg).trans rfl)⟩
  | query q args =>
    rcases hc with ⟨kvs, ha⟩ | ⟨q', h⟩
    · exact ⟨_, run_query (r := .error (.new _)) ha ((mbind_ok hg).trans rfl)⟩
    · cases h
  | prepare q => exact ⟨_, run_prepare (r := .error (.new _)) ((mbind_ok hg).trans rfl)⟩
  | begin =>
    refine ⟨_, run_begin (r := .error (.new "Cannot open a transaction when you already have an open statement")) ?_⟩
    unfold begin_
    refine (mbind_ok (show M.get (fun w : World σ => w.transaction) w = .ok none w by rw [get_run, ht])).trans ?_
    exact (mbind_ok (show M.get (fun w : World σ => w.statement) w = .ok (some s) w by rw [get_run, hs])).trans rfl

/-- Any number of them, when it is the only idle connection: none opens another. -/
theorem blocked_calls {σ : Type} {P : Peer σ} {dial : Nat → Except GoErr (World σ)} {w : World σ} {s : Nat} (hs : w.statement = some s) (ht : w.transaction = none) :
    ∀ (cs : List SqlCall) {db : Db σ}, db.free = [w] → (∀ c ∈ cs, c.sends ∨ ∃ q, c = .prepare q) →
    ∃ es db', db.calls P n dial cs = some (es, db') ∧ es.length = cs.length ∧ (∀ e ∈ es, e ≠ none) ∧ db'.opened = db.opened ∧ db'.free = [w] := by
  intro cs
  induction cs with
  | nil => exact fun hf _ => ⟨[], _, rfl, rfl, by simp, rfl, hf⟩
  | cons c cs ih =>
    intro db hf hc
    simp only [List.forall_mem_cons] at hc
    obtain ⟨m, h1⟩ := blocked_call (P := P) (close := closeN P n) hs ht hc.1
    have h2 := call_error (dial := dial) hf h1 rfl
    obtain ⟨es, db', h3, h4, h5, h6, h7⟩ := ih (db := { db with free := [] ++ [w], tries := db.tries ++ [⟨w, w⟩] }) rfl hc.2
    refine ⟨some (.new m) :: es, db', ?_, by simp [h4], by simpa using h5, h6, h7⟩
    unfold Db.calls
    rw [h2]
    simp only [h3]

/-- C109 is false, any database: when the answer of a statement breaks off, `sql.Rows.Err` returns the failure to a user who reads to the end, but the connection goes back to
the idle ones with its statement open, and from then on every call of `sql.DB` fails, however many there are; nothing is sent and no connection is opened. -/
theorem c109_false {db : Db (Srv δ)} {w : World (Srv δ)} {d : δ} (hf : db.free = [w]) (h : Idle w d)
    {q : Str} {args : List DVal} {kvs : KVs} (ha : driverArgsToMap args = .ok kvs) (hs : Sendable w.chunkSize (.run q kvs))
    {md hd : KVs} {rs : List (List Val)} (hx : ∀ ps, (D.exec d q ps).2 = .answer hd rs (.broken md)) (m : Nat) (hsc : Scannable hd (rs.take m)) :
    ∃ out e c db1 w', db.rows D.peer n dial q args m = some (.ok (out, e, some c), db1) ∧ (rs.length < m → ∃ x, e = some x ∧ x.innerMost = .failure md) ∧ db1.free = [w'] ∧
      ∀ cs : List SqlCall, (∀ c ∈ cs, c.sends ∨ ∃ q, c = .prepare q) → ∃ es db2, db1.calls D.peer n dial cs = some (es, db2) ∧ es.length = cs.length ∧
        (∀ e ∈ es, e ≠ none) ∧ db2.opened = db.opened ∧ db2.free = [w'] := by
  obtain ⟨ps, _, h2⟩ := c109_rows_partial (D := D) (n := n) (dial := dial) hf h ha hs m
  rw [hx ps] at h2
  obtain ⟨out, e, c, w1, w', _, h4, h5, _, h7, h8⟩ := h2 hsc
  exact ⟨out, e, c, _, w', h5, fun hm => by rwa [if_neg (by omega)] at h4, rfl, fun cs hc => blocked_calls h8 h7 cs rfl hc⟩

/-- A database whose answers have two records of an integer and a list; the answer to `[66]` breaks off after them. -/
def pairs : DB Nat where
  exec d q _ := (d + 1, .answer [(kFields, .list [.str [120], .str [121]])] [[.int .int64 7, .list [.int .int64 1]], [.int .int64 8, .nil]]
    (if q = [66] then .broken [] else .summary []))

theorem pairs_scannable : Scannable [(kFields, .list [.str [120], .str [121]])] [[.int .int64 7, .list [.int .int64 1]], [.int .int64 8, .nil]] := by
  have i : ∀ n, IsInt64 n → Storable (.int .int64 n) := fun n h => ⟨by simpa [Val.Received, Val.All, Val.ReceivedHere, Val.sizes, Val.TypedHere] using h, .inl trivial⟩
  intro vs hvs
  simp only [List.mem_cons, List.not_mem_nil, or_false] at hvs
  rcases hvs with rfl | rfl <;> refine ⟨rfl, fun v hv => ?_⟩ <;> simp only [List.mem_cons, List.not_mem_nil, or_false] at hv <;> rcases hv with rfl | rfl
  · exact i 7 (by unfold IsInt64; decide)
  · refine ⟨?_, .inr ⟨trivial, ?_, ?_⟩⟩
    · simp [Val.Received, Val.All, Val.AllList, Val.ReceivedHere, Val.sizes, IsInt64, Val.TypedHere]
    · simp [Val.SmallSizes, Val.Sizes, Val.All, Val.AllList, Val.SizesHere, Val.sizes, SizeOK]
    · simp [Val.StringsLe, Val.All, Val.AllList, Val.ownStrings]
  · exact i 8 (by unfold IsInt64; decide)
  · exact ⟨by simp [Val.Received, Val.All, Val.ReceivedHere, Val.sizes, Val.TypedHere], .inl trivial⟩

example : ∃ a b c e w1 w', (⟨[freshConn 0 4096], 1, []⟩ : Db (Srv Nat)).rows pairs.peer 1 (fun _ => .error .eof) [65] [] 5 =
      some (.ok ([[a, b], [c, e]], none, none), ⟨[w'], 1, [⟨freshConn 0 4096, w1⟩, ⟨w1, w'⟩]⟩) ∧
    a = .plain (.int .int64 7) ∧ (∃ x, b = .bytes x ∧ unmarshal x = .ok (.list [.int .int64 1])) ∧ c = .plain (.int .int64 8) ∧ e = .plain .nil ∧ Idle w' 1 := by
  obtain ⟨ps, _, h⟩ := c109_rows_partial (D := pairs) (n := 1) (dial := fun _ => .error .eof) (db := ⟨[freshConn 0 4096], 1, []⟩) rfl demo_idle (q := [65]) (args := []) (kvs := []) rfl
    (demo_sendable [65] (by decide)) 5
  obtain ⟨out, w1, w', h1, h2, h3⟩ := h pairs_scannable
  cases h1 with
  | cons a1 h1 =>
    cases h1 with
    | cons a2 h1 =>
      cases h1
      rename_i x y
      obtain ⟨k1, k2⟩ := a1
      obtain ⟨k3, k4⟩ := a2
      obtain ⟨a, b, rfl⟩ := List.length_eq_two.1 k1
      obtain ⟨c, e, rfl⟩ := List.length_eq_two.1 k3
      obtain ⟨_, q1, q2⟩ := k2 0 _ rfl
      obtain ⟨_, q3, q4⟩ := k2 1 _ rfl
      obtain ⟨_, q5, q6⟩ := k4 0 _ rfl
      obtain ⟨_, q7, q8⟩ := k4 1 _ rfl
      cases q1; cases q3; cases q5; cases q7
      exact ⟨a, b, c, e, w1, w', h2, q2.1 trivial, q4.2 trivial, q6.1 trivial, q8.1 trivial, h3⟩

/-- The answer that breaks off. -/
example : ∃ out e c db1, (⟨[freshConn 0 4096], 1, []⟩ : Db (Srv Nat)).rows pairs.peer 1 (fun _ => .ok (freshConn 0 4096)) [66] [] 3 = some (.ok (out, some e, some c), db1) ∧
    e.innerMost = .failure [] ∧ ∃ es db2, db1.calls pairs.peer 1 (fun _ => .ok (freshConn 0 4096)) [.exec [65] [], .begin, .query [65] [], .prepare [65]] = some (es, db2) ∧
      (∀ x ∈ es, x ≠ none) ∧ db2.opened = 1 := by
  obtain ⟨out, e, c, db1, w', h1, h2', _, h4⟩ := c109_false (D := pairs) (n := 1) (dial := fun _ => .ok (freshConn 0 4096)) (db := ⟨[freshConn 0 4096], 1, []⟩) rfl demo_idle
    (q := [66]) (args := []) (kvs := []) rfl (demo_sendable [66] (by decide)) (fun _ => rfl) 3 pairs_scannable
  obtain ⟨e, rfl, h2⟩ := h2' (by decide)
  obtain ⟨es, db2, h5, _, h7, h8, _⟩ := h4 [.exec [65] [], .begin, .query [65] [], .prepare [65]] (by
    intro c hc
    simp only [List.mem_cons, List.not_mem_nil, or_false] at hc
    rcases hc with rfl | rfl | rfl | rfl
    · exact .inl ⟨[], rfl⟩
    · exact .inl trivial
    · exact .inl ⟨[], rfl⟩
    · exact .inr ⟨_, rfl⟩)
  exact ⟨out, e, c, db1, h1, h2, es, db2, h5, h7, h8⟩

end Bolt
