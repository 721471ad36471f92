import Verif.Model.SqlTx
import Verif.Props.Retry
import Verif.Props.Session4
import Verif.Proofs.Executable

/-!
# Transactions under database/sql: C108
-/

namespace Bolt
open PackStream

variable {δ : Type} {D : DB δ} {n : Nat} {dial : Nat → Except GoErr (World (Srv δ))}

/-- The database executing queries one after the other, those after a failed one as well. -/
def DB.runEach (D : DB δ) (d : δ) : List (Str × List (Str × PS)) → δ × List Outcome
  | [] => (d, [])
  | (q, ps) :: rest =>
    let t := D.runEach (D.exec d q ps).1 rest
    (t.1, (D.exec d q ps).2 :: t.2)

/-- What the caller of Exec should get: the summary, or an error whose cause is the failure. -/
def Outcome.Told : Outcome → Except GoErr KVs → Prop
  | .answer _ _ (.summary md), r => r = .ok md
  | .answer _ _ (.broken md), r => ∃ e, r = .error e ∧ e.innerMost = .failure md
  | .refused md, r => ∃ e, r = .error e ∧ e.innerMost = .failure md

/-- One result for each query. -/
def AllTold : List Outcome → List (Except GoErr KVs) → Prop
  | [], rs => rs = []
  | o :: os, rs => ∃ r rs', rs = r :: rs' ∧ o.Told r ∧ AllTold os rs'

/-- The statements of the caller, with the parameters their arguments stand for (C58); messages that the encoder delivers. -/
def Given (cs : Nat) : List (Str × List DVal) → List (Str × KVs) → Prop
  | [], l => l = []
  | (q, args) :: rest, l => ∃ kvs l', l = (q, kvs) :: l' ∧ driverArgsToMap args = .ok kvs ∧ Sendable cs (.run q kvs) ∧ Given cs rest l'

/-- Statements on an idle connection. -/
theorem txExecs_ok (close : M (Srv δ) (Option GoErr)) : ∀ {l : List (Str × List DVal)} {ks : List (Str × KVs)} {w : World (Srv δ)} {d : δ},
    Idle w d → Given w.chunkSize l ks →
    ∃ m rs w', MeansAll ks m ∧ txExecs D.peer close l w = .ok rs w' ∧ Idle w' (D.runEach d m).1 ∧ AllTold (D.runEach d m).2 rs ∧ w'.txs = w.txs
  | [], ks, w, d, h, hg => by
    cases (show ks = [] from hg)
    exact ⟨[], [], w, rfl, rfl, h, rfl, rfl⟩
  | (q, args) :: rest, ks, w, d, h, hg => by
    obtain ⟨kvs, l', rfl, ha, hs, hr⟩ := hg
    obtain ⟨ps, b, l, res, h1, h2, h3, h4⟩ := exec_ok D close h.live h.synced.inbox h.statement hs
    obtain ⟨m, rs, w', k1, k2, k3, k4, k5⟩ := txExecs_ok close (l := rest) (ks := l')
      (w := { w.net ⟨w.sink.out ++ b, none⟩ ⟨(D.exec d q ps).1, .ready, []⟩ []
          (w.log ++ [.send (.run q kvs) none, .send .pullAll none] ++ l) with
          stmts := w.stmts ++ [{ query := q, queries := [], conn := false, closed := true, rows := none }] })
      (d := (D.exec d q ps).1) ⟨⟨h.synced.closed, rfl, rfl, rfl⟩, h.statement, h.transaction, h.chunk⟩ hr
    refine ⟨(q, ps) :: m, res :: rs, w', ⟨ps, m, h1, k1, rfl⟩, ?_, k3, ⟨res, rs, rfl, ?_, k4⟩, k5⟩
    · unfold txExecs
      refine (mbind_ok (a := res) ?_).trans ((mbind_ok k2).trans rfl)
      rw [sqlExec_ok ha]
      exact h4
    · cases ho : (D.exec d q ps).2 with
      | refused md => rw [ho] at h3; exact h3
      | answer hd rs e => cases e <;> (rw [ho] at h3; exact h3)

/-- One call on an idle connection, which is then kept or put back. -/
theorem call_one {σ : Type} {P : Peer σ} {dial : Nat → Except GoErr (World σ)} {c : SqlCall} {d : Db σ} {w w' : World σ} {rest : List (World σ)} {e : Option GoErr} (hf : d.free = w :: rest)
    (h : c.run P (closeN P n) w = .ok e w') (he : isErrBadConn e = false) :
    d.call P n dial c = some (e, { d with free := if e.isNone && c.keeps then rest else rest ++ [w'], tries := d.tries ++ [⟨w, w'⟩] }) := by
  have h1 : d.attempt P n dial c false = some (e, { d with free := if e.isNone && c.keeps then rest else rest ++ [w'], tries := d.tries ++ [⟨w, w'⟩] }) := by
    unfold Db.attempt
    rw [hf]
    simp only [Db.on, h, he, Bool.false_or]
    split <;> rfl
  unfold Db.call
  rw [h1]
  simp only [retrying, he]
  rfl

/-- A command that fails on an idle connection. -/
theorem begin_fails (close : M (Srv δ) (Option GoErr)) {w : World (Srv δ)} {d : δ} (h : Idle w d) {md : KVs} (hf : (D.exec d txBegin []).2.failure? = some md) (hquiet : (D.exec d txBegin []).2.isQuiet = true) :
    ∃ e w', begin_ D.peer close w = .ok (.error e) w' ∧ e.innerMost = .failure md ∧ e ≠ .badConn ∧ Idle w' (D.exec d txBegin []).1 := by
  simp only [show txBegin = qBegin from rfl] at *
  have hqu : (D.exec d qBegin []).2.quiet := by
    cases ho : (D.exec d qBegin []).2 with
    | refused md => trivial
    | answer hd rs e => rw [ho] at hquiet; simpa [Outcome.quiet, Outcome.isQuiet] using hquiet
  obtain ⟨b, l, h1, run, pull, err, h2, h3⟩ := runSingle_ok D close h.live h.synced.inbox (q := qBegin) (by decide) hqu
  have he : err = some (queryErr md) := by
    cases ho : (D.exec d qBegin []).2 with
    | refused md' => rw [ho] at h3 hf; cases hf; exact h3
    | answer hd rs e =>
      cases e with
      | broken md' => rw [ho] at h3 hf; cases hf; exact h3
      | summary md' => rw [ho] at hf; cases hf
  subst he
  refine ⟨.wrap "An error occurred beginning transaction" (some (queryErr md)), w.net ⟨w.sink.out ++ b, none⟩ ⟨(D.exec d qBegin []).1, .ready, []⟩ [] (w.log ++ l),
    ?_, rfl, (fun h => by cases h), ⟨⟨h.synced.closed, rfl, rfl, rfl⟩, h.statement, h.transaction, h.chunk⟩⟩
  unfold begin_
  simp only [get_bind, h.transaction, h.statement, h.synced.closed, Option.isSome_none, Bool.false_eq_true, if_false]
  rw [mbind_ok h2]
  rfl

/-- A command that succeeds on an idle connection. -/
theorem begin_done (close : M (Srv δ) (Option GoErr)) {w : World (Srv δ)} {d : δ} (h : Idle w d) (hf : (D.exec d txBegin []).2.failure? = none) (hquiet : (D.exec d txBegin []).2.isQuiet = true) :
    ∃ w', begin_ D.peer close w = .ok (.ok w.txs.length) w' ∧ Idle w' (D.exec d txBegin []).1 ∧ w'.txs = w.txs ++ [false] ∧ w'.chunkSize = w.chunkSize := by
  simp only [show txBegin = qBegin from rfl] at *
  have hqu : (D.exec d qBegin []).2.quiet := by
    cases ho : (D.exec d qBegin []).2 with
    | refused md => trivial
    | answer hd rs e => rw [ho] at hquiet; simpa [Outcome.quiet, Outcome.isQuiet] using hquiet
  obtain ⟨b, l, h1, run, pull, err, h2, h3⟩ := runSingle_ok D close h.live h.synced.inbox (q := qBegin) (by decide) hqu
  cases ho : (D.exec d qBegin []).2 with
  | refused md => rw [ho] at hf; cases hf
  | answer hd rs e =>
    cases e with
    | broken md => rw [ho] at hf; cases hf
    | summary md =>
      rw [ho] at h3
      obtain ⟨rfl, rfl, rfl⟩ := h3
      refine ⟨{ w.net ⟨w.sink.out ++ b, none⟩ ⟨(D.exec d qBegin []).1, .ready, []⟩ [] (w.log ++ l) with txs := w.txs ++ [false] }, ?_,
        ⟨⟨h.synced.closed, rfl, rfl, rfl⟩, h.statement, h.transaction, h.chunk⟩, rfl, rfl⟩
      unfold begin_
      simp only [get_bind, h.transaction, h.statement, h.synced.closed, Option.isSome_none, Bool.false_eq_true, if_false]
      rw [mbind_ok h2]
      rfl

/-- What the caller of Commit or Rollback should get: nothing, or an error whose cause is the failure. -/
def Outcome.EndTold (o : Outcome) (e : Option GoErr) : Prop :=
  (o.failure? = none → e = none) ∧ ∀ md, o.failure? = some md → ∃ x, e = some x ∧ x.innerMost = .failure md

theorem endTold_of {o : Outcome} {e : Option GoErr} (h : errRes e = o.cmdRes) : o.EndTold e := by
  have fails : ∀ {md}, errRes e = .failure md → ∃ x, e = some x ∧ x.innerMost = .failure md := by
    intro md h
    cases e with
    | none => cases h
    | some x => exact ⟨x, rfl, c28_res.mp h⟩
  have done : errRes e = .done → e = none := by
    intro h
    cases e with
    | none => rfl
    | some x =>
      simp only [errRes, GoErr.res] at h
      split at h <;> cases h
  cases o with
  | refused md => exact ⟨fun h => (by cases h), fun _ hm => by cases hm; exact fails h⟩
  | answer hd rs en =>
    cases en with
    | broken md => exact ⟨fun h => (by cases h), fun _ hm => by cases hm; exact fails h⟩
    | summary md => exact ⟨fun _ => done h, fun _ hm => by cases hm⟩

/-- The text of the command that ends a transaction. -/
def txEnd (commits : Bool) : Str := if commits then txCommit else txRollback

/-- C108: any database, any statements with arguments that are maps, on an idle connection of `sql.DB`. When the database executes BEGIN,
it then executes the statements, in order and once each, and COMMIT or ROLLBACK, and nothing else; the caller gets the summary or the failure
of each statement, and of the end of the transaction. No other connection is used and the
connection is put back idle. When the database fails BEGIN, the caller gets this failure and nothing else is executed. -/
theorem c108_transaction_partial {db : Db (Srv δ)} {w : World (Srv δ)} {rest : List (World (Srv δ))} {d : δ} (hf : db.free = w :: rest) (h : Idle w d)
    (hb : (D.exec d txBegin []).2.isQuiet = true) {l : List (Str × List DVal)} {ks : List (Str × KVs)} (hg : Given w.chunkSize l ks) (commits : Bool) :
    (∀ md, (D.exec d txBegin []).2.failure? = some md → ∃ e w', db.tx D.peer n dial l commits = some (.error e, { db with free := rest ++ [w'], tries := db.tries ++ [⟨w, w'⟩] }) ∧
      e.innerMost = .failure md ∧ Idle w' (D.exec d txBegin []).1) ∧
    ((D.exec d txBegin []).2.failure? = none → ∃ m, MeansAll ks m ∧
      ((D.exec (D.runEach (D.exec d txBegin []).1 m).1 (txEnd commits) []).2.isQuiet = true →
        ∃ rs e w1 w2, db.tx D.peer n dial l commits = some (.ok (rs, e), { db with free := rest ++ [w2], tries := db.tries ++ [⟨w, w1⟩, ⟨w1, w2⟩] }) ∧
          Idle w2 (D.exec (D.runEach (D.exec d txBegin []).1 m).1 (txEnd commits) []).1 ∧ AllTold (D.runEach (D.exec d txBegin []).1 m).2 rs ∧
          (D.exec (D.runEach (D.exec d txBegin []).1 m).1 (txEnd commits) []).2.EndTold e)) := by
  constructor
  · intro md hmd
    obtain ⟨e, w', h1, h2, h3, h4⟩ := begin_fails (closeN D.peer n) h hmd hb
    have hx : isErrBadConn (some e) = false := by
      cases e <;> first | rfl | exact absurd rfl h3
    have hc := call_one (n := n) (dial := dial) (c := .begin) hf (e := some e) (w' := w') ((mbind_ok h1).trans rfl) hx
    refine ⟨e, w', ?_, h2, h4⟩
    unfold Db.tx
    rw [hc]
    rfl
  · intro hok
    obtain ⟨w1, h1, i1, t1, hcs⟩ := begin_done (closeN D.peer n) h hok hb
    obtain ⟨m, rs, w', k1, k2, k3, k4, k5⟩ := txExecs_ok (D := D) (closeN D.peer n) i1 (by rw [hcs]; exact hg)
    refine ⟨m, k1, fun hq => ?_⟩
    have ht : w'.txClosed (w1.txs.length - 1) = false := by
      unfold World.txClosed
      rw [k5, t1]
      simp
    have hcc : closeCurrent D.peer (closeN D.peer n) w' = .ok none w' := by
      unfold closeCurrent
      exact (mbind_ok (x := M.get fun w => w.statement) (a := none) (w' := w') (congrArg (fun x => Out.ok x w') k3.statement)).trans rfl
    obtain ⟨res, w2, e1, e2, e4⟩ := finish_quiet (q := txEnd commits) (by cases commits <;> exact Nat.le_of_ble_eq_true rfl) ht hcc k3.live k3.synced.inbox k3.statement k3.transaction hq
    have hend := endTold_of e2
    have hc := call_one (n := n) (dial := dial) (c := .begin) hf (e := none) (w' := w1) ((mbind_ok h1).trans rfl) rfl
    refine ⟨rs, res, w1, w2, ?_, e4, k4, hend⟩
    have hbody : txBody D.peer (closeN D.peer n) l commits (w1.txs.length - 1) w1 = .ok (rs, res) w2 := by
      unfold txBody
      refine (mbind_ok k2).trans ?_
      cases commits <;> exact (mbind_ok e1).trans rfl
    have hx : isErrBadConn res = false := by
      cases res with
      | none => rfl
      | some x =>
        have : x ≠ .badConn := by
          rintro rfl
          cases hfl : (D.exec (D.runEach (D.exec d txBegin []).1 m).1 (txEnd commits) []).2.failure? with
          | none => cases hend.1 hfl
          | some md =>
            obtain ⟨y, hy, hy'⟩ := hend.2 md hfl
            cases hy
            cases hy'
        cases x <;> first | rfl | exact absurd rfl this
    unfold Db.tx
    rw [hc]
    simp only [List.getLast?_append, List.getLast?_singleton, Option.some_or, hbody, hx, Option.isNone_none, SqlCall.keeps, Bool.and_self, if_true, Bool.false_eq_true, if_false, List.append_assoc, List.cons_append, List.nil_append]

/-- Two statements, the second refused, and COMMIT, on the demo database through `sql.DB`: four commands are executed. -/
example : ∃ e1 w1 w2, (⟨[freshConn 0 4096], 1, []⟩ : Db (Srv Nat)).tx demo.peer 1 (fun _ => .error .eof) [([65], []), ([82, 82], [])] true =
      some (.ok ([.ok [([115], .int .int64 1)], .error e1], none), ⟨[w2], 1, [⟨freshConn 0 4096, w1⟩, ⟨w1, w2⟩]⟩) ∧
    e1.innerMost = .failure [([114], .int .int64 2)] ∧ Idle w2 4 := by
  obtain ⟨m, hm, h⟩ := (c108_transaction_partial (D := demo) (n := 1) (dial := fun _ => .error .eof) (db := ⟨[freshConn 0 4096], 1, []⟩) rfl demo_idle rfl
    (l := [([65], []), ([82, 82], [])]) (ks := [([65], []), ([82, 82], [])])
    ⟨[], _, rfl, rfl, demo_sendable _ (by decide), [], _, rfl, rfl, demo_sendable _ (by decide), rfl⟩ true).2 rfl
  obtain ⟨_, _, rfl, ⟨_, _, rfl, rfl, rfl⟩, rfl⟩ := hm
  obtain ⟨rs, e, w1, w2, h1, h2, ⟨r, _, rfl, hr, r', _, rfl, ⟨e1, rfl, he1⟩, rfl⟩, h4⟩ := h rfl
  cases (show r = .ok [([115], .int .int64 1)] from hr)
  cases h4.1 rfl
  exact ⟨e1, w1, w2, h1, he1, h2⟩

/-- A transaction with a query whose rows the caller does not close, COMMIT, and afterwards another statement. -/
def unread (P : Peer (Srv Nat)) : M (Srv Nat) (Option GoErr × Option GoErr × Option GoErr × Nat × Option GoErr) := do
  let a ← SqlCall.run P (closeN P 1) .begin
  let b ← SqlCall.run P (closeN P 1) (.query [65] [])
  let c ← commit P (closeN P 1) 0
  let k ← M.get fun w => w.srv.db
  let d ← SqlCall.run P (closeN P 1) (.exec [82, 82] [])
  M.pure (a, b, c, k, d)

/-- C108 is false for a transaction with a query whose rows are not closed, with an honest server. COMMIT is executed, being the third command
the database executes, but `Tx.Commit` returns an error. As this is not `driver.ErrBadConn`, `sql.DB` puts the connection back, with answers unread on it:
the next `DB.Exec`, of a statement the database refuses, returns no error. -/
theorem c108_false : ∃ w1 w2 w3 w4 e,
    SqlCall.run demo.peer (closeN demo.peer 1) .begin (freshConn 0 4096) = .ok none w1 ∧
    SqlCall.run demo.peer (closeN demo.peer 1) (.query [65] []) w1 = .ok none w2 ∧
    commit demo.peer (closeN demo.peer 1) 0 w2 = .ok (some e) w3 ∧ isErrBadConn (some e) = false ∧
    w3.srv.db = (demo.exec (demo.exec (demo.exec 0 txBegin []).1 [65] []).1 txCommit []).1 ∧
    (demo.exec w3.srv.db [82, 82] []).2.succeeds = false ∧
    ∀ dial, (⟨[w3], 1, []⟩ : Db (Srv Nat)).call demo.peer 1 dial (.exec [82, 82] []) = some (none, ⟨[w4], 1, [⟨w3, w4⟩]⟩) := by
  obtain ⟨x, w4, h, hx⟩ := Out.of_test (o := unread demo.server (freshConn 0 4096))
    (p := fun x _ => x.1.isNone && x.2.1.isNone && x.2.2.1.isSome && !isErrBadConn x.2.2.1 && x.2.2.2.1 == 3 && x.2.2.2.2.isNone) (by decide +kernel)
  rw [← peer_eq] at h
  obtain ⟨a, w1, h1, h⟩ := run_inv h
  obtain ⟨b, w2, h2, h⟩ := run_inv h
  obtain ⟨c, w3, h3, h⟩ := run_inv h
  obtain ⟨k, w3', hk, h⟩ := run_inv h
  cases hk
  obtain ⟨d, w5, h5, h⟩ := run_inv h
  cases h
  simp only [Bool.and_eq_true, Option.isNone_iff_eq_none, Bool.not_eq_true', beq_iff_eq] at hx
  obtain ⟨⟨⟨⟨⟨rfl, rfl⟩, hc⟩, hb⟩, hk⟩, rfl⟩ := hx
  obtain ⟨e, rfl⟩ := Option.isSome_iff_exists.1 hc
  refine ⟨w1, w2, w3, w4, e, h1, h2, h3, hb, hk, by rw [hk]; rfl, fun dial => ?_⟩
  exact call_one (d := ⟨[w3], 1, []⟩) rfl h5 rfl

end Bolt
