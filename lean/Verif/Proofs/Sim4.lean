import Verif.Proofs.Sim3

/-! The driver simulates the abstract session: closing rows and statements. -/

namespace Bolt
open PackStream

variable {δ : Type} {D : DB δ} (close : M (Srv δ) (Option GoErr)) {w : World (Srv δ)} {h : Handles} {s : Sess δ}
variable {ce : Bool}

/-- Open rows that can be drained: their statement, kind and the failure met on the way. -/
def Open.drained : Open → Option (Prep × Bool × Option KVs)
  | .fresh p _ _ e => some (p, false, restFails e [])
  | .reading p dr _ _ e more _ => some (p, dr, restFails e more)
  | .ended p dr => some (p, dr, none)
  | _ => none

theorem drain_open (D : DB δ) {d : δ} {o : Open} (hb : Body w h d o) {p : Prep} {dr : Bool} {f : Option KVs} (hd : o.drained = some (p, dr, f)) :
    ∃ i r x k l res, Hold w h p dr i r ∧ w.rows[r]? = some x ∧ x.stmt = i ∧ x.closed = false ∧ x.closeStmt = dr ∧ k.budget = none ∧
      Live w d w.srv.mode ∧ rowsDrain D.peer close r w = .ok res (w.net k ⟨d, .ready, []⟩ [] l) ∧ (f = none → res = none) ∧
      (∀ md, f = some md → ∃ e, res = some e ∧ e.innerMost = .failure md) := by
  cases o with
  | idle => simp [Open.drained] at hd
  | leaked => simp [Open.drained] at hd
  | stmt p => simp [Open.drained] at hd
  | dead p dr => simp [Open.drained] at hd
  | closed dirty => simp [Open.drained] at hd
  | fresh p' hd' rs e =>
    simp only [Open.drained, Option.some.injEq, Prod.mk.injEq] at hd
    obtain ⟨rfl, rfl, rfl⟩ := hd
    obtain ⟨h1, h2, h3, i, r, h4, h5⟩ := hb
    have hrow := row_of h5
    have hconn : (w.stmt (w.row r).stmt).conn = true := by rw [hrow]; exact congrArg Stmt.conn (stmt_of h4.stmt)
    have hl : Live w d w.srv.mode := by have := h1; rw [h1.srv]; exact this
    cases e with
    | summary md =>
      obtain ⟨b, l, _, h6⟩ := rowsDrain_discard D close h1 h2 (r := r) (by rw [hrow]; rfl) hconn
      exact ⟨i, r, _, _, _, _, h4, h5, rfl, rfl, rfl, rfl, hl, h6, fun _ => rfl, fun md h => by simp [restFails] at h⟩
    | broken md =>
      obtain ⟨b, l, _, h6⟩ := rowsDrain_discard_broken D close h1 h2 (r := r) (by rw [hrow]; rfl) hconn
      exact ⟨i, r, _, _, _, _, h4, h5, rfl, rfl, rfl, rfl, hl, h6, fun h => by simp [restFails] at h,
        fun md' h => by simp only [restFails, Option.some.injEq] at h; subst h; exact ⟨_, rfl, rfl⟩⟩
  | reading p' dr' hd' rs e more n =>
    simp only [Open.drained, Option.some.injEq, Prod.mk.injEq] at hd
    obtain ⟨rfl, rfl, rfl⟩ := hd
    obtain ⟨h4, h5, h6, i, r, idx, h7, h8, h9, h10⟩ := hb
    have hrow := row_of h8
    have hconn : (w.stmt (w.row r).stmt).conn = true := by rw [hrow]; exact congrArg Stmt.conn (stmt_of h7.stmt)
    have hl : Live w d w.srv.mode := by have := h4; rw [h4.srv]; exact this
    obtain ⟨b, l, _, h11⟩ := drain_rest D close h6 h4 h5
    have hn : numConsume (w.stmt (w.row r).stmt).queries.length (w.row r).idx = ((2 * n + 1 : Nat) : Int) := by
      rw [hrow, stmt_of h7.stmt]
      simp only [numConsume]
      by_cases hq : p'.queries = []
      · rw [hq, (h9 hq).1]; rfl
      · have := h10 hq
        rw [if_pos (by omega)]
        omega
    have h12 := rowsDrain_pulled D.peer close (w := w) (r := r) (by rw [hrow]) (by rw [hrow]) hconn hn h11
    refine ⟨i, r, _, _, _, _, h7, h8, rfl, rfl, rfl, rfl, hl, h12, ?_, ?_⟩
    · intro h; rw [h]; rfl
    · intro md h; rw [h]; exact ⟨_, rfl, rfl⟩
  | ended p' dr' =>
    simp only [Open.drained, Option.some.injEq, Prod.mk.injEq] at hd
    obtain ⟨rfl, rfl, rfl⟩ := hd
    obtain ⟨h1, h2, i, r, x, h4, h5, h6, h7, h8, h9, h10⟩ := hb
    have hrow := row_of h5
    have hl : Live w d w.srv.mode := by have := h1; rw [h1.srv]; exact this
    have h11 := rowsDrain_finished D.peer close (w := w) (r := r) (by rw [hrow, h8]) (by rw [hrow, h9])
    refine ⟨i, r, x, w.sink, w.log, none, h4, h5, h6, h7, h10, h1.budget, hl, ?_, fun _ => rfl, fun md h => by simp at h⟩
    rw [h11, ← h1.srv, ← h2]
    rfl

/-- Rows closed, statement open. -/
theorem rep_rowsDone (hr : RepE ce w h s) {i r : Nat} {x : Rows} {p : Prep} {k : Sink} {l : List Event} (hk : k.budget = none) (hh : Hold w h p false i r)
    (hx : w.rows[r]? = some x) (hs : x.stmt = i) (hl : Live w s.db w.srv.mode) :
    RepE ce ((w.net k ⟨s.db, .ready, []⟩ [] l).rowsDone r) h { s with opn := .stmt p } := by
  refine hr.next ((Grows.net _ _ _ _ _).trans' (Grows.rowsDone _ _)) ?_
  refine ⟨⟨hl.closed, rfl, hk, hl.cs⟩, rfl, ?_, i, hh.handle, hh.current, ?_⟩
  · intro j hj
    have := hh.row
    rw [hj] at this
    obtain rfl := Option.some.inj this
    exact ⟨_, rowsDone_row (w := w.net k ⟨s.db, .ready, []⟩ [] l) hx, rfl⟩
  · exact rowsDone_stmt (w := w.net k ⟨s.db, .ready, []⟩ [] l) hx hs hh.stmt

/-- Rows and statement closed. -/
theorem rep_allDone (hr : RepE ce w h s) {i r : Nat} {x : Rows} {p : Prep} {dr : Bool} {k : Sink} {l : List Event} (hk : k.budget = none) (hh : Hold w h p dr i r)
    (hx : w.rows[r]? = some x) (hs : x.stmt = i) (hl : Live w s.db w.srv.mode) :
    RepE ce (((w.net k ⟨s.db, .ready, []⟩ [] l).rowsDone r).stmtDone i) h { s with opn := .idle } := by
  have hg : Grows w (((w.net k ⟨s.db, .ready, []⟩ [] l).rowsDone r).stmtDone i) :=
    (Grows.net _ _ _ _ _).trans' ((Grows.rowsDone _ _).trans' (Grows.stmtDone _ _))
  refine hr.next hg ?_
  refine ⟨⟨hl.closed, rfl, hk, hl.cs⟩, rfl, rfl, ?_, ?_⟩
  · cases dr with
    | true => exact StaleS.grows hh.handle hg
    | false =>
      have := hh.handle
      simp only [Bool.false_eq_true, if_false] at this
      intro j hj
      rw [this] at hj
      obtain rfl := Option.some.inj hj
      exact ⟨_, stmtDone_stmt (rowsDone_stmt (w := w.net k ⟨s.db, .ready, []⟩ [] l) hx hs hh.stmt), rfl⟩
  · intro j hj
    have := hh.row
    rw [hj] at this
    obtain rfl := Option.some.inj this
    exact ⟨_, rowsDone_row (w := w.net k ⟨s.db, .ready, []⟩ [] l) hx, rfl⟩

/-- The rows met a failure. -/
theorem rep_dead (hr : RepE ce w h s) {i r : Nat} {x : Rows} {p : Prep} {dr : Bool} {k : Sink} {l : List Event} (hk : k.budget = none) (hh : Hold w h p dr i r)
    (hx : w.rows[r]? = some x) (hs : x.stmt = i) (hc : x.closed = false) (hcs : x.closeStmt = dr) (hl : Live w s.db w.srv.mode) :
    RepE ce (w.net k ⟨s.db, .ready, []⟩ [] l) h { s with opn := .dead p dr } := by
  refine hr.next (Grows.net _ _ _ _ _) ?_
  exact ⟨⟨hl.closed, rfl, hk, hl.cs⟩, rfl, i, r, x, ⟨hh.row, hh.handle, hh.current, hh.stmt⟩, hx, hs, hc, hcs⟩

/-- A statement without rows closed. -/
theorem rep_stmtDone (hr : RepE ce w h s) {i : Nat} {y : Stmt} (h1 : Live w s.db .ready) (h2 : w.inbox = []) (h3 : StaleR w h)
    (h4 : StaleS w h ∨ h.s = some i) (hy : w.stmts[i]? = some y) :
    RepE ce (w.stmtDone i) h { s with opn := .idle } := by
  have hg : Grows w (w.stmtDone i) := Grows.stmtDone _ _
  refine hr.next hg ⟨⟨h1.closed, h1.srv, h1.budget, h1.cs⟩, h2, rfl, ?_, h3.grows hg⟩
  rcases h4 with h4 | h4
  · exact h4.grows hg
  · intro j hj
    rw [h4] at hj
    obtain rfl := Option.some.inj hj
    exact ⟨_, stmtDone_stmt hy, rfl⟩

/-- Nil or the failure. -/
def doneOr : Option KVs → Res
  | none => .done
  | some md => .failure md

/-- What is open after the rows are closed. -/
def rowsOpen (p : Prep) (dr : Bool) : Option KVs → Open
  | none => if dr then .idle else .stmt p
  | some _ => .dead p dr

theorem step_closeRows {d : δ} {o : Open} {tx : Bool} {cs : Nat} {p : Prep} {dr : Bool} {f : Option KVs} (hd : o.drained = some (p, dr, f)) :
    (⟨d, o, tx, cs⟩ : Sess δ).step D .closeRows = some (⟨d, rowsOpen p dr f, tx, cs⟩, doneOr f) := by
  cases o <;> simp only [Open.drained, Option.some.injEq, Prod.mk.injEq, reduceCtorEq] at hd <;> obtain ⟨rfl, rfl, rfl⟩ := hd <;> simp only [Sess.step]
  · generalize restFails _ _ = f
    cases f <;> rfl
  · generalize restFails _ _ = f
    cases f <;> rfl
  · rfl

/-- What is open after closing. -/
def relOpen (p : Prep) : Option KVs → Open
  | none => .idle
  | some _ => .dead p false

theorem release_drained {d : δ} {o : Open} {tx : Bool} {cs : Nat} {p : Prep} {dr : Bool} {f : Option KVs} (hd : o.drained = some (p, dr, f)) :
    (⟨d, o, tx, cs⟩ : Sess δ).release = if dr then none else some (⟨d, relOpen p f, tx, cs⟩, f) := by
  cases o <;> simp only [Open.drained, Option.some.injEq, Prod.mk.injEq, reduceCtorEq] at hd <;> obtain ⟨rfl, rfl, rfl⟩ := hd <;> simp only [Sess.release]
  · generalize restFails _ _ = f
    cases f <;> rfl
  · generalize restFails _ _ = f
    cases f <;> rfl
  · rfl

theorem sim_closeRows (hr : RepE ce w h s) : SimulatesE D ce close .closeRows w h s := by
  refine ⟨.closeRows, .closeRows, ?_⟩
  intro s' r hs
  rcases s with ⟨d, o, tx, cs⟩
  have stale : StaleR w h → Call.run D.peer close h .closeRows w = .ok (.done, h) w := by
    intro hst
    cases hh : h.r with
    | none => simp only [Call.run, hh]; rfl
    | some r =>
      simp only [Call.run, hh]
      rw [mbind_ok (rowsClose_closed D.peer close (hst.row hh))]
      rfl
  have hb := hr.body
  cases hd : o.drained with
  | none =>
    cases o with
    | idle => simp only [Sess.step, Option.some.injEq, Prod.mk.injEq] at hs; obtain ⟨rfl, rfl⟩ := hs; exact ⟨w, h, stale (cursor_closed hb rfl), hr⟩
    | leaked => simp only [Sess.step, Option.some.injEq, Prod.mk.injEq] at hs; obtain ⟨rfl, rfl⟩ := hs; exact ⟨w, h, stale (cursor_closed hb rfl), hr⟩
    | stmt p => simp only [Sess.step, Option.some.injEq, Prod.mk.injEq] at hs; obtain ⟨rfl, rfl⟩ := hs; exact ⟨w, h, stale (cursor_closed hb rfl), hr⟩
    | fresh p hd' rs e => simp [Open.drained] at hd
    | reading p dr hd' rs e more n => simp [Open.drained] at hd
    | ended p dr => simp [Open.drained] at hd
    | dead p dr => simp [Sess.step] at hs
    | closed dirty =>
      cases dirty with
      | true => simp [Sess.step] at hs
      | false =>
        simp only [Sess.step, Bool.false_eq_true, if_false, Option.some.injEq, Prod.mk.injEq] at hs
        obtain ⟨rfl, rfl⟩ := hs
        exact ⟨w, h, stale (hb.2.2.2 rfl), hr⟩
  | some x =>
    obtain ⟨p, dr, f⟩ := x
    obtain ⟨i, ro, x, k, l, res, h1, h2, h3, h4, h5, h6, h7, h8, h9, h10⟩ := drain_open close D hb hd
    have hrow : (w.row ro).closed = false := by rw [row_of h2]; exact h4
    have hrun : Call.run D.peer close h .closeRows = (do M.pure (errRes (← rowsClose D.peer close ro), h)) := by
      simp only [Call.run, h1.row]
    rw [step_closeRows hd] at hs
    cases f with
    | some md =>
      simp only [rowsOpen, doneOr, Option.some.injEq, Prod.mk.injEq] at hs
      obtain ⟨rfl, rfl⟩ := hs
      obtain ⟨e, rfl, he⟩ := h10 md rfl
      exact ⟨_, h, (congrFun hrun w).trans ((mbind_ok (rowsClose_fail D.peer close hrow h8)).trans (congrArg (fun x => Out.ok (x, h) _) (res_failure he))),
        rep_dead hr h6 h1 h2 h3 h4 h5 h7⟩
    | none =>
      obtain rfl := h9 rfl
      simp only [rowsOpen, doneOr, Option.some.injEq, Prod.mk.injEq] at hs
      obtain ⟨rfl, rfl⟩ := hs
      cases dr with
      | false =>
        have h11 := rowsClose_stmtRows D.peer close hrow h8 (by rw [row_of (rowsDone_row (w := w.net k ⟨d, .ready, []⟩ [] l) h2)]; exact h5)
        exact ⟨_, h, (congrFun hrun w).trans ((mbind_ok h11).trans rfl), rep_rowsDone hr h6 h1 h2 h3 h7⟩
      | true =>
        have h11 := rowsClose_direct D.peer close h2 h4 h8 h2 h5 h3 h1.stmt rfl rfl
        exact ⟨_, h, (congrFun hrun w).trans ((mbind_ok h11).trans rfl), rep_allDone hr h6 h1 h2 h3 h7⟩

/-! ### Closing what is open -/

/-- Closing the current statement, as `Close`, `Commit` and `Rollback` do. -/
def closeOpen (close : M (Srv δ) (Option GoErr)) (P : Peer (Srv δ)) : M (Srv δ) (Option GoErr) := do
  match ← M.get fun w => w.statement with
  | none => M.pure none
  | some s => stmtClose P close s

theorem stmtClose_release (hr : RepE ce w h s) {i : Nat} (hi : w.statement = some i) {s' : Sess δ} {f : Option KVs} (hs : s.release = some (s', f)) :
    ∃ w' res, stmtClose D.peer close i w = .ok res w' ∧ errRes res = doneOr f ∧
      (res = none ↔ f = none) ∧ RepE ce w' h s' := by
  rcases s with ⟨d, o, tx, cs⟩
  have hb := hr.body
  cases hd : o.drained with
  | none =>
    cases o with
    | idle => rw [hb.2.2.1] at hi; exact absurd hi (by simp)
    | leaked =>
      simp only [Sess.release, Option.some.injEq, Prod.mk.injEq] at hs
      obtain ⟨rfl, rfl⟩ := hs
      obtain ⟨h1, h2, h3, h4, j, p, h5, h6⟩ := hb
      rw [h5] at hi
      obtain rfl := Option.some.inj hi
      have e := stmt_of h6
      exact ⟨_, none, stmtClose_norows D.peer close (by rw [e]) (by rw [e]) (by rw [e]), rfl, by simp, rep_stmtDone hr h1 h2 h4 (.inl h3) h6⟩
    | stmt p =>
      simp only [Sess.release, Option.some.injEq, Prod.mk.injEq] at hs
      obtain ⟨rfl, rfl⟩ := hs
      obtain ⟨h1, h2, h3, j, h4, h5, h6⟩ := hb
      rw [h5] at hi
      obtain rfl := Option.some.inj hi
      have e := stmt_of h6
      exact ⟨_, none, stmtClose_norows D.peer close (by rw [e]) (by rw [e]) (by rw [e]), rfl, by simp, rep_stmtDone hr h1 h2 h3 (.inr h4) h6⟩
    | fresh p hd' rs e => simp [Open.drained] at hd
    | reading p dr hd' rs e more n => simp [Open.drained] at hd
    | ended p dr => simp [Open.drained] at hd
    | dead p dr => simp [Sess.release] at hs
    | closed dirty => simp [Sess.release] at hs
  | some x =>
    obtain ⟨p, dr, f'⟩ := x
    obtain ⟨j, ro, x, k, l, res, h1, h2, h3, h4, h5, h6, h7, h8, h9, h10⟩ := drain_open close D hb hd
    have := h1.current
    rw [hi] at this
    obtain rfl := Option.some.inj this
    rw [release_drained hd] at hs
    cases dr with
    | true => simp at hs
    | false =>
    simp only [Bool.false_eq_true, if_false, Option.some.injEq, Prod.mk.injEq] at hs
    obtain ⟨rfl, rfl⟩ := hs
    cases f' with
    | some md =>
      obtain ⟨e, rfl, he⟩ := h10 md rfl
      exact ⟨_, some e, stmtClose_rows_fail D.peer close h1.stmt rfl rfl h2 h4 h5 h8, res_failure he, by simp, rep_dead hr h6 h1 h2 h3 h4 h5 h7⟩
    | none =>
      obtain rfl := h9 rfl
      exact ⟨_, none, stmtClose_rows D.peer close h1.stmt rfl rfl h2 h4 h5 h8 h2 h3 h1.stmt rfl, rfl, by simp, rep_allDone hr h6 h1 h2 h3 h7⟩

theorem sim_closeStmt (hr : RepE ce w h s) : SimulatesE D ce close .closeStmt w h s := by
  refine ⟨.closeStmt, .closeStmt, ?_⟩
  intro s' r hs
  have stale : StaleS w h → Call.run D.peer close h .closeStmt w = .ok (.done, h) w := by
    intro hst
    cases hh : h.s with
    | none => simp only [Call.run, hh]; rfl
    | some r =>
      simp only [Call.run, hh]
      rw [mbind_ok (stmtClose_closed D.peer close (hst.stmt hh))]
      rfl
  have hb := hr.body
  have live : ∀ i, h.s = some i → w.statement = some i → (match s.release with
      | none => none
      | some (s', none) => some (s', Res.done)
      | some (s', some md) => some (s', .failure md)) = some (s', r) →
      ∃ w' h', Call.run D.peer close h .closeStmt w = .ok (r, h') w' ∧ RepE ce w' h' s' := by
    intro i h1 h2 h3
    cases hrel : s.release with
    | none => simp [hrel] at h3
    | some x =>
      obtain ⟨s1, f⟩ := x
      obtain ⟨w', res, h4, h5, _, h6⟩ := stmtClose_release (D := D) close hr h2 hrel
      have hrun : Call.run D.peer close h .closeStmt = (do M.pure (errRes (← stmtClose D.peer close i), h)) := by
        simp only [Call.run, h1]
      have : s1 = s' ∧ r = doneOr f := by
        cases f <;> simp_all [doneOr]
      obtain ⟨rfl, rfl⟩ := this
      exact ⟨w', h, (congrFun hrun w).trans ((mbind_ok h4).trans (congrArg (fun x => Out.ok (x, h) _) h5)), h6⟩
  rcases s with ⟨d, o, tx, cs⟩
  have st : ∀ {p dr i r}, Hold w h p dr i r → dr = true → StaleS w h := by
    intro p dr i r hh hd; subst hd; exact hh.handle
  have nst : ∀ {p dr i r}, Hold w h p dr i r → dr = false → h.s = some i := by
    intro p dr i r hh hd; subst hd; exact hh.handle
  cases o with
  | idle => simp only [Sess.step, Option.some.injEq, Prod.mk.injEq] at hs; obtain ⟨rfl, rfl⟩ := hs; exact ⟨w, h, stale hb.2.2.2.1, hr⟩
  | leaked => simp only [Sess.step, Option.some.injEq, Prod.mk.injEq] at hs; obtain ⟨rfl, rfl⟩ := hs; exact ⟨w, h, stale hb.2.2.1, hr⟩
  | closed dirty => simp only [Sess.step, Option.some.injEq, Prod.mk.injEq] at hs; obtain ⟨rfl, rfl⟩ := hs; exact ⟨w, h, stale hb.2.2.1, hr⟩
  | stmt p =>
    obtain ⟨h1, h2, h3, j, h4, h5, h6⟩ := hb
    exact live j h4 h5 hs
  | fresh p hd rs e =>
    obtain ⟨h1, h2, h3, i, ro, h4, h5⟩ := hb
    exact live i (nst h4 rfl) h4.current hs
  | reading p dr hd rs e more n =>
    obtain ⟨h1, h2, h3, i, ro, idx, h7, _⟩ := hb
    cases dr with
    | true => simp only [Sess.step, Option.some.injEq, Prod.mk.injEq] at hs; obtain ⟨rfl, rfl⟩ := hs; exact ⟨w, h, stale (st h7 rfl), hr⟩
    | false => exact live i (nst h7 rfl) h7.current hs
  | ended p dr =>
    obtain ⟨h1, h2, i, ro, x, h7, _⟩ := hb
    cases dr with
    | true => simp only [Sess.step, Option.some.injEq, Prod.mk.injEq] at hs; obtain ⟨rfl, rfl⟩ := hs; exact ⟨w, h, stale (st h7 rfl), hr⟩
    | false => exact live i (nst h7 rfl) h7.current hs
  | dead p dr =>
    obtain ⟨h1, h2, i, ro, x, h7, _⟩ := hb
    cases dr with
    | true => simp only [Sess.step, Option.some.injEq, Prod.mk.injEq] at hs; obtain ⟨rfl, rfl⟩ := hs; exact ⟨w, h, stale (st h7 rfl), hr⟩
    | false => exact live i (nst h7 rfl) h7.current hs

theorem closeOpen_release (hr : RepE ce w h s) {s' : Sess δ} {f : Option KVs} (hs : s.release = some (s', f)) :
    ∃ w' res, closeOpen close D.peer w = .ok res w' ∧ errRes res = doneOr f ∧
      (res = none ↔ f = none) ∧ RepE ce w' h s' := by
  unfold closeOpen
  cases hi : w.statement with
  | some i =>
    obtain ⟨w', res, h1, h2⟩ := stmtClose_release (D := D) close hr hi hs
    refine ⟨w', res, ?_, h2⟩
    simp only [get_bind, hi]
    exact h1
  | none =>
    rcases s with ⟨d, o, tx, cs⟩
    have hb := hr.body
    have key : o = .idle := by
      cases o with
      | idle => rfl
      | leaked => obtain ⟨_, _, _, _, j, p, h5, _⟩ := hb; rw [hi] at h5; exact absurd h5 (by simp)
      | stmt p => obtain ⟨h1, h2, h3, j, h4, h5, h6⟩ := hb; rw [hi] at h5; exact absurd h5 (by simp)
      | fresh p hd rs e => obtain ⟨h1, h2, h3, i, ro, h4, h5⟩ := hb; have := h4.current; rw [hi] at this; exact absurd this (by simp)
      | reading p dr hd rs e more n => obtain ⟨h1, h2, h3, i, ro, idx, h7, _⟩ := hb; have := h7.current; rw [hi] at this; exact absurd this (by simp)
      | ended p dr => obtain ⟨h1, h2, i, ro, x, h7, _⟩ := hb; have := h7.current; rw [hi] at this; exact absurd this (by simp)
      | dead p dr => simp [Sess.release] at hs
      | closed dirty => simp [Sess.release] at hs
    subst key
    simp only [Sess.release, Option.some.injEq, Prod.mk.injEq] at hs
    obtain ⟨rfl, rfl⟩ := hs
    exact ⟨w, none, by simp only [get_bind, hi]; rfl, rfl, by simp, hr⟩

end Bolt
