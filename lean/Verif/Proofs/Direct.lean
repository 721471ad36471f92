import Verif.Proofs.Done
import Verif.Proofs.Ran

/-! Commit and Rollback while rows of a direct query are open: the rows are not drained, the answer to the
transaction's query is not the one that is read. -/

namespace Bolt
open PackStream

variable {δ : Type} (D : DB δ) (close : M (Srv δ) (Option GoErr)) {w : World (Srv δ)} {d : δ} {m : Mode}

/-- What `txFinish` makes of the two values it reads. -/
def finishOut (t : Nat) (a b : Val) (w : World (Srv δ)) : Out (Srv δ) (Option GoErr) :=
  if !a.isSuccess then .ok (some (.new "Unrecognized response type finishing transaction: %#v")) w
  else if !b.isSuccess then .ok (some (.new "Unrecognized response type pulling transaction: %#v")) w
  else .ok none { w with transaction := none, txs := w.txs.set t true }

theorem txFinish_run {q : Str} {t : Nat} {w w1 w2 : World (Srv δ)} {a b : Val} (ht : w.txClosed t = false)
    (h1 : closeCurrent D.peer close w = .ok none w1) (h2 : sendRunPullAllConsumeSingle D.peer close q [] w1 = .ok (a, b, none) w2) :
    txFinish D.peer close q t w = finishOut t a b w2 := by
  unfold txFinish
  show (if w.txClosed t = true then _ else _ : M (Srv δ) (Option GoErr)) w = _
  rw [if_neg (by rw [ht]; simp)]
  show (closeCurrent D.peer close >>= _) w = _
  rw [mbind_ok h1]
  show (sendRunPullAllConsumeSingle D.peer close q [] >>= _) w1 = _
  rw [mbind_ok h2]
  unfold finishOut
  simp only
  cases ha : a.isSuccess <;> cases hb : b.isSuccess <;> simp <;> rfl

/-- The two values read are those that were waiting. -/
theorem single_stale (h : Live w d m) {q : Str} (hq : q.length ≤ 60000) {a b : Val} {tl : List Item}
    (hi : w.inbox = .val a :: .val b :: tl) (ha : ∀ md, a ≠ .failure md) (hb : ∀ md, b ≠ .failure md) :
    ∃ bs l, CarriesAll [.run q [], .pullAll] bs ∧
      sendRunPullAllConsumeSingle D.peer close q [] w = .ok (a, b, none)
        (w.net ⟨w.sink.out ++ bs, none⟩ ⟨(D.handle2 d m (.run q []) .pullAll).1, (D.handle2 d m (.run q []) .pullAll).2.1, []⟩
          (tl ++ (D.handle2 d m (.run q []) .pullAll).2.2.map .val) l) := by
  obtain ⟨ps, bs, h1, h2, h3⟩ := sendRunPullAll_ok D h (q := q) (kvs := []) (tiny_sendable h.cs.1 h.cs.2 (tiny_run hq))
  cases h1
  refine ⟨bs, ((w.log ++ [.send (.run q []) none, .send .pullAll none]) ++ [.recv (.val a)]) ++ [.recv (.val b)], h2, ?_⟩
  unfold sendRunPullAllConsumeSingle
  rw [mbind_ok h3]
  refine (mbind_ok (consume_val D.peer close (t := .val b :: (tl ++ (D.handle2 d m (.run q []) .pullAll).2.2.map .val)) (by rw [hi]; rfl) ha)).trans ?_
  refine (mbind_ok (consume_val D.peer close (t := tl ++ (D.handle2 d m (.run q []) .pullAll).2.2.map .val) rfl hb)).trans rfl

/-- Closing the statement of direct rows drains nothing. -/
theorem closeCurrent_direct {i r : Nat} {x : Stmt} (hw : w.statement = some i) (hx : w.stmts[i]? = some x) (h1 : x.closed = false)
    (h2 : x.conn = true) (h3 : x.rows = some r) (hr : (w.row r).closeStmt = true) : closeCurrent D.peer close w = .ok none (w.stmtDone i) := by
  have e := stmt_of hx
  unfold closeCurrent
  refine (mbind_ok (x := M.get fun w => w.statement) (a := some i) (w' := w) (congrArg (fun x => Out.ok x w) hw)).trans ?_
  exact stmtClose_queryRows D.peer close (by rw [e]; exact h1) (by rw [e]; exact h2) (by rw [e]; exact h3) hr

/-- Finishing a transaction with open rows of a direct query. -/
theorem finish_stale (h : Live w d m) {q : Str} (hq : q.length ≤ 60000) {t : Nat} (ht : w.txClosed t = false) {i r : Nat} {x : Stmt}
    (hw : w.statement = some i) (hx : w.stmts[i]? = some x) (h1 : x.closed = false) (h2 : x.conn = true) (h3 : x.rows = some r)
    (hr : (w.row r).closeStmt = true) {a b : Val} {tl : List Item} (hi : w.inbox = .val a :: .val b :: tl)
    (ha : ∀ md, a ≠ .failure md) (hb : ∀ md, b ≠ .failure md) :
    ∃ bs l, CarriesAll [.run q [], .pullAll] bs ∧
      txFinish D.peer close q t w = finishOut t a b
        ((w.stmtDone i).net ⟨w.sink.out ++ bs, none⟩ ⟨(D.handle2 d m (.run q []) .pullAll).1, (D.handle2 d m (.run q []) .pullAll).2.1, []⟩
          (tl ++ (D.handle2 d m (.run q []) .pullAll).2.2.map .val) l) := by
  have hl : Live (w.stmtDone i) d m := ⟨h.closed, h.srv, h.budget, h.cs⟩
  obtain ⟨bs, l, h4, h5⟩ := single_stale D close hl hq (a := a) (b := b) (tl := tl) hi ha hb
  exact ⟨bs, l, h4, txFinish_run D close ht (closeCurrent_direct D close hw hx h1 h2 h3 hr) h5⟩

/-- The error of `finishOut`. -/
def finishErr (a b : Val) : Option GoErr :=
  if !a.isSuccess then some (.new "Unrecognized response type finishing transaction: %#v")
  else if !b.isSuccess then some (.new "Unrecognized response type pulling transaction: %#v")
  else none

/-- Commit as a call in a session, the rows of a direct query open. -/
theorem commit_stale {w : World (Srv δ)} {h : Handles} {p : Prep} {hd : KVs} {rs : List (List Val)} {e : Ending} {rest : List Outcome} {n cs : Nat}
    (hr : Rep w h ⟨d, .reading p true hd rs e rest n, true, cs⟩) {a b : Val} {tl : List Item}
    (hi : restItems rs e rest n = .val a :: .val b :: tl) (ha : ∀ md, a ≠ .failure md) (hb : ∀ md, b ≠ .failure md) :
    ∃ w', runCalls D.peer close h [.commit] w = .ok ([errRes (finishErr a b)], h) w' ∧ w'.rows = w.rows ∧ w'.statement = none ∧ w'.closed = false ∧
      w'.inbox = tl ++ (D.handle2 d (restMode e rest) (.run qCommit []) .pullAll).2.2.map .val ∧ w'.srv.mode = (D.handle2 d (restMode e rest) (.run qCommit []) .pullAll).2.1 ∧
      w'.srv.db = (D.handle2 d (restMode e rest) (.run qCommit []) .pullAll).1 ∧
      ∃ r, h.r = some r ∧ r < w.rows.length ∧ (w.row r).closed = false ∧ (w.row r).stmt < w'.stmts.length := by
  obtain ⟨hl, hin, _, i, r, idx, hh, hrow, _⟩ := hr.body
  obtain ⟨t, ht, htx⟩ := hr.tx
  obtain ⟨bs, l, _, h2⟩ := finish_stale D close hl (q := qCommit) (by decide) (t := t) (by simp [World.txClosed, htx]) hh.current hh.stmt rfl rfl rfl
    (by rw [row_of hrow]) (a := a) (b := b) (tl := tl) (hin.trans hi) ha hb
  have key : ∀ (o : Option GoErr) (w' : World (Srv δ)), finishOut t a b
        ((w.stmtDone i).net ⟨w.sink.out ++ bs, none⟩ ⟨(D.handle2 d (restMode e rest) (.run qCommit []) .pullAll).1, (D.handle2 d (restMode e rest) (.run qCommit []) .pullAll).2.1, []⟩
          (tl ++ (D.handle2 d (restMode e rest) (.run qCommit []) .pullAll).2.2.map .val) l) = .ok o w' →
      runCalls D.peer close h [.commit] w = .ok ([errRes o], h) w' := by
    intro o w' h3
    refine runCalls_cons (rs := []) (h1 := h) (w1 := w') ?_ rfl
    unfold Call.run
    simp only [ht]
    exact (mbind_ok (h2.trans h3)).trans rfl
  unfold finishErr
  unfold finishOut at key
  generalize hW : World.net _ _ _ _ _ = W at key
  have f1 : W.rows = w.rows ∧ W.statement = none ∧ W.closed = false ∧ W.inbox = tl ++ (D.handle2 d (restMode e rest) (.run qCommit []) .pullAll).2.2.map .val ∧
      W.srv.mode = (D.handle2 d (restMode e rest) (.run qCommit []) .pullAll).2.1 ∧ W.srv.db = (D.handle2 d (restMode e rest) (.run qCommit []) .pullAll).1 ∧ W.stmts.length = w.stmts.length := by
    subst hW
    exact ⟨rfl, rfl, hl.closed, rfl, rfl, rfl, by simp [World.net, World.stmtDone, World.setStmt]⟩
  obtain ⟨f1, f2, f3, f4, f5, f6, f7⟩ := f1
  have hrr : ∃ r, h.r = some r ∧ r < w.rows.length ∧ (w.row r).closed = false ∧ (w.row r).stmt < W.stmts.length :=
    ⟨r, hh.row, (List.getElem?_eq_some_iff.1 hrow).1, by rw [row_of hrow], by
      rw [row_of hrow, f7]; exact (List.getElem?_eq_some_iff.1 hh.stmt).1⟩
  cases ha : a.isSuccess
  · exact ⟨W, key _ _ (by rw [ha]; rfl), f1, f2, f3, f4, f5, f6, hrr⟩
  · cases hb : b.isSuccess
    · exact ⟨W, key _ _ (by rw [ha, hb]; rfl), f1, f2, f3, f4, f5, f6, hrr⟩
    · exact ⟨{ W with transaction := none, txs := W.txs.set t true }, key none _ (by rw [ha, hb]; rfl), f1, f2, f3, f4, f5, f6, hrr⟩

end Bolt
