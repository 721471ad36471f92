import Verif.Proofs.Sim5
import Verif.Proofs.Ran

/-! `QueryNeoAll` for every outcome, and reads that wait for nothing. -/

namespace Bolt
open PackStream

variable {δ : Type} (D : DB δ) (close : M (Srv δ) (Option GoErr))

/-- The deadline passed while waiting for a message. -/
def World.timedOut {σ : Type} (w : World σ) : World σ := { w with connErr := true, log := w.log ++ [.recv .ioerr] }

theorem consume_blocked {w : World (Srv δ)} {d : δ} {m : Mode} (h : Live w d m) (hm : m ≠ .gone) (hi : w.inbox = []) :
    consume D.peer close w = .ok (.nil, some (readErr .badConn)) w.timedOut := by
  have h1 : nextItem D.peer w = .ioerr := by
    unfold nextItem
    rw [hi]
    simp only [h.closed, Bool.false_eq_true, if_false]
    rw [if_neg]
    rw [h.srv]
    cases m <;> simp_all [DB.peer]
  have h2 : recv D.peer w = .ok (.nil, some (readErr .badConn)) w.timedOut := by
    unfold recv
    simp only [h1, World.timedOut, hi, List.tail_nil]
  unfold consume
  rw [mbind_ok h2]
  rfl

theorem consumeAll_blocked {w : World (Srv δ)} {d : δ} {m : Mode} (h : Live w d m) (hm : m ≠ .gone) (hi : w.inbox = []) :
    consumeAll D.peer close w = .ok ([], .nil, some (readErr .badConn)) w.timedOut := by
  have h1 := consume_blocked D close h hm hi
  unfold consumeAll
  simp only [hi, List.takeWhile_nil, List.dropWhile_nil, List.map_nil, List.append_nil]
  have e : ({ w with inbox := [], log := w.log } : World (Srv δ)) = w := by rw [← hi]
  rw [e, mbind_ok h1]
  rfl

/-- `QueryNeoAll` on an idle connection. -/
theorem queryNeoAll_ok {w : World (Srv δ)} {d : δ} (h : Live w d .ready)
    (hi : w.inbox = []) (ho : w.statement = none) {q : Str} {kvs : KVs} (hs : Sendable w.chunkSize (.run q kvs)) :
    ∃ ps, MeansKVs kvs ps ∧ ∃ res w', queryNeoAll D.peer close q kvs w = .ok res w' ∧ w'.closed = false ∧ w'.inbox = [] ∧
      w'.srv = ⟨(D.exec d q ps).1, .ready, []⟩ ∧ w'.sink.budget = none ∧ w'.chunkSize = w.chunkSize ∧ w'.transaction = w.transaction ∧
      w'.sockCloseErr = w.sockCloseErr ∧
      match (D.exec d q ps).2 with
      | .refused md => res = .error (queryErr md) ∧ w'.statement = none ∧ Wrote w w' [.run q kvs, .pullAll, .ackFailure]
      | .answer hd rs (.summary md) => res = .ok (rs, hd, some md, none) ∧ w'.statement = none ∧ Wrote w w' [.run q kvs, .pullAll]
      | .answer hd rs (.broken md) => res = .ok (rs, hd, none, some (queryErr md)) ∧ w'.statement = some w.stmts.length ∧
          w'.connErr = true ∧ Wrote w w' [.run q kvs, .pullAll, .ackFailure] := by
  obtain ⟨ps, h6, h7⟩ := queryNeo_ok D close h hi ho (q := q) (kvs := kvs) hs
  refine ⟨ps, h6, ?_⟩
  rcases hx : D.exec d q ps with ⟨d', o⟩
  rw [hx] at h7
  cases o with
  | refused md =>
    obtain ⟨b, l, hb, h8⟩ := h7
    have h9 : queryNeoAll D.peer close q kvs w = .ok (.error (queryErr md)) _ := mbind_ok h8
    exact ⟨_, _, h9, h.closed, rfl, rfl, rfl, rfl, rfl, rfl, rfl, ho, b, hb, rfl⟩
  | answer hd' rs e =>
    obtain ⟨b, l, hb, h8⟩ := h7
    generalize hw1 : ({ w.net ⟨w.sink.out ++ b, none⟩ ⟨d', e.reply.1, []⟩ ((rs.map Val.record ++ e.reply.2).map Item.val) (w.log ++ l) with
              stmts := w.stmts ++ [{ query := q, queries := [], conn := true, closed := false, rows := some w.rows.length }]
              rows := w.rows ++ [directRow hd' w.stmts.length]
              statement := some w.stmts.length } : World (Srv δ)) = w1 at h8
    have r1 : w1.rows[w.rows.length]? = some (directRow hd' w.stmts.length) := by subst hw1; simp
    have s1 : w1.stmts[w.stmts.length]? = some { query := q, queries := [], conn := true, closed := false, rows := some w.rows.length } := by
      subst hw1; simp
    have c1 : w1.closed = false := by subst hw1; exact h.closed
    have e1 := row_of r1
    have e1s : (w1.stmt (w1.row w.rows.length).stmt).conn = true := by
      rw [e1, show (directRow hd' w.stmts.length).stmt = w.stmts.length from rfl, stmt_of s1]
    cases e with
    | summary md =>
      obtain ⟨l2, h9⟩ := rowsAll_summary D close (w := w1) (r := w.rows.length) (rs := rs) (md := md) (by rw [e1]; rfl) (by rw [e1]; rfl)
          e1s (by subst hw1; rfl)
      generalize hw2 : ((w1.net w1.sink w1.srv [] (w1.log ++ l2)).setRow w.rows.length fun x => { x with finished := true }) = w2 at h9
      have r2 : w2.rows[w.rows.length]? = some { directRow hd' w.stmts.length with finished := true } := by
        subst hw2; exact row_setRow (w := w1.net _ _ _ _) r1
      have s2 : w2.stmts[w.stmts.length]? = some { query := q, queries := [], conn := true, closed := false, rows := some w.rows.length } := by
        subst hw2; exact s1
      have e2 := row_of r2
      have h10 := rowsDrain_finished D.peer close (w := w2) (r := w.rows.length) (by rw [e2]; rfl) (by rw [e2])
      have h11 := rowsClose_direct D.peer close r2 rfl h10 r2 rfl rfl s2 rfl rfl
      have h12 : queryNeoAll D.peer close q kvs w = .ok (.ok (rs, hd', some md, none)) ((w2.rowsDone w.rows.length).stmtDone w.stmts.length) := by
        unfold queryNeoAll
        rw [mbind_ok h8]
        simp only []
        rw [mbind_ok h9]
        simp only [get_bind, e2]
        rw [mbind_ok h11]
        rfl
      refine ⟨_, _, h12, ?_⟩
      subst hw2 hw1
      exact ⟨h.closed, rfl, rfl, rfl, rfl, rfl, rfl, rfl, rfl, b, hb, rfl⟩
    | broken md =>
      have l1 : Live w1 d' .failed := by subst hw1; exact ⟨h.closed, rfl, rfl, h.cs⟩
      obtain ⟨b2, l2, hb2, h9⟩ := rowsAll_broken D close (w := w1) l1 (r := w.rows.length) (rs := rs) (md := md) (by rw [e1]; rfl) (by rw [e1]; rfl)
          e1s (by subst hw1; rfl)
      generalize hw2 : (w1.net ⟨w1.sink.out ++ b2, none⟩ ⟨d', .ready, []⟩ [] (w1.log ++ l2)) = w2 at h9
      have r2 : w2.rows[w.rows.length]? = some (directRow hd' w.stmts.length) := by subst hw2; exact r1
      have s2 : w2.stmts[w.stmts.length]? = some { query := q, queries := [], conn := true, closed := false, rows := some w.rows.length } := by
        subst hw2; exact s1
      have e2 := row_of r2
      have l2' : Live w2 d' .ready := by subst hw2; exact ⟨l1.closed, rfl, rfl, l1.cs⟩
      have hin : w2.inbox = [] := by subst hw2; rfl
      have st2 := stmt_of s2
      have h10 : consumeAllMultiple D.peer close 1 w2 = .ok (some (readErr .badConn)) w2.timedOut := by
        unfold consumeAllMultiple
        rw [mbind_ok (consumeAll_blocked D close l2' (by simp) hin)]
        rfl
      have h11 := rowsDrain_pulled D.peer close (w := w2) (r := w.rows.length) (by rw [e2]; rfl) (by rw [e2]; rfl)
        (by rw [e2, show (directRow hd' w.stmts.length).stmt = w.stmts.length from rfl, st2])
        (n := 1) (by rw [e2, show (directRow hd' w.stmts.length).stmt = w.stmts.length from rfl, st2]; rfl) h10
      have h12 := rowsClose_fail D.peer close (by rw [e2]; rfl) h11
      have h13 : queryNeoAll D.peer close q kvs w = .ok (.ok (rs, hd', none, some (queryErr md))) w2.timedOut := by
        unfold queryNeoAll
        rw [mbind_ok h8]
        simp only []
        rw [mbind_ok h9]
        simp only [get_bind, e2]
        rw [mbind_ok h12]
        rfl
      refine ⟨_, _, h13, ?_⟩
      subst hw2 hw1
      exact ⟨h.closed, rfl, rfl, rfl, rfl, rfl, rfl, rfl, rfl, rfl, b ++ b2, carriesAll_append hb (carriesAll_one hb2), (List.append_assoc _ _ _)⟩

end Bolt
