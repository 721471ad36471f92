import Verif.Proofs.Blocked
import Verif.Props.Session1

/-!
# Closing rows whose remaining responses contain a failure (C23)

`Close` discards exactly the remaining responses also then, and reports the failure; but it leaves the rows and their
statement open, so that the next query is refused: C23 is false.
-/

namespace Bolt
open PackStream

variable {δ : Type} {D : DB δ} {close : M (Srv δ) (Option GoErr)} {w : World (Srv δ)} {h : Handles} {d : δ} {tx : Bool} {cs : Nat}

/-- Reading some of the records. -/
theorem ran_some {p : Prep} (hq : p.queries = []) {dr : Bool} {hd : KVs} {e : Ending} {rest : List (List Val)} :
    ∀ (rs : List (List Val)) {w : World (Srv δ)} {h : Handles}, Rep w h ⟨d, .reading p dr hd (rs ++ rest) e [] 0, tx, cs⟩ →
    Ran D close w h (List.replicate rs.length .next) (rs.map Res.row) ⟨d, .reading p dr hd rest e [] 0, tx, cs⟩ := by
  intro rs
  induction rs with
  | nil => exact fun hr => .nil hr
  | cons r rs ih =>
    intro w h hr
    exact .step (m := .next) hr deliv_next (fun m' h => by cases h; rfl) (s1 := ⟨d, .reading p dr hd (rs ++ rest) e [] 0, tx, cs⟩) (by simp [Sess.step, Open.cursor, hq]) fun hr' => ih hr'

/-- `Close` of rows that meets a failure, and a query after it. -/
theorem ran_closeBroken {p : Prep} {hd : KVs} {rs : List (List Val)} {e : Ending} {more : List Outcome} {n : Nat} {md : KVs}
    (hr : Rep w h ⟨d, .reading p true hd rs e more n, tx, cs⟩) (hf : restFails e more = some md) {q : Str} {kvs : KVs} (hm : ∃ ps, MeansKVs kvs ps) :
    Ran D close w h [.closeRows, .exec q kvs] [.failure md, .localError] ⟨d, .dead p true, tx, cs⟩ := by
  obtain ⟨ps0, hps⟩ := hm
  refine .step (m := .closeRows) hr deliv_closeRows (fun _ h => by cases h; rfl) (s1 := ⟨d, .dead p true, tx, cs⟩) (by simp [Sess.step, hf]) fun {w1 h1} hr1 => ?_
  obtain ⟨m, h2, h3⟩ := simulates (D := D) (c := .exec q kvs) close hr1 ⟨⟨_, .exec hps⟩, trivial⟩
  obtain ⟨w2, h4, e2, r2⟩ := h3 ⟨d, .dead p true, tx, cs⟩ .localError (by cases h2; rfl)
  exact ⟨w2, h4, runCalls_cons e2 rfl, r2⟩

/-- C23, a query that breaks off, closed after any number `k` of its records: `Close` reports the failure, everything
received has been read and the server is ready, so exactly the remaining responses were discarded. But C23 is false: the next
query does not read its own responses, it is refused. -/
theorem c23_false (h : Idle w d) (hk : w.sockCloseErr = false) {q q2 : Str} {kvs kvs2 : KVs} (hs : Sendable w.chunkSize (.run q kvs))
    (hs2 : ∃ ps, MeansKVs kvs2 ps) :
    ∃ ps, MeansKVs kvs ps ∧ ∀ hd rs md k, (D.exec d q ps).2 = .answer hd rs (.broken md) → k ≤ rs.length →
      ∃ h' w', runCalls D.peer close .none ((.query q kvs :: List.replicate k .next) ++ [.closeRows, .exec q2 kvs2]) w =
          .ok ((.rows hd :: (rs.take k).map Res.row) ++ [.failure md, .localError], h') w' ∧ Synced w' (D.exec d q ps).1 .ready := by
  have hr := h.rep hk
  obtain ⟨ps0, hps0⟩ := sendable_means hs
  obtain ⟨m, h1, h2⟩ := simulates (D := D) (c := .query q kvs) close hr ⟨⟨_, .query hps0⟩, hs⟩
  cases h1 with
  | query h1 =>
  rename_i ps
  refine ⟨ps, h1, fun hd rs md k ha hk => ?_⟩
  rcases hx : D.exec d q ps with ⟨d1, o1⟩
  rw [hx] at ha
  simp only at ha
  subst ha
  obtain ⟨w1, h1', e1, hr1⟩ := h2 ⟨d1, .reading ⟨q, []⟩ true hd rs (.broken md) [] 0, false, w.chunkSize⟩ (.rows hd) (by simp [Sess.step, hx])
  rw [← List.take_append_drop k rs] at hr1
  obtain ⟨w2, h3, e2, hr2⟩ := ran_some (D := D) (close := close) (p := ⟨q, []⟩) rfl _ hr1
  obtain ⟨w3, h4, e3, hr3⟩ := ran_closeBroken (D := D) (close := close) (md := md) (q := q2) (kvs := kvs2) hr2 rfl hs2
  rw [List.length_take, Nat.min_eq_left hk] at e2
  have hb := hr3.body
  exact ⟨h4, w3, runCalls_append e3 _ (runCalls_cons e1 e2), hb.1.closed, hb.2.1, hb.1.srv, hb.1.budget⟩

/-- A query that breaks off after one record, closed before it is read. -/
example (close : M (Srv Nat) (Option GoErr)) : ∃ h' w', runCalls demo.peer close .none [.query [66, 82] [], .closeRows, .exec [65] []] (freshConn 0 4096) =
    .ok ([.rows [], .failure [([98], .int .int64 0)], .localError], h') w' ∧ Synced w' 1 .ready := by
  obtain ⟨ps, hps, h1⟩ := c23_false (D := demo) (close := close) demo_idle rfl (q := [66, 82]) (q2 := [65]) (kvs := []) (kvs2 := []) (demo_sendable _ (by decide)) ⟨[], rfl⟩
  cases hps
  exact h1 [] [[.int .int8 1]] _ 0 rfl (by decide)

/-- C23 is false for pipelines in the same way: the first query of the pipeline is answered, one of the queries fails; closing
the rows reports that failure and discards exactly the remaining responses, and the next query is refused. -/
theorem c23_pipeline_false (h : Idle w d) (hk : w.sockCloseErr = false) {l : List (Str × KVs)} {q : Str} {kvs : KVs}
    (hs : ∀ x ∈ l, Sendable w.chunkSize (.run x.1 x.2)) (hs2 : ∃ ps, MeansKVs kvs ps) :
    ∃ m, MeansAll l m ∧ ∀ hd rs e more md, (D.runAll d m).2 = .answer hd rs e :: more → (D.runAll d m).2.findSome? Outcome.failure? = some md →
      ∃ h' w', runCalls D.peer close .none [.queryPipe l, .closeRows, .exec q kvs] w = .ok ([.rows hd, .failure md, .localError], h') w' ∧
        Synced w' (D.runAll d m).1 .ready := by
  obtain ⟨m0, hm0⟩ := sendable_meansAll hs
  obtain ⟨m, h1, h2⟩ := simulates (D := D) (c := .queryPipe l) close (h.rep hk) ⟨⟨_, .queryPipe hm0⟩, hs⟩
  cases h1 with
  | queryPipe h1 =>
  rename_i m
  refine ⟨m, h1, fun hd rs e more md ha hf => ?_⟩
  cases m with
  | nil => cases ha
  | cons x rest =>
    obtain ⟨q1, ps1⟩ := x
    rcases hx : D.exec d q1 ps1 with ⟨d1, o1⟩
    have hst : Sess.step D ⟨d, .idle, false, w.chunkSize⟩ (.queryPipe ((q1, ps1) :: rest)) =
        some (⟨(D.runAll d ((q1, ps1) :: rest)).1, .reading ⟨[], ((q1, ps1) :: rest).map Prod.fst⟩ true hd rs e more rest.length, false, w.chunkSize⟩, .rows hd) := by
      simp only [Sess.step, Sess.openPipe, hx]
      unfold DB.runAll at ha ⊢
      simp only [hx] at ha ⊢
      cases o1 with
      | refused a => simp [Outcome.succeeds] at ha
      | answer h' rs' e' =>
        cases e' with
        | broken b =>
          simp only [Outcome.succeeds, Bool.false_eq_true, if_false, List.cons.injEq] at ha ⊢
          obtain ⟨ha, rfl⟩ := ha
          cases ha
          rfl
        | summary b =>
          simp only [Outcome.succeeds, if_true, List.cons.injEq] at ha ⊢
          obtain ⟨ha, rfl⟩ := ha
          cases ha
          rfl
    have hrf : restFails e more = some md := by
      rw [ha] at hf
      cases e <;> simpa [restFails, List.findSome?, Outcome.failure?] using hf
    obtain ⟨w1, h1', e1, hr1⟩ := h2 _ _ hst
    obtain ⟨w3, h4, e3, hr3⟩ := ran_closeBroken (D := D) (close := close) (md := md) (q := q) (kvs := kvs) hr1 hrf hs2
    have hb := hr3.body
    exact ⟨h4, w3, runCalls_cons e1 e3, hb.1.closed, hb.2.1, hb.1.srv, hb.1.budget⟩

/-- A pipeline whose second query is refused. -/
example (close : M (Srv Nat) (Option GoErr)) : ∃ h' w', runCalls demo.peer close .none [.queryPipe [([65], []), ([82, 82], []), ([65], [])], .closeRows, .exec [65] []] (freshConn 0 4096) =
    .ok ([.rows [([104], .int .int64 0)], .failure [([114], .int .int64 1)], .localError], h') w' ∧ Synced w' 2 .ready := by
  obtain ⟨m, h1, h2⟩ := c23_pipeline_false (D := demo) (close := close) demo_idle rfl (l := [([65], []), ([82, 82], []), ([65], [])]) (q := [65]) (kvs := [])
    (fun x hx => by simp at hx; rcases hx with rfl | rfl | rfl <;> exact demo_sendable _ (by decide)) ⟨[], rfl⟩
  obtain ⟨p1, r1, h3, ⟨p2, r2, h4, ⟨p3, r3, h5, rfl, rfl⟩, rfl⟩, rfl⟩ := h1
  exact h2 _ _ _ _ _ rfl rfl

end Bolt
