import Verif.Spec.Histories
import Verif.Proofs.Sim5

/-! Sequences of calls, by way of the abstract session. -/

namespace Bolt
open PackStream

variable {δ : Type} {D : DB δ} {close : M (Srv δ) (Option GoErr)} {w : World (Srv δ)} {h : Handles} {s : Sess δ}

theorem Idle.live {d : δ} (hi : Idle w d) : Live w d .ready := ⟨hi.synced.closed, hi.synced.srv, hi.synced.budget, hi.chunk⟩

theorem Idle.rep {d : δ} (hi : Idle w d) (hs : w.sockCloseErr = false) : Rep w .none ⟨d, .idle, false, w.chunkSize⟩ where
  cs := ⟨rfl, hi.chunk.1, hi.chunk.2⟩
  trans := hi.transaction
  sock := hs
  err := rfl
  tx := by simp [TxOk, Handles.none]
  body := ⟨hi.live, hi.synced.inbox, hi.statement, fun i h => by simp [Handles.none] at h, fun i h => by simp [Handles.none] at h⟩

theorem idle_of_body {d : δ} (ht : w.transaction = none) (hb : Body w h d .idle) : Idle w d where
  synced := ⟨hb.1.closed, hb.2.1, hb.1.srv, hb.1.budget⟩
  statement := hb.2.2.1
  transaction := ht
  chunk := hb.1.cs

theorem Rep.idle {d : δ} {tx : Bool} {cs : Nat} (hr : Rep w h ⟨d, .idle, tx, cs⟩) : Idle w d := idle_of_body hr.trans hr.body

theorem idle_fresh (d : δ) {cs : Nat} (h0 : 0 < cs) (h1 : cs ≤ 65535) : Idle (freshConn d cs) d :=
  ⟨⟨rfl, rfl, rfl, rfl⟩, rfl, rfl, h0, h1⟩

/-- The calls give the results, and lead to a world representing the abstract session. -/
def Ran (D : DB δ) (close : M (Srv δ) (Option GoErr)) (w : World (Srv δ)) (h : Handles) (cs : List (Call KVs)) (rs : List Res) (s' : Sess δ) : Prop :=
  ∃ w' h', runCalls D.peer close h cs w = .ok (rs, h') w' ∧ Rep w' h' s'

theorem Ran.nil (hr : Rep w h s) : Ran D close w h [] [] s := ⟨w, h, rfl, hr⟩

theorem runCalls_cons {σ : Type} {P : Peer σ} {close : M σ (Option GoErr)} {w w1 w2 : World σ} {h h1 h2 : Handles} {c : Call KVs} {cs : List (Call KVs)} {r : Res} {rs : List Res}
    (e1 : c.run P close h w = .ok (r, h1) w1) (e2 : runCalls P close h1 cs w1 = .ok (rs, h2) w2) :
    runCalls P close h (c :: cs) w = .ok (r :: rs, h2) w2 :=
  (mbind_ok e1).trans ((mbind_ok e2).trans rfl)

theorem runCalls_append {σ : Type} {P : Peer σ} {close : M σ (Option GoErr)} {b : List (Call KVs)} {w1 w2 : World σ} {h1 h2 : Handles} {rb : List Res}
    (e2 : runCalls P close h1 b w1 = .ok (rb, h2) w2) :
    ∀ (a : List (Call KVs)) {w : World σ} {h : Handles} {ra : List Res}, runCalls P close h a w = .ok (ra, h1) w1 →
    runCalls P close h (a ++ b) w = .ok (ra ++ rb, h2) w2 := by
  intro a
  induction a with
  | nil =>
    intro w h ra e1
    simp only [runCalls, M.pure, Out.ok.injEq, Prod.mk.injEq] at e1
    obtain ⟨⟨rfl, rfl⟩, rfl⟩ := e1
    exact e2
  | cons c a ih =>
    intro w h ra e1
    unfold runCalls at e1
    cases hc : c.run P close h w with
    | panic p w' => rw [show (c.run P close h >>= _) w = _ from mbind_panic hc] at e1; cases e1
    | deep w' => rw [show (c.run P close h >>= _) w = _ from mbind_deep hc] at e1; cases e1
    | ok x w' =>
      rw [mbind_ok hc] at e1
      cases hd : runCalls P close x.2 a w' with
      | panic p w' => rw [show (runCalls P close x.2 a >>= _) _ = _ from mbind_panic hd] at e1; cases e1
      | deep w' => rw [show (runCalls P close x.2 a >>= _) _ = _ from mbind_deep hd] at e1; cases e1
      | ok y w'' =>
        rw [mbind_ok hd] at e1
        simp only [M.pure, Out.ok.injEq, Prod.mk.injEq] at e1
        obtain ⟨⟨rfl, rfl⟩, rfl⟩ := e1
        exact runCalls_cons (r := x.1) (h1 := x.2) hc (ih hd)

theorem runCalls_snoc {σ : Type} {P : Peer σ} {close : M σ (Option GoErr)} {c : Call KVs} (a : List (Call KVs)) : ∀ {w w2 : World σ} {h h2 : Handles} {rs : List Res},
    runCalls P close h (a ++ [c]) w = .ok (rs, h2) w2 →
    ∃ ra r h1 w1, runCalls P close h a w = .ok (ra, h1) w1 ∧ c.run P close h1 w1 = .ok (r, h2) w2 ∧ rs = ra ++ [r] := by
  induction a with
  | nil =>
    intro w w2 h h2 rs e1
    rw [List.nil_append] at e1
    unfold runCalls at e1
    cases hc : c.run P close h w with
    | panic p w' => rw [show (c.run P close h >>= _) w = _ from mbind_panic hc] at e1; cases e1
    | deep w' => rw [show (c.run P close h >>= _) w = _ from mbind_deep hc] at e1; cases e1
    | ok x w' =>
      rw [mbind_ok hc] at e1
      have e2 : runCalls P close x.2 [] w' = .ok ([], x.2) w' := rfl
      rw [mbind_ok e2] at e1
      simp only [M.pure, Out.ok.injEq, Prod.mk.injEq] at e1
      obtain ⟨⟨rfl, rfl⟩, rfl⟩ := e1
      exact ⟨[], x.1, h, w, rfl, hc, rfl⟩
  | cons c' a ih =>
    intro w w2 h h2 rs e1
    rw [List.cons_append] at e1
    unfold runCalls at e1
    cases hc : c'.run P close h w with
    | panic p w' => rw [show (c'.run P close h >>= _) w = _ from mbind_panic hc] at e1; cases e1
    | deep w' => rw [show (c'.run P close h >>= _) w = _ from mbind_deep hc] at e1; cases e1
    | ok x w' =>
      rw [mbind_ok hc] at e1
      cases hd : runCalls P close x.2 (a ++ [c]) w' with
      | panic p w' => rw [show (runCalls P close x.2 (a ++ [c]) >>= _) _ = _ from mbind_panic hd] at e1; cases e1
      | deep w' => rw [show (runCalls P close x.2 (a ++ [c]) >>= _) _ = _ from mbind_deep hd] at e1; cases e1
      | ok y w'' =>
        rw [mbind_ok hd] at e1
        simp only [M.pure, Out.ok.injEq, Prod.mk.injEq] at e1
        obtain ⟨⟨rfl, rfl⟩, rfl⟩ := e1
        obtain ⟨ra, r, h1, w1, e3, e4, e5⟩ := ih (rs := y.1) (h2 := y.2) hd
        exact ⟨x.1 :: ra, r, h1, w1, runCalls_cons (r := x.1) (h1 := x.2) hc e3, e4, by rw [e5]; rfl⟩

/-- One more call before. -/
theorem Ran.cons {c : Call KVs} {m : Call PSs} {s1 s2 : Sess δ} {r : Res} {cs : List (Call KVs)} {rs : List Res}
    (hm : ∀ s' r, s.step D m = some (s', r) → ∃ w' h', c.run D.peer close h w = .ok (r, h') w' ∧ Rep w' h' s')
    (hs : s.step D m = some (s1, r)) (hn : ∀ {w1 h1}, Rep w1 h1 s1 → Ran D close w1 h1 cs rs s2) :
    Ran D close w h (c :: cs) (r :: rs) s2 := by
  obtain ⟨w1, h1, e1, hr1⟩ := hm _ _ hs
  obtain ⟨w2, h2, e2, hr2⟩ := hn hr1
  exact ⟨w2, h2, runCalls_cons e1 e2, hr2⟩

/-- The calls one after the other. -/
theorem Ran.append {a b : List (Call KVs)} {ra rb : List Res} {s1 s2 : Sess δ} (h1 : Ran D close w h a ra s1)
    (h2 : ∀ {w1 h1}, Rep w1 h1 s1 → Ran D close w1 h1 b rb s2) : Ran D close w h (a ++ b) (ra ++ rb) s2 := by
  obtain ⟨w1, h1, e1, r1⟩ := h1
  obtain ⟨w2, h2, e2, r2⟩ := h2 r1
  exact ⟨w2, h2, runCalls_append e2 a e1, r2⟩

/-- A call without parameters. -/
theorem Ran.step {c : Call KVs} {m : Call PSs} (hr : Rep w h s) (hc : c.Deliverable s) (hu : ∀ m', c.Means m' → m' = m) {s1 s2 : Sess δ} {r : Res}
    {cs : List (Call KVs)} {rs : List Res} (hs : s.step D m = some (s1, r)) (hn : ∀ {w1 h1}, Rep w1 h1 s1 → Ran D close w1 h1 cs rs s2) :
    Ran D close w h (c :: cs) (r :: rs) s2 := by
  obtain ⟨m', h1, h2⟩ := simulates (D := D) close hr hc
  obtain rfl := hu _ h1
  exact Ran.cons h2 hs hn

theorem deliv_next : Call.next.Deliverable s := ⟨⟨_, .next⟩, by simp⟩
theorem deliv_nextPipe : Call.nextPipe.Deliverable s := ⟨⟨_, .nextPipe⟩, by simp⟩
theorem deliv_all : Call.all.Deliverable s := ⟨⟨_, .all⟩, by simp⟩
theorem deliv_closeRows : Call.closeRows.Deliverable s := ⟨⟨_, .closeRows⟩, by simp⟩
theorem deliv_closeStmt : Call.closeStmt.Deliverable s := ⟨⟨_, .closeStmt⟩, by simp⟩
theorem deliv_prepare {q : Str} : (Call.prepare q).Deliverable s := ⟨⟨_, .prepare⟩, by simp⟩
theorem deliv_preparePipe {q : List Str} : (Call.preparePipe q).Deliverable s := ⟨⟨_, .preparePipe⟩, by simp⟩

/-- The rows read up to the `k`-th, or the end. -/
theorem ran_next (p : Prep) (dr : Bool) (hd md : KVs) (k : Nat) :
    ∀ {w : World (Srv δ)} {h : Handles} {d : δ} {o : Open} {tx : Bool} {cs : Nat} (rs : List (List Val)),
    Rep w h ⟨d, o, tx, cs⟩ → o.cursor = .at p dr hd rs (.summary md) → o.drained = some (p, dr, none) → k ≤ rs.length + 1 →
    ∃ o', Ran D close w h (List.replicate k .next) ((rs.map Res.row ++ [Res.eof md]).take k) ⟨d, o', tx, cs⟩ ∧ o'.drained = some (p, dr, none) := by
  induction k with
  | zero => intro w h d o tx cs rs hr _ hdr _; exact ⟨o, by simpa using Ran.nil hr, hdr⟩
  | succ k ih =>
    intro w h d o tx cs rs hr hc hdr hk
    cases rs with
    | nil =>
      obtain rfl : k = 0 := by simpa using hk
      refine ⟨.ended p dr, ?_, rfl⟩
      refine Ran.step (m := .next) hr deliv_next (fun m' h => by cases h; rfl) (s1 := ⟨d, .ended p dr, tx, cs⟩) ?_ fun hr' => Ran.nil hr'
      simp only [Sess.step, hc]
    | cons r rs =>
      have hq : p.queries = [] := by
        cases o <;> simp only [Open.cursor] at hc
        all_goals first | (cases hc; done) | skip
        all_goals split at hc
        all_goals first | (cases hc; done) | skip
        all_goals (cases hc; assumption)
      have key : ∀ {w1 : World (Srv δ)} {h1 : Handles}, Rep w1 h1 ⟨d, .reading p dr hd rs (.summary md) [] 0, tx, cs⟩ → ∃ o', Ran D close w1 h1 (List.replicate k .next) ((rs.map Res.row ++ [Res.eof md]).take k) ⟨d, o', tx, cs⟩ ∧ o'.drained = some (p, dr, none) :=
        fun hr' => ih rs hr' (by simp [Open.cursor, hq]) (by simp [Open.drained, restFails]) (by simpa using hk)
      obtain ⟨m', h1, h2⟩ := simulates (D := D) (c := .next) close hr deliv_next
      cases h1
      obtain ⟨w1, h1, e1, hr1⟩ := h2 ⟨d, .reading p dr hd rs (.summary md) [] 0, tx, cs⟩ (.row r) (by simp only [Sess.step, hc])
      obtain ⟨o', ⟨w2, h3, e2, hr2⟩, h4⟩ := key hr1
      exact ⟨o', ⟨w2, h3, runCalls_cons e1 e2, hr2⟩, h4⟩

/-- The same for the rows of a pipeline. -/
theorem ran_nextPipe (p : Prep) (dr : Bool) (hq : p.queries ≠ []) (k : Nat) :
    ∀ {w : World (Srv δ)} {h : Handles} {d : δ} {tx : Bool} {cs n : Nat} (a : Answer) (as : List Answer),
    Rep w h ⟨d, .reading p dr a.header a.records (.summary a.summary) (as.map Answer.outcome) n, tx, cs⟩ → k ≤ (stepsOf (a :: as)).length →
    ∃ o', Ran D close w h (List.replicate k .nextPipe) (((stepsOf (a :: as)).take k).map PStep.res) ⟨d, o', tx, cs⟩ ∧ o'.drained = some (p, dr, none) := by
  have nofail : ∀ as : List Answer, (as.map Answer.outcome).findSome? Outcome.failure? = none := by
    intro as
    induction as with
    | nil => rfl
    | cons a as ih => simp [List.findSome?, Answer.outcome, Outcome.failure?, ih]
  induction k with
  | zero => intro w h d tx cs n a as hr _; exact ⟨_, by simpa using Ran.nil hr, by simp [Open.drained, restFails, nofail]⟩
  | succ k ih =>
    intro w h d tx cs n a as hr hk
    obtain ⟨m', h1, h2⟩ := simulates (D := D) (c := .nextPipe) close hr deliv_nextPipe
    cases h1
    obtain ⟨hd, rs, sm⟩ := a
    cases rs with
    | cons r rs =>
      obtain ⟨w1, h1, e1, hr1⟩ := h2 ⟨d, .reading p dr hd rs (.summary sm) (as.map Answer.outcome) n, tx, cs⟩ (.row r) (by simp [Sess.step, hq])
      have hst : stepsOf (⟨hd, r :: rs, sm⟩ :: as) = .row r :: stepsOf (⟨hd, rs, sm⟩ :: as) := by cases as <;> simp [stepsOf]
      rw [hst] at hk ⊢
      obtain ⟨o', ⟨w2, h3, e2, hr2⟩, h4⟩ := ih ⟨hd, rs, sm⟩ as hr1 (by simpa using hk)
      exact ⟨o', ⟨w2, h3, runCalls_cons e1 e2, hr2⟩, h4⟩
    | nil =>
      cases as with
      | nil =>
        obtain rfl : k = 0 := by simpa [stepsOf] using hk
        obtain ⟨w1, h1, e1, hr1⟩ := h2 ⟨d, .ended p dr, tx, cs⟩ .pipeEnd (by simp [Sess.step, hq])
        exact ⟨_, ⟨w1, h1, runCalls_cons e1 rfl, hr1⟩, rfl⟩
      | cons b as =>
        obtain ⟨w1, h1, e1, hr1⟩ := h2 ⟨d, .reading p dr b.header b.records (.summary b.summary) (as.map Answer.outcome) (n - 1), tx, cs⟩ (.next b.header b.header)
          (by simp [Sess.step, hq, Answer.outcome])
        obtain ⟨o', ⟨w2, h3, e2, hr2⟩, h4⟩ := ih b as hr1 (by simpa [stepsOf] using hk)
        exact ⟨o', ⟨w2, h3, runCalls_cons e1 e2, hr2⟩, h4⟩

/-- Closing rows that meet no failure. -/
theorem ran_closeRows {d : δ} {o : Open} {tx : Bool} {cs : Nat} {p : Prep} {dr : Bool} (hr : Rep w h ⟨d, o, tx, cs⟩)
    (hd : o.drained = some (p, dr, none)) : Ran D close w h [.closeRows] [.done] ⟨d, if dr then .idle else .stmt p, tx, cs⟩ :=
  Ran.step (m := .closeRows) hr deliv_closeRows (fun m' h => by cases h; rfl) (step_closeRows (D := D) hd) fun hr' => Ran.nil hr'

/-! ### Messages that can be sent mean something -/

theorem sendable_means {cs : Nat} {q : Str} {kvs : KVs} (hs : Sendable cs (.run q kvs)) : ∃ ps, MeansKVs kvs ps := by
  obtain ⟨_, _, _, h0, h1, _⟩ := id hs
  have hl : Live (freshConn 0 cs : World (Srv Nat)) 0 .ready := ⟨rfl, rfl, rfl, h0, h1⟩
  obtain ⟨x, b, h2, _⟩ := hl.send demo hs
  obtain ⟨ps, h3, _⟩ := req_run h2
  exact ⟨ps, h3⟩

theorem sendable_meansAll {cs : Nat} {l : List (Str × KVs)} (hs : ∀ x ∈ l, Sendable cs (.run x.1 x.2)) : ∃ m, MeansAll l m := by
  induction l with
  | nil => exact ⟨[], rfl⟩
  | cons x l ih =>
    obtain ⟨ps, h1⟩ := sendable_means (hs _ (List.mem_cons_self ..))
    obtain ⟨m, h2⟩ := ih fun y hy => hs y (List.mem_cons_of_mem _ hy)
    exact ⟨(x.1, ps) :: m, ps, m, h1, h2, rfl⟩

theorem ran_exec {d : δ} {tx : Bool} {cs : Nat} (hr : Rep w h ⟨d, .idle, tx, cs⟩) {q : Str} {kvs : KVs} (hs : Sendable cs (.run q kvs)) :
    ∃ ps, MeansKVs kvs ps ∧ Ran D close w h [.exec q kvs] [(D.exec d q ps).2.res] ⟨(D.exec d q ps).1, .idle, tx, cs⟩ := by
  obtain ⟨ps0, hps0⟩ := sendable_means hs
  obtain ⟨m, h1, h2⟩ := simulates (D := D) (c := .exec q kvs) close hr ⟨⟨_, .exec hps0⟩, hs⟩
  cases h1 with
  | exec h1 => exact ⟨_, h1, Ran.cons (c := .exec q kvs) h2 (by simp [Sess.step]) fun hr' => Ran.nil hr'⟩

/-! ### Pipelines whose queries all succeed -/

theorem runAll_answers {m : List (Str × PSs)} : ∀ {d : δ} {as : List Answer}, (D.runAll d m).2 = as.map Answer.outcome → as.length = m.length := by
  induction m with
  | nil => intro d as h; cases as <;> simp_all [DB.runAll]
  | cons x m ih =>
    intro d as h
    obtain ⟨q, ps⟩ := x
    simp only [DB.runAll] at h
    cases as with
    | nil => split at h <;> simp at h
    | cons a as =>
      split at h
      · simp only [List.map_cons, List.cons.injEq] at h
        simp [ih h.2]
      · rename_i hn
        simp only [List.map_cons, List.cons.injEq] at h
        rw [h.1] at hn
        simp [Answer.outcome, Outcome.succeeds] at hn

theorem openPipe_answers {d : δ} {o failed : Open} {tx direct : Bool} {cs : Nat} {p : Prep} {m : List (Str × PSs)} {a : Answer} {as : List Answer}
    (h : (D.runAll d m).2 = (a :: as).map Answer.outcome) :
    (⟨d, o, tx, cs⟩ : Sess δ).openPipe D direct failed p m =
      some (⟨(D.runAll d m).1, .reading p direct a.header a.records (.summary a.summary) (as.map Answer.outcome) (m.length - 1), tx, cs⟩, .rows a.header) := by
  cases m with
  | nil => simp [DB.runAll] at h
  | cons x m =>
    obtain ⟨q, ps⟩ := x
    simp only [DB.runAll, Sess.openPipe] at h ⊢
    rcases hx : D.exec d q ps with ⟨d1, o1⟩
    rw [hx] at h
    simp only at h
    by_cases hsu : o1.succeeds = true
    · rw [if_pos hsu] at h
      simp only [List.map_cons, List.cons.injEq] at h
      obtain ⟨rfl, h2⟩ := h
      simp [Answer.outcome, DB.after, h2, Outcome.succeeds]
    · rw [if_neg hsu] at h
      simp only [List.map_cons, List.cons.injEq] at h
      rw [h.1] at hsu
      simp [Answer.outcome, Outcome.succeeds] at hsu

/-- `QueryPipeline` on an idle connection and `k` calls of `NextPipeline`. -/
theorem ran_queryPipe {d : δ} {tx : Bool} {cs : Nat} (hr : Rep w h ⟨d, .idle, tx, cs⟩) {l : List (Str × KVs)} (hs : ∀ x ∈ l, Sendable cs (.run x.1 x.2)) :
    ∃ m, MeansAll l m ∧ ∀ a as k, (D.runAll d m).2 = (a :: as).map Answer.outcome → k ≤ (stepsOf (a :: as)).length →
      ∃ o', Ran D close w h (.queryPipe l :: List.replicate k .nextPipe) (.rows a.header :: ((stepsOf (a :: as)).take k).map PStep.res)
        ⟨(D.runAll d m).1, o', tx, cs⟩ ∧ o'.drained = some (⟨[], l.map Prod.fst⟩, true, none) := by
  obtain ⟨m0, hm0⟩ := sendable_meansAll hs
  obtain ⟨m, h1, h2⟩ := simulates (D := D) (c := .queryPipe l) close hr ⟨⟨_, .queryPipe hm0⟩, hs⟩
  cases h1 with
  | queryPipe h1 =>
  rename_i m
  refine ⟨m, h1, fun a as k ha hk => ?_⟩
  have hst := openPipe_answers (o := .idle) (failed := .leaked) (tx := tx) (direct := true) (cs := cs) (p := ⟨[], m.map Prod.fst⟩) ha
  obtain ⟨w1, h1', e1, hr1⟩ := h2 _ _ (show Sess.step D _ _ = _ from hst)
  have hne : l.map Prod.fst ≠ [] := by
    have := runAll_answers ha
    have h4 := meansAll_length h1
    intro h
    have : l = [] := by simpa using h
    subst this
    simp at h4
    subst h4
    simp at this
  rw [meansAll_fst h1] at hr1
  obtain ⟨o', ⟨w2, h3, e2, hr2⟩, h4⟩ := ran_nextPipe (D := D) (close := close) ⟨[], l.map Prod.fst⟩ true hne k a as hr1 hk
  exact ⟨o', ⟨w2, h3, runCalls_cons e1 e2, hr2⟩, h4⟩

/-- The same on a prepared pipeline. -/
theorem ran_stQueryPipe {d : δ} {tx : Bool} {cs : Nat} {qs : List Str} (hr : Rep w h ⟨d, .stmt ⟨[], qs⟩, tx, cs⟩) {l : List KVs} (hl : l.length = qs.length)
    (hs : ∀ x ∈ qs.zip l, Sendable cs (.run x.1 x.2)) :
    ∃ m, MeansAll (qs.zip l) m ∧ ∀ a as k, (D.runAll d m).2 = (a :: as).map Answer.outcome → k ≤ (stepsOf (a :: as)).length →
      ∃ o', Ran D close w h (.stQueryPipe l :: List.replicate k .nextPipe) (.rows a.header :: ((stepsOf (a :: as)).take k).map PStep.res)
        ⟨(D.runAll d m).1, o', tx, cs⟩ ∧ o'.drained = some (⟨[], qs⟩, false, none) := by
  obtain ⟨m0, hm0⟩ := sendable_meansAll hs
  obtain ⟨m, h1, h2⟩ := simulates (D := D) (c := .stQueryPipe l) close hr ⟨⟨_, .stQueryPipe (meansAll_params hl hm0).1⟩, hs⟩
  cases h1 with
  | stQueryPipe h1 =>
  rename_i m
  have hlm := meansParams_length h1
  have h1z : ∀ (l : List KVs) (m : List PSs) (qs : List Str), MeansParams l m → l.length = qs.length → MeansAll (qs.zip l) (qs.zip m) := by
    intro l
    induction l with
    | nil => intro m qs h hl; cases qs <;> simp_all [MeansParams, MeansAll]
    | cons x l ih =>
      intro m qs h hl
      obtain ⟨ps, rest, h3, h4, rfl⟩ := h
      cases qs with
      | nil => simp at hl
      | cons q qs => exact ⟨ps, qs.zip rest, h3, ih rest qs h4 (by simpa using hl), rfl⟩
  refine ⟨qs.zip m, h1z l m qs h1 hl, fun a as k ha hk => ?_⟩
  have hst := openPipe_answers (o := .stmt ⟨[], qs⟩) (failed := .stmt ⟨[], qs⟩) (tx := tx) (direct := false) (cs := cs) (p := ⟨[], qs⟩) ha
  obtain ⟨w1, h1', e1, hr1⟩ := h2 _ _ (show Sess.step D _ _ = _ by simp only [Sess.step]; rw [if_neg (by omega)]; exact hst)
  have hne : qs ≠ [] := by
    have := runAll_answers ha
    intro h
    subst h
    simp at this
  obtain ⟨o', ⟨w2, h3, e2, hr2⟩, h4⟩ := ran_nextPipe (D := D) (close := close) ⟨[], qs⟩ false hne k a as hr1 hk
  exact ⟨o', ⟨w2, h3, runCalls_cons e1 e2, hr2⟩, h4⟩

/-- `QueryNeo` on an idle connection and `k` calls of `NextNeo`. -/
theorem ran_query {d : δ} {tx : Bool} {cs : Nat} (hr : Rep w h ⟨d, .idle, tx, cs⟩) {q : Str} {kvs : KVs} (hs : Sendable cs (.run q kvs)) :
    ∃ ps, MeansKVs kvs ps ∧ ∀ hd rs md k, (D.exec d q ps).2 = .answer hd rs (.summary md) → k ≤ rs.length + 1 →
      ∃ o', Ran D close w h (.query q kvs :: List.replicate k .next) (.rows hd :: (rs.map Res.row ++ [Res.eof md]).take k)
        ⟨(D.exec d q ps).1, o', tx, cs⟩ ∧ o'.drained = some (⟨q, []⟩, true, none) := by
  obtain ⟨ps0, hps0⟩ := sendable_means hs
  obtain ⟨m, h1, h2⟩ := simulates (D := D) (c := .query q kvs) close hr ⟨⟨_, .query hps0⟩, hs⟩
  cases h1 with
  | query h1 =>
  rename_i ps
  refine ⟨ps, h1, fun hd rs md k ha hk => ?_⟩
  rcases hx : D.exec d q ps with ⟨d1, o1⟩
  rw [hx] at ha
  simp only at ha
  subst ha
  obtain ⟨w1, h1', e1, hr1⟩ := h2 ⟨d1, .reading ⟨q, []⟩ true hd rs (.summary md) [] 0, tx, cs⟩ (.rows hd) (by simp [Sess.step, hx])
  obtain ⟨o', ⟨w2, h3, e2, hr2⟩, h4⟩ := ran_next (D := D) (close := close) ⟨q, []⟩ true hd md k rs hr1 (by simp [Open.cursor]) (by simp [Open.drained, restFails]) hk
  exact ⟨o', ⟨w2, h3, runCalls_cons e1 e2, hr2⟩, h4⟩

end Bolt
