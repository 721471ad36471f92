import Verif.Spec.Ways
import Verif.Props.Session1

/-! C95: the ways to run a query agree. -/

namespace Bolt
open PackStream

variable {δ : Type} {D : DB δ} {close : M (Srv δ) (Option GoErr)} {w : World (Srv δ)} {h : Handles} {d : δ}

theorem runCalls_inv {σ : Type} {P : Peer σ} {close : M σ (Option GoErr)} {w w2 : World σ} {h h2 : Handles} {c : Call KVs} {cs : List (Call KVs)} {r : Res} {rs : List Res}
    (e : runCalls P close h (c :: cs) w = .ok (r :: rs, h2) w2) :
    ∃ h1 w1, c.run P close h w = .ok (r, h1) w1 ∧ runCalls P close h1 cs w1 = .ok (rs, h2) w2 := by
  unfold runCalls at e
  cases hc : c.run P close h w with
  | panic p w' => rw [show (c.run P close h >>= _) w = _ from mbind_panic hc] at e; cases e
  | deep w' => rw [show (c.run P close h >>= _) w = _ from mbind_deep hc] at e; cases e
  | ok x w' =>
    rw [mbind_ok hc] at e
    cases hd : runCalls P close x.2 cs w' with
    | panic p w' => rw [show (runCalls P close x.2 cs >>= _) _ = _ from mbind_panic hd] at e; cases e
    | deep w' => rw [show (runCalls P close x.2 cs >>= _) _ = _ from mbind_deep hd] at e; cases e
    | ok y w'' =>
      rw [mbind_ok hd] at e
      simp only [M.pure, Out.ok.injEq, Prod.mk.injEq, List.cons.injEq] at e
      obtain ⟨⟨⟨rfl, rfl⟩, rfl⟩, rfl⟩ := e
      exact ⟨x.2, w', rfl, hd⟩

/-- A call with one meaning does what the abstract session does, and nothing else. -/
theorem step_run {s : Sess δ} (hr : Rep w h s) {c : Call KVs} {m : Call PSs} (hc : c.Deliverable s) (hu : ∀ m', c.Means m' → m' = m)
    {s1 : Sess δ} {r : Res} (hs : s.step D m = some (s1, r)) : ∃ h1 w1, c.run D.peer close h w = .ok (r, h1) w1 ∧ Rep w1 h1 s1 := by
  obtain ⟨m', h1, h2⟩ := simulates (D := D) close hr hc
  obtain rfl := hu _ h1
  obtain ⟨w1, h1, e, hr1⟩ := h2 _ _ hs
  exact ⟨h1, w1, e, hr1⟩

theorem step_inv {s : Sess δ} (hr : Rep w h s) {c : Call KVs} {m : Call PSs} (hc : c.Deliverable s) (hu : ∀ m', c.Means m' → m' = m)
    {s1 : Sess δ} {r r' : Res} (hs : s.step D m = some (s1, r)) {cs : List (Call KVs)} {rs : List Res} {h2 : Handles} {w2 : World (Srv δ)}
    (e : runCalls D.peer close h (c :: cs) w = .ok (r' :: rs, h2) w2) :
    r' = r ∧ ∃ h1 w1, Rep w1 h1 s1 ∧ runCalls D.peer close h1 cs w1 = .ok (rs, h2) w2 := by
  obtain ⟨h1, w1, e1, hr1⟩ := step_run (close := close) hr hc hu hs
  obtain ⟨h3, w3, e3, e4⟩ := runCalls_inv e
  rw [e1] at e3
  simp only [Out.ok.injEq, Prod.mk.injEq] at e3
  obtain ⟨⟨rfl, rfl⟩, rfl⟩ := e3
  exact ⟨rfl, h1, w1, hr1, e4⟩

section
variable {tx : Bool} {cs : Nat} {q : Str} {kvs : KVs} {ps : PSs}

theorem means_exec (hu : Definite kvs) (hm : MeansKVs kvs ps) : ∀ m', Call.Means (.exec q kvs) m' → m' = .exec q ps := by
  intro m' hx; cases hx with | exec hx => rw [hu _ _ hx hm]
theorem means_query (hu : Definite kvs) (hm : MeansKVs kvs ps) : ∀ m', Call.Means (.query q kvs) m' → m' = .query q ps := by
  intro m' hx; cases hx with | query hx => rw [hu _ _ hx hm]
theorem means_queryAll (hu : Definite kvs) (hm : MeansKVs kvs ps) : ∀ m', Call.Means (.queryAll q kvs) m' → m' = .queryAll q ps := by
  intro m' hx; cases hx with | queryAll hx => rw [hu _ _ hx hm]
theorem means_stQuery (hu : Definite kvs) (hm : MeansKVs kvs ps) : ∀ m', Call.Means (.stQuery kvs) m' → m' = .stQuery ps := by
  intro m' hx; cases hx with | stQuery hx => rw [hu _ _ hx hm]
theorem means_stExec (hu : Definite kvs) (hm : MeansKVs kvs ps) : ∀ m', Call.Means (.stExec kvs) m' → m' = .stExec ps := by
  intro m' hx; cases hx with | stExec hx => rw [hu _ _ hx hm]

theorem definite_all {l : List (Str × KVs)} (hu : ∀ x ∈ l, Definite x.2) : ∀ {m m'}, MeansAll l m → MeansAll l m' → m' = m := by
  induction l with
  | nil => intro m m' h h'; rw [show m = [] from h, show m' = [] from h']
  | cons x l ih =>
    intro m m' h h'
    obtain ⟨ps, r, h1, h2, rfl⟩ := h
    obtain ⟨ps', r', h1', h2', rfl⟩ := h'
    rw [hu x (List.mem_cons_self ..) _ _ h1 h1', ih (fun y hy => hu y (List.mem_cons_of_mem _ hy)) h2 h2']

theorem definite_params : ∀ {l : List KVs} (_ : ∀ x ∈ l, Definite x) {m m' : List PSs}, MeansParams l m → MeansParams l m' → m' = m := by
  intro l
  induction l with
  | nil => intro hu m m' h h'; rw [show m = [] from h, show m' = [] from h']
  | cons x l ih =>
    intro hu m m' h h'
    obtain ⟨ps, r, h1, h2, rfl⟩ := h
    obtain ⟨ps', r', h1', h2', rfl⟩ := h'
    rw [hu x (List.mem_cons_self ..) _ _ h1 h1', ih (fun y hy => hu y (List.mem_cons_of_mem _ hy)) h2 h2']

/-! ### What an answer makes the ways return -/

variable (hr : Rep w h ⟨d, .idle, tx, cs⟩) (hs : Sendable cs (.run q kvs)) (hu : Definite kvs) (hm : MeansKVs kvs ps) {d' : δ} {a : Answer}
  (ha : D.exec d q ps = (d', a.outcome))
include hr hs hu hm ha

theorem fwd_exec : Ran D close w h [.exec q kvs] [.summary a.summary] ⟨d', .idle, tx, cs⟩ :=
  Ran.step hr ⟨⟨_, .exec hm⟩, hs⟩ (means_exec hu hm) (by simp [Sess.step, ha, Answer.outcome, Outcome.res]) fun hr' => Ran.nil hr'

theorem fwd_queryAll : Ran D close w h [.queryAll q kvs] [.data a.records a.header a.summary] ⟨d', .idle, tx, cs⟩ :=
  Ran.step hr ⟨⟨_, .queryAll hm⟩, hs⟩ (means_queryAll hu hm) (by simp [Sess.step, ha, Answer.outcome]) fun hr' => Ran.nil hr'

theorem fwd_all : Ran D close w h (wayAll (q, kvs)) a.viaAll ⟨d', .idle, tx, cs⟩ :=
  Ran.step hr ⟨⟨_, .query hm⟩, hs⟩ (means_query hu hm) (s1 := ⟨d', .reading ⟨q, []⟩ true a.header a.records (.summary a.summary) [] 0, tx, cs⟩)
      (by simp [Sess.step, ha, Answer.outcome]) fun hr' =>
  Ran.step (m := .all) hr' deliv_all (fun _ h => by cases h; rfl) (s1 := ⟨d', .ended ⟨q, []⟩ true, tx, cs⟩) (by simp [Sess.step, Open.cursor]) fun hr' =>
  Ran.step (m := .closeRows) hr' deliv_closeRows (fun _ h => by cases h; rfl) (by simp [Sess.step]) fun hr' => Ran.nil hr'

theorem fwd_next : Ran D close w h (wayNext (a.records.length + 1) (q, kvs)) a.viaNext ⟨d', .idle, tx, cs⟩ := by
  refine Ran.step hr ⟨⟨_, .query hm⟩, hs⟩ (means_query hu hm) (s1 := ⟨d', .reading ⟨q, []⟩ true a.header a.records (.summary a.summary) [] 0, tx, cs⟩)
      (by simp [Sess.step, ha, Answer.outcome]) fun hr' => ?_
  obtain ⟨o', h1, h2⟩ := ran_next (D := D) (close := close) ⟨q, []⟩ true a.header a.summary (a.records.length + 1) a.records hr'
    (by simp [Open.cursor]) (by simp [Open.drained, restFails]) (Nat.le_refl _)
  have := Ran.append h1 (fun hr'' => ran_closeRows (D := D) (close := close) hr'' h2)
  rw [List.take_of_length_le (by simp)] at this
  simpa using this

theorem fwd_stmt : Ran D close w h (wayStmt (a.records.length + 1) (q, kvs)) (.done :: a.viaNext ++ [.done]) ⟨d', .idle, tx, cs⟩ := by
  refine Ran.step (m := .prepare q) hr deliv_prepare (fun _ h => by cases h; rfl) (s1 := ⟨d, .stmt ⟨q, []⟩, tx, cs⟩) (by simp [Sess.step]) fun hr' => ?_
  refine Ran.step hr' ⟨⟨_, .stQuery hm⟩, hs⟩ (means_stQuery hu hm) (s1 := ⟨d', .fresh ⟨q, []⟩ a.header a.records (.summary a.summary), tx, cs⟩)
      (by simp [Sess.step, ha, Answer.outcome]) fun hr' => ?_
  obtain ⟨o', h1, h2⟩ := ran_next (D := D) (close := close) ⟨q, []⟩ false a.header a.summary (a.records.length + 1) a.records hr'
    (by simp [Open.cursor]) (by simp [Open.drained, restFails]) (Nat.le_refl _)
  have h3 := Ran.append h1 (fun hr'' => ran_closeRows (D := D) (close := close) hr'' h2)
  have h4 := Ran.append h3 (fun hr'' => Ran.step (D := D) (close := close) (m := .closeStmt) hr'' deliv_closeStmt (fun _ h => by cases h; rfl)
    (s1 := ⟨d', .idle, tx, cs⟩) (r := .done) (by simp [Sess.step, Sess.release]) fun hr' => Ran.nil hr')
  rw [List.take_of_length_le (by simp)] at h4
  simpa using h4

theorem fwd_stmtExec : Ran D close w h (wayStmtExec (q, kvs)) [.done, .summary a.summary, .done] ⟨d', .idle, tx, cs⟩ :=
  Ran.step (m := .prepare q) hr deliv_prepare (fun _ h => by cases h; rfl) (s1 := ⟨d, .stmt ⟨q, []⟩, tx, cs⟩) (by simp [Sess.step]) fun hr' =>
  Ran.step hr' ⟨⟨_, .stExec hm⟩, hs⟩ (means_stExec hu hm) (s1 := ⟨d', .stmt ⟨q, []⟩, tx, cs⟩) (by simp [Sess.step, ha, Answer.outcome, Outcome.res]) fun hr' =>
  Ran.step (m := .closeStmt) hr' deliv_closeStmt (fun _ h => by cases h; rfl) (by simp [Sess.step, Sess.release]) fun hr' => Ran.nil hr'

end

/-! ### Runs of many queries -/

theorem runAll_cons {q : Str} {ps : PSs} {m : List (Str × PSs)} {d1 : δ} {a : Answer} (ha : D.exec d q ps = (d1, a.outcome)) :
    D.runAll d ((q, ps) :: m) = ((D.runAll d1 m).1, a.outcome :: (D.runAll d1 m).2) := by
  simp [DB.runAll, ha, Answer.outcome, Outcome.succeeds]

/-- A way that works for one query works for many, one after the other. -/
theorem fwd_each {tx : Bool} {cs : Nat} {way : Nat → Str × KVs → List (Call KVs)} {via : Answer → List Res}
    (hway : ∀ {w : World (Srv δ)} {h : Handles} {d : δ} {q : Str} {kvs : KVs} {ps : PSs} {d1 : δ} {a : Answer}, Rep w h ⟨d, .idle, tx, cs⟩ → Sendable cs (.run q kvs) →
      Definite kvs → MeansKVs kvs ps → D.exec d q ps = (d1, a.outcome) → Ran D close w h (way (a.records.length + 1) (q, kvs)) (via a) ⟨d1, .idle, tx, cs⟩)
    (l : List (Str × KVs)) : ∀ {w : World (Srv δ)} {h : Handles} {d : δ} {m : List (Str × PSs)} {as : List Answer}, Rep w h ⟨d, .idle, tx, cs⟩ →
    (∀ x ∈ l, Sendable cs (.run x.1 x.2)) → (∀ x ∈ l, Definite x.2) → MeansAll l m → (D.runAll d m).2 = as.map Answer.outcome →
    Ran D close w h ((l.zip as).flatMap fun x => way (x.2.records.length + 1) x.1) (as.flatMap via) ⟨(D.runAll d m).1, .idle, tx, cs⟩ := by
  induction l with
  | nil =>
    intro w h d m as hr _ _ hm ha
    obtain rfl : m = [] := hm
    cases as with
    | nil => exact Ran.nil hr
    | cons a as => simp [DB.runAll] at ha
  | cons x l ih =>
    intro w h d m as hr hs hu hm ha
    obtain ⟨q, kvs⟩ := x
    obtain ⟨ps, m, h1, h2, rfl⟩ := hm
    cases as with
    | nil => simp only [DB.runAll] at ha; split at ha <;> simp at ha
    | cons a as =>
      rcases hx : D.exec d q ps with ⟨d1, o1⟩
      have ho : o1 = a.outcome := by
        simp only [DB.runAll, hx] at ha
        split at ha
        · simp only [List.map_cons, List.cons.injEq] at ha; exact ha.1
        · simp only [List.map_cons, List.cons.injEq] at ha; exact ha.1
      subst ho
      rw [runAll_cons hx] at ha ⊢
      simp only [List.map_cons, List.cons.injEq, true_and] at ha
      simp only [List.zip_cons_cons, List.flatMap_cons]
      exact Ran.append (hway hr (hs _ (List.mem_cons_self ..)) (hu _ (List.mem_cons_self ..)) h1 hx) fun hr' =>
        ih hr' (fun y hy => hs y (List.mem_cons_of_mem _ hy)) (fun y hy => hu y (List.mem_cons_of_mem _ hy)) h2 ha

/-- Executing one by one without a failure: the database gave an answer to each. -/
theorem ref_exec {tx : Bool} {cs : Nat} (l : List (Str × KVs)) : ∀ {w w1 : World (Srv δ)} {h h1 : Handles} {d : δ} {m : List (Str × PSs)} {rs : List KVs},
    Rep w h ⟨d, .idle, tx, cs⟩ → (∀ x ∈ l, Sendable cs (.run x.1 x.2)) → (∀ x ∈ l, Definite x.2) → MeansAll l m →
    runCalls D.peer close h (l.map fun x => .exec x.1 x.2) w = .ok (rs.map .summary, h1) w1 →
    Rep w1 h1 ⟨(D.runAll d m).1, .idle, tx, cs⟩ ∧ ∃ as : List Answer, (D.runAll d m).2 = as.map Answer.outcome ∧ as.map Answer.summary = rs := by
  induction l with
  | nil =>
    intro w w1 h h1 d m rs hr _ _ hm e
    obtain rfl : m = [] := hm
    simp only [List.map_nil, runCalls, M.pure, Out.ok.injEq, Prod.mk.injEq] at e
    obtain ⟨⟨e1, rfl⟩, rfl⟩ := e
    exact ⟨hr, [], rfl, by simpa using e1⟩
  | cons x l ih =>
    intro w w1 h h1 d m rs hr hs hu hm e
    obtain ⟨q, kvs⟩ := x
    obtain ⟨ps, m, h2, h3, rfl⟩ := hm
    cases rs with
    | nil =>
      exfalso
      obtain ⟨h4, w4, e4, hr4⟩ := step_run (D := D) (close := close) hr (c := .exec q kvs) ⟨⟨_, .exec h2⟩, hs _ (List.mem_cons_self ..)⟩ (means_exec (hu _ (List.mem_cons_self ..)) h2)
        (by simp only [Sess.step]; rfl)
      simp only [List.map_cons, List.map_nil] at e
      unfold runCalls at e
      rw [mbind_ok e4] at e
      cases hd : runCalls D.peer close h4 (l.map fun x => .exec x.1 x.2) w4 with
      | panic p w' => rw [show (runCalls D.peer close h4 _ >>= _) _ = _ from mbind_panic hd] at e; cases e
      | deep w' => rw [show (runCalls D.peer close h4 _ >>= _) _ = _ from mbind_deep hd] at e; cases e
      | ok y w'' => rw [mbind_ok hd] at e; simp [M.pure] at e
    | cons r rs =>
      obtain ⟨h4, h5, w5, hr5, e5⟩ := step_inv (D := D) hr (c := .exec q kvs) ⟨⟨_, .exec h2⟩, hs _ (List.mem_cons_self ..)⟩ (means_exec (hu _ (List.mem_cons_self ..)) h2)
        (by simp only [Sess.step]; rfl) e
      rcases hx : D.exec d q ps with ⟨d1, o1⟩
      rw [hx] at h4 hr5
      obtain ⟨a, rfl, rfl⟩ : ∃ a : Answer, o1 = a.outcome ∧ r = a.summary := by
        cases o1 with
        | refused md => simp [Outcome.res] at h4
        | answer hd rs e =>
          cases e with
          | broken md => simp [Outcome.res] at h4
          | summary md => exact ⟨⟨hd, rs, md⟩, rfl, by simpa [Outcome.res] using h4⟩
      obtain ⟨h6, as, h7, h8⟩ := ih hr5 (fun y hy => hs y (List.mem_cons_of_mem _ hy)) (fun y hy => hu y (List.mem_cons_of_mem _ hy)) h3 e5
      rw [runAll_cons hx]
      exact ⟨h6, a :: as, by simp [h7], by simp [h8]⟩

/-- Reading all rows one query after the other without a failure: the database gave these answers. -/
theorem ref_all {tx : Bool} {cs : Nat} (l : List (Str × KVs)) : ∀ {w w1 : World (Srv δ)} {h h1 : Handles} {d : δ} {m : List (Str × PSs)} {as : List Answer},
    Rep w h ⟨d, .idle, tx, cs⟩ → (∀ x ∈ l, Sendable cs (.run x.1 x.2)) → (∀ x ∈ l, Definite x.2) → MeansAll l m → l.length = as.length →
    runCalls D.peer close h (l.flatMap wayAll) w = .ok (as.flatMap Answer.viaAll, h1) w1 →
    Rep w1 h1 ⟨(D.runAll d m).1, .idle, tx, cs⟩ ∧ (D.runAll d m).2 = as.map Answer.outcome := by
  induction l with
  | nil =>
    intro w w1 h h1 d m as hr _ _ hm hl e
    obtain rfl : m = [] := hm
    obtain rfl : as = [] := by simpa using hl.symm
    simp only [List.flatMap_nil, runCalls, M.pure, Out.ok.injEq, Prod.mk.injEq] at e
    obtain ⟨⟨_, rfl⟩, rfl⟩ := e
    exact ⟨hr, rfl⟩
  | cons x l ih =>
    intro w w1 h h1 d m as hr hs hu hm hl e
    obtain ⟨q, kvs⟩ := x
    obtain ⟨ps, m, h2, h3, rfl⟩ := hm
    cases as with
    | nil => simp at hl
    | cons a as =>
      simp only [List.flatMap_cons, wayAll, Answer.viaAll, List.cons_append, List.nil_append] at e
      rcases hx : D.exec d q ps with ⟨d1, o1⟩
      have hdel : Call.Deliverable (.query q kvs) (⟨d, .idle, tx, cs⟩ : Sess δ) := ⟨⟨_, .query h2⟩, hs _ (List.mem_cons_self ..)⟩
      have hmn := means_query (q := q) (hu _ (List.mem_cons_self ..)) h2
      cases o1 with
      | refused md =>
        obtain ⟨h4, _⟩ := step_inv (D := D) hr hdel hmn (s1 := ⟨d1, .idle, tx, cs⟩) (r := .failure md) (by simp [Sess.step, hx]) e
        cases h4
      | answer hd rs en =>
        obtain ⟨h4, h5, w5, hr5, e5⟩ := step_inv (D := D) hr hdel hmn (s1 := ⟨d1, .reading ⟨q, []⟩ true hd rs en [] 0, tx, cs⟩) (r := .rows hd) (by simp [Sess.step, hx]) e
        cases en with
        | broken md =>
          obtain ⟨h6, _⟩ := step_inv (D := D) hr5 deliv_all (m := .all) (fun _ h => by cases h; rfl) (s1 := ⟨d1, .dead ⟨q, []⟩ true, tx, cs⟩) (r := .failure md)
            (by simp [Sess.step, Open.cursor]) e5
          cases h6
        | summary md =>
          obtain ⟨h6, h7, w7, hr7, e7⟩ := step_inv (D := D) hr5 deliv_all (m := .all) (fun _ h => by cases h; rfl) (s1 := ⟨d1, .ended ⟨q, []⟩ true, tx, cs⟩) (r := .all rs md)
            (by simp [Sess.step, Open.cursor]) e5
          obtain ⟨_, h8, w8, hr8, e8⟩ := step_inv (D := D) hr7 deliv_closeRows (m := .closeRows) (fun _ h => by cases h; rfl) (s1 := ⟨d1, .idle, tx, cs⟩) (r := .done)
            (by simp [Sess.step]) e7
          have hao : Outcome.answer hd rs (.summary md) = a.outcome := by
            injection h4 with h4
            injection h6 with h6 h6'
            rw [← h4, ← h6, ← h6']; rfl
          rw [hao] at hx
          obtain ⟨h9, h10⟩ := ih hr8 (fun y hy => hs y (List.mem_cons_of_mem _ hy)) (fun y hy => hu y (List.mem_cons_of_mem _ hy)) h3 (by simpa using hl) e8
          rw [runAll_cons hx]
          exact ⟨h9, by simp [h10]⟩

theorem Ran.comes {cs : List (Call KVs)} {rs : List Res} {d' : δ} {tx : Bool} {n : Nat} (hr : Ran D close w .none cs rs ⟨d', .idle, tx, n⟩) : Comes D close w cs rs d' := by
  obtain ⟨w', h', e, hr'⟩ := hr
  exact ⟨h', w', e, hr'.idle⟩

theorem zip_flatMap {α β γ : Type} (f : α → List γ) : ∀ {l : List α} {as : List β}, l.length = as.length → ((l.zip as).flatMap fun x => f x.1) = l.flatMap f := by
  intro l
  induction l with
  | nil => intro as _; rfl
  | cons x l ih =>
    intro as hl
    cases as with
    | nil => simp at hl
    | cons a as => simp [ih (as := as) (by simpa using hl)]

theorem flatMap_one {α β : Type} (f : α → β) : ∀ l : List α, (l.flatMap fun x => [f x]) = l.map f := by
  intro l
  induction l with
  | nil => rfl
  | cons x l ih => simp [List.flatMap_cons, ih]

theorem pipeRes_answers (as : List Answer) : pipeRes (as.map Answer.outcome) = .summaries (as.map Answer.summary) := by
  have h1 : (as.map Answer.outcome).findSome? Outcome.failure? = none := by
    induction as with
    | nil => rfl
    | cons a as ih => simp [List.findSome?, Answer.outcome, Outcome.failure?, ih]
  have h2 : summariesOf (as.map Answer.outcome) = as.map Answer.summary := by
    clear h1
    induction as with
    | nil => rfl
    | cons a as ih => simpa [summariesOf, Answer.outcome, List.filterMap_cons] using ih
  simp [pipeRes, h1, h2]

section
variable {tx : Bool} {cs : Nat} {l : List (Str × KVs)} {m : List (Str × PSs)} {as : List Answer}
  (hr : Rep w h ⟨d, .idle, tx, cs⟩) (hs : ∀ x ∈ l, Sendable cs (.run x.1 x.2)) (hu : ∀ x ∈ l, Definite x.2) (hm : MeansAll l m)
  (ha : (D.runAll d m).2 = as.map Answer.outcome)
include hr hs hu hm ha

theorem fwd_execPipe : Ran D close w h [.execPipe l] [.summaries (as.map Answer.summary)] ⟨(D.runAll d m).1, .idle, tx, cs⟩ :=
  Ran.step (m := .execPipe m) hr ⟨⟨_, .execPipe hm⟩, hs⟩ (fun m' hx => by cases hx with | execPipe hx => rw [definite_all hu hm hx])
    (by simp only [Sess.step, ha, pipeRes_answers]) fun hr' => Ran.nil hr'

theorem fwd_prepExec : Ran D close w h [.preparePipe (l.map Prod.fst), .stExecPipe (l.map Prod.snd), .closeStmt] [.done, .summaries (as.map Answer.summary), .done]
    ⟨(D.runAll d m).1, .idle, tx, cs⟩ := by
  have hz : (l.map Prod.fst).zip (l.map Prod.snd) = l := by rw [← List.unzip_fst, ← List.unzip_snd]; exact List.zip_unzip l
  obtain ⟨hp, hq⟩ := meansAll_params (qs := l.map Prod.fst) (l := l.map Prod.snd) (by simp) (by rw [hz]; exact hm)
  refine Ran.step (m := .preparePipe (l.map Prod.fst)) hr deliv_preparePipe (fun _ h => by cases h; rfl) (s1 := ⟨d, .stmt ⟨[], l.map Prod.fst⟩, tx, cs⟩)
    (by simp [Sess.step]) fun hr' => ?_
  refine Ran.step (m := .stExecPipe (m.map Prod.snd)) hr' ⟨⟨_, .stExecPipe hp⟩, by simpa only [hz] using hs⟩
    (fun m' hx => by
      cases hx with
      | stExecPipe hx => rw [definite_params (fun x hx => by obtain ⟨y, hy, rfl⟩ := List.mem_map.mp hx; exact hu y hy) hp hx])
    (s1 := ⟨(D.runAll d m).1, .stmt ⟨[], l.map Prod.fst⟩, tx, cs⟩) ?_ fun hr' => ?_
  · have hl : (m.map Prod.snd).length = (l.map Prod.fst).length := by simp [meansAll_length hm]
    simp only [Sess.step, hl, ne_eq, not_true_eq_false, if_false, ← hq, ha, pipeRes_answers]
  · exact Ran.step (m := .closeStmt) hr' deliv_closeStmt (fun _ h => by cases h; rfl) (by simp [Sess.step, Sess.release]) fun hr' => Ran.nil hr'

theorem fwd_pipe {a : Answer} {as' : List Answer} (he : as = a :: as') :
    Ran D close w h ((.queryPipe l :: List.replicate (stepsOf as).length .nextPipe) ++ [.closeRows])
      ((.rows a.header :: (stepsOf as).map PStep.res) ++ [.done]) ⟨(D.runAll d m).1, .idle, tx, cs⟩ := by
  subst he
  obtain ⟨m', h1, h2⟩ := ran_queryPipe (D := D) (close := close) hr hs
  obtain rfl := definite_all hu hm h1
  obtain ⟨o', h3, h4⟩ := h2 a as' _ ha (Nat.le_refl _)
  rw [List.take_length] at h3
  exact Ran.append h3 fun hr' => ran_closeRows hr' h4

theorem fwd_prepPipe {a : Answer} {as' : List Answer} (he : as = a :: as') :
    Ran D close w h (.preparePipe (l.map Prod.fst) :: (.stQueryPipe (l.map Prod.snd) :: List.replicate (stepsOf as).length .nextPipe) ++ [.closeRows, .closeStmt])
      (.done :: (.rows a.header :: (stepsOf as).map PStep.res) ++ [.done, .done]) ⟨(D.runAll d m).1, .idle, tx, cs⟩ := by
  subst he
  have hz : (l.map Prod.fst).zip (l.map Prod.snd) = l := by rw [← List.unzip_fst, ← List.unzip_snd]; exact List.zip_unzip l
  refine Ran.step (m := .preparePipe (l.map Prod.fst)) hr deliv_preparePipe (fun _ h => by cases h; rfl) (s1 := ⟨d, .stmt ⟨[], l.map Prod.fst⟩, tx, cs⟩)
    (by simp [Sess.step]) fun hr' => ?_
  obtain ⟨m', h1, h2⟩ := ran_stQueryPipe (D := D) (close := close) hr' (l := l.map Prod.snd) (by simp) (by rw [hz]; exact hs)
  rw [hz] at h1
  obtain rfl := definite_all hu hm h1
  obtain ⟨o', h3, h4⟩ := h2 a as' _ ha (Nat.le_refl _)
  rw [List.take_length] at h3
  have h5 := Ran.append h3 fun hr' => ran_closeRows (D := D) (close := close) hr' h4
  have h6 := Ran.append h5 (fun hr'' => Ran.step (D := D) (close := close) (m := .closeStmt) hr'' deliv_closeStmt (fun _ h => by cases h; rfl)
    (s1 := ⟨(D.runAll d m').1, .idle, tx, cs⟩) (r := .done) (by simp [Sess.step, Sess.release]) fun hr' => Ran.nil hr')
  simpa using h6

end

/-- C95, proved part: if executing queries one after the other gives their summaries without an error, then so do ExecPipeline,
a prepared pipeline, and preparing and executing each; all leave the database in the same state and the connection idle.
For any database, parameters with one meaning that can be sent. Missing: failures (`c95_false`). -/
theorem c95_exec_partial (hi : Idle w d) (hk : w.sockCloseErr = false) {l : List (Str × KVs)} (hs : ∀ x ∈ l, Sendable w.chunkSize (.run x.1 x.2))
    (hu : ∀ x ∈ l, Definite x.2) {rs : List KVs} {h1 : Handles} {w1 : World (Srv δ)}
    (e : runCalls D.peer close .none (l.map fun x => .exec x.1 x.2) w = .ok (rs.map .summary, h1) w1) :
    ∃ d', Idle w1 d' ∧
      Comes D close w [.execPipe l] [.summaries rs] d' ∧
      Comes D close w [.preparePipe (l.map Prod.fst), .stExecPipe (l.map Prod.snd), .closeStmt] [.done, .summaries rs, .done] d' ∧
      Comes D close w (l.flatMap wayStmtExec) (rs.flatMap fun r => [.done, .summary r, .done]) d' := by
  obtain ⟨m, hm⟩ := sendable_meansAll hs
  obtain ⟨h2, as, ha, rfl⟩ := ref_exec l (hi.rep hk) hs hu hm e
  have hl : l.length = as.length := by rw [runAll_answers ha, meansAll_length hm]
  refine ⟨_, h2.idle, (fwd_execPipe (hi.rep hk) hs hu hm ha).comes, (fwd_prepExec (hi.rep hk) hs hu hm ha).comes, ?_⟩
  have h3 := fwd_each (D := D) (close := close) (way := fun _ x => wayStmtExec x) (via := fun a => [.done, .summary a.summary, .done])
    (fun hr hs hu hm ha => fwd_stmtExec hr hs hu hm ha) l (hi.rep hk) hs hu hm ha
  rw [zip_flatMap _ hl] at h3
  have h4 := h3.comes
  rw [List.flatMap_map]
  exact h4

/-- C95, proved part: if QueryNeo, All and Close, for one query after the other, give headers, rows and summaries, then
QueryNeoAll gives the same of each; so does reading row by row, of a direct and of a prepared query; ExecNeo gives the same
summaries; and a pipeline, direct or prepared, gives the same headers and rows. All leave the database in the same state and
the connection idle. -/
theorem c95_query_partial (hi : Idle w d) (hk : w.sockCloseErr = false) {l : List (Str × KVs)} (hs : ∀ x ∈ l, Sendable w.chunkSize (.run x.1 x.2))
    (hu : ∀ x ∈ l, Definite x.2) {as : List Answer} (hl : l.length = as.length) {h1 : Handles} {w1 : World (Srv δ)}
    (e : runCalls D.peer close .none (l.flatMap wayAll) w = .ok (as.flatMap Answer.viaAll, h1) w1) :
    ∃ d', Idle w1 d' ∧
      Comes D close w (l.map fun x => .queryAll x.1 x.2) (as.map fun a => .data a.records a.header a.summary) d' ∧
      Comes D close w ((l.zip as).flatMap fun x => wayNext (x.2.records.length + 1) x.1) (as.flatMap Answer.viaNext) d' ∧
      Comes D close w ((l.zip as).flatMap fun x => wayStmt (x.2.records.length + 1) x.1) (as.flatMap fun a => .done :: a.viaNext ++ [.done]) d' ∧
      Comes D close w (l.map fun x => .exec x.1 x.2) (as.map fun a => .summary a.summary) d' ∧
      ∀ a as', as = a :: as' →
        Comes D close w ((.queryPipe l :: List.replicate (stepsOf as).length .nextPipe) ++ [.closeRows])
          ((.rows a.header :: (stepsOf as).map PStep.res) ++ [.done]) d' ∧
        Comes D close w (.preparePipe (l.map Prod.fst) :: (.stQueryPipe (l.map Prod.snd) :: List.replicate (stepsOf as).length .nextPipe) ++ [.closeRows, .closeStmt])
          (.done :: (.rows a.header :: (stepsOf as).map PStep.res) ++ [.done, .done]) d' := by
  obtain ⟨m, hm⟩ := sendable_meansAll hs
  obtain ⟨h2, ha⟩ := ref_all l (hi.rep hk) hs hu hm hl e
  refine ⟨_, h2.idle, ?_, ?_, ?_, ?_, ?_⟩
  · have h3 := fwd_each (D := D) (close := close) (way := fun _ x => [.queryAll x.1 x.2]) (via := fun a => [.data a.records a.header a.summary])
      (fun hr hs hu hm ha => fwd_queryAll hr hs hu hm ha) l (hi.rep hk) hs hu hm ha
    rw [zip_flatMap (fun x : Str × KVs => [Call.queryAll x.1 x.2]) hl] at h3
    rw [flatMap_one, flatMap_one] at h3
    exact h3.comes
  · exact (fwd_each (D := D) (close := close) (way := wayNext) (via := Answer.viaNext)
      (fun hr hs hu hm ha => fwd_next hr hs hu hm ha) l (hi.rep hk) hs hu hm ha).comes
  · exact (fwd_each (D := D) (close := close) (way := wayStmt) (via := fun a => .done :: a.viaNext ++ [.done])
      (fun hr hs hu hm ha => fwd_stmt hr hs hu hm ha) l (hi.rep hk) hs hu hm ha).comes
  · have h3 := fwd_each (D := D) (close := close) (way := fun _ x => [.exec x.1 x.2]) (via := fun a => [.summary a.summary])
      (fun hr hs hu hm ha => fwd_exec hr hs hu hm ha) l (hi.rep hk) hs hu hm ha
    rw [zip_flatMap (fun x : Str × KVs => [Call.exec x.1 x.2]) hl] at h3
    rw [flatMap_one, flatMap_one] at h3
    exact h3.comes
  · intro a as' he
    exact ⟨(fwd_pipe (hi.rep hk) hs hu hm ha he).comes, (fwd_prepPipe (hi.rep hk) hs hu hm ha he).comes⟩

/-- One by one up to the first failure. -/
theorem ref_fail {tx : Bool} {cs : Nat} (l : List (Str × KVs)) : ∀ {w w1 : World (Srv δ)} {h h1 : Handles} {d : δ} {x : Str × KVs} {more : List (Str × KVs)}
    {m : List (Str × PSs)} {rs : List KVs} {md : KVs},
    Rep w h ⟨d, .idle, tx, cs⟩ → (∀ y ∈ l ++ x :: more, Sendable cs (.run y.1 y.2)) → (∀ y ∈ l ++ x :: more, Definite y.2) → MeansAll (l ++ x :: more) m →
    rs.length = l.length →
    runCalls D.peer close h ((l ++ [x]).map fun y => .exec y.1 y.2) w = .ok (rs.map .summary ++ [.failure md], h1) w1 →
    Rep w1 h1 ⟨(D.runAll d m).1, .idle, tx, cs⟩ ∧ (D.runAll d m).2.findSome? Outcome.failure? = some md := by
  induction l with
  | nil =>
    intro w w1 h h1 d x more m rs md hr hs hu hm hl e
    obtain ⟨q, kvs⟩ := x
    obtain ⟨ps, m, h2, h3, rfl⟩ := hm
    obtain rfl : rs = [] := by simpa using hl
    obtain ⟨h4, h5, w5, hr5, e5⟩ := step_inv (D := D) hr (c := .exec q kvs) ⟨⟨_, .exec h2⟩, hs (q, kvs) (by simp)⟩ (means_exec (hu (q, kvs) (by simp)) h2)
        (by simp only [Sess.step]; rfl) e
    have e6 : (Out.ok (([] : List Res), h5) w5 : Out (Srv δ) _) = .ok ([], h1) w1 := e5
    simp only [Out.ok.injEq, Prod.mk.injEq] at e6
    obtain ⟨⟨_, rfl⟩, rfl⟩ := e6
    rcases hx : D.exec d q ps with ⟨d1, o1⟩
    rw [hx] at h4 hr5
    have hf : o1.failure? = some md ∧ o1.succeeds = false := by
      cases o1 with
      | refused md' => simp [Outcome.res] at h4; exact ⟨by rw [h4]; rfl, rfl⟩
      | answer hd rs e =>
        cases e with
        | broken md' => simp [Outcome.res] at h4; exact ⟨by rw [h4]; rfl, rfl⟩
        | summary md' => simp [Outcome.res] at h4
    simp only [DB.runAll, hx, hf.2, Bool.false_eq_true, if_false]
    exact ⟨hr5, by simp [hf.1]⟩
  | cons y l ih =>
    intro w w1 h h1 d x more m rs md hr hs hu hm hl e
    obtain ⟨q, kvs⟩ := y
    obtain ⟨ps, m, h2, h3, rfl⟩ := hm
    cases rs with
    | nil => simp at hl
    | cons r rs =>
      obtain ⟨h4, h5, w5, hr5, e5⟩ := step_inv (D := D) hr (c := .exec q kvs) ⟨⟨_, .exec h2⟩, hs (q, kvs) (by simp)⟩ (means_exec (hu (q, kvs) (by simp)) h2)
        (by simp only [Sess.step]; rfl) e
      rcases hx : D.exec d q ps with ⟨d1, o1⟩
      rw [hx] at h4 hr5
      obtain ⟨a, rfl, rfl⟩ : ∃ a : Answer, o1 = a.outcome ∧ r = a.summary := by
        cases o1 with
        | refused md => simp [Outcome.res] at h4
        | answer hd rs e =>
          cases e with
          | broken md => simp [Outcome.res] at h4
          | summary md => exact ⟨⟨hd, rs, md⟩, rfl, by simpa [Outcome.res] using h4⟩
      obtain ⟨h6, h7⟩ := ih hr5 (fun y hy => hs y (List.mem_cons_of_mem _ hy)) (fun y hy => hu y (List.mem_cons_of_mem _ hy)) h3 (by simpa using hl) e5
      rw [runAll_cons hx]
      exact ⟨h6, by rw [List.findSome?_cons]; exact h7⟩

/-- C95, proved part: if executing queries one after the other first fails at `x`, then a pipeline that begins with these queries
fails with the same failure and leaves the database where the failed query left it, whatever else the pipeline holds. -/
theorem c95_failure_partial (hi : Idle w d) (hk : w.sockCloseErr = false) {l more : List (Str × KVs)} {x : Str × KVs}
    (hs : ∀ y ∈ l ++ x :: more, Sendable w.chunkSize (.run y.1 y.2)) (hu : ∀ y ∈ l ++ x :: more, Definite y.2) {rs : List KVs} (hl : rs.length = l.length)
    {md : KVs} {h1 : Handles} {w1 : World (Srv δ)}
    (e : runCalls D.peer close .none ((l ++ [x]).map fun y => .exec y.1 y.2) w = .ok (rs.map .summary ++ [.failure md], h1) w1) :
    ∃ d', Idle w1 d' ∧ Comes D close w [.execPipe (l ++ x :: more)] [.failure md] d' := by
  obtain ⟨m, hm⟩ := sendable_meansAll hs
  obtain ⟨h2, h3⟩ := ref_fail l (hi.rep hk) hs hu hm hl e
  refine ⟨_, h2.idle, Ran.comes (Ran.step (m := .execPipe m) (hi.rep hk) ⟨⟨_, .execPipe hm⟩, hs⟩ (fun m' hx => by cases hx with | execPipe hx => rw [definite_all hu hm hx])
    (s1 := ⟨(D.runAll d m).1, .idle, false, w.chunkSize⟩) (by simp only [Sess.step, pipeRes, h3]) fun hr' => Ran.nil hr')⟩

/-- Parameters without float32 have one meaning. -/
def Val.noF32Here : Val → Prop
  | .float32 _ => False
  | _ => True

mutual
theorem means_unique : ∀ (v : Val) {p p' : PS}, v.All Val.noF32Here → Means v p → Means v p' → p = p'
  | .nil, _, _, _, h, h' => by simp only [Means] at h h'; rw [h, h']
  | .bool b, _, _, _, h, h' => by simp only [Means] at h h'; rw [h, h']
  | .int _ v, _, _, _, h, h' => by simp only [Means] at h h'; rw [h, h']
  | .float32 f, _, _, hn, _, _ => by simp [Val.All, Val.noF32Here] at hn
  | .float64 d, _, _, _, h, h' => by simp only [Means] at h h'; rw [h, h']
  | .str s, _, _, _, h, h' => by simp only [Means] at h h'; rw [h, h']
  | .list xs, _, _, hn, h, h' => by
    obtain ⟨_, h1, rfl⟩ := h; obtain ⟨_, h1', rfl⟩ := h'; rw [meansList_unique xs hn.2 h1 h1']
  | .typedSlice xs, _, _, hn, h, h' => by
    obtain ⟨_, h1, rfl⟩ := h; obtain ⟨_, h1', rfl⟩ := h'; rw [meansList_unique xs hn.2 h1 h1']
  | .map kvs, _, _, hn, h, h' => by
    obtain ⟨_, h1, rfl⟩ := h; obtain ⟨_, h1', rfl⟩ := h'; rw [meansKVs_unique kvs hn.2 h1 h1']
  | .node _ _ kvs, _, _, hn, h, h' => by
    obtain ⟨_, h1, rfl⟩ := h; obtain ⟨_, h1', rfl⟩ := h'; rw [meansKVs_unique kvs hn.2 h1 h1']
  | .rel _ _ _ _ kvs, _, _, hn, h, h' => by
    obtain ⟨_, h1, rfl⟩ := h; obtain ⟨_, h1', rfl⟩ := h'; rw [meansKVs_unique kvs hn.2 h1 h1']
  | .unbound _ _ kvs, _, _, hn, h, h' => by
    obtain ⟨_, h1, rfl⟩ := h; obtain ⟨_, h1', rfl⟩ := h'; rw [meansKVs_unique kvs hn.2 h1 h1']
  | .path ns rs _, _, _, hn, h, h' => by
    obtain ⟨_, _, h1, h2, rfl⟩ := h; obtain ⟨_, _, h1', h2', rfl⟩ := h'
    rw [meansList_unique ns hn.2.1 h1 h1', meansList_unique rs hn.2.2 h2 h2']
  | .record xs, _, _, hn, h, h' => by
    obtain ⟨_, h1, rfl⟩ := h; obtain ⟨_, h1', rfl⟩ := h'; rw [meansList_unique xs hn.2 h1 h1']
  | .success kvs, _, _, hn, h, h' => by
    obtain ⟨_, h1, rfl⟩ := h; obtain ⟨_, h1', rfl⟩ := h'; rw [meansKVs_unique kvs hn.2 h1 h1']
  | .failure kvs, _, _, hn, h, h' => by
    obtain ⟨_, h1, rfl⟩ := h; obtain ⟨_, h1', rfl⟩ := h'; rw [meansKVs_unique kvs hn.2 h1 h1']
  | .ignored, _, _, _, h, h' => by simp only [Means] at h h'; rw [h, h']
  | .ackFailure, _, _, _, h, h' => by simp only [Means] at h h'; rw [h, h']
  | .discardAll, _, _, _, h, h' => by simp only [Means] at h h'; rw [h, h']
  | .pullAll, _, _, _, h, h' => by simp only [Means] at h h'; rw [h, h']
  | .reset, _, _, _, h, h' => by simp only [Means] at h h'; rw [h, h']
  | .init _ kvs, _, _, hn, h, h' => by
    obtain ⟨_, h1, rfl⟩ := h; obtain ⟨_, h1', rfl⟩ := h'; rw [meansKVs_unique kvs hn.2 h1 h1']
  | .run _ kvs, _, _, hn, h, h' => by
    obtain ⟨_, h1, rfl⟩ := h; obtain ⟨_, h1', rfl⟩ := h'; rw [meansKVs_unique kvs hn.2 h1 h1']
  | .userStruct sig xs, _, _, hn, h, h' => by
    obtain ⟨_, b, h1, h2, rfl⟩ := h; obtain ⟨_, b', h1', h2', rfl⟩ := h'
    have : b = b' := UInt8.toNat_inj.mp (by omega)
    rw [meansList_unique xs hn.2 h1 h1', this]
  | .other _, _, _, _, h, _ => by simp [Means] at h

theorem meansList_unique : ∀ (xs : List Val) {p p' : List PS}, Val.AllList Val.noF32Here xs → MeansList xs p → MeansList xs p' → p = p'
  | [], _, _, _, h, h' => by rw [show _ = [] from h, show _ = [] from h']
  | x :: xs, _, _, hn, h, h' => by
    obtain ⟨_, _, h1, h2, rfl⟩ := h; obtain ⟨_, _, h1', h2', rfl⟩ := h'
    rw [means_unique x hn.1 h1 h1', meansList_unique xs hn.2 h2 h2']

theorem meansKVs_unique : ∀ (xs : KVs) {p p' : PSs}, Val.AllKVs Val.noF32Here xs → MeansKVs xs p → MeansKVs xs p' → p = p'
  | [], _, _, _, h, h' => by rw [show _ = [] from h, show _ = [] from h']
  | (k, x) :: xs, _, _, hn, h, h' => by
    obtain ⟨_, _, h1, h2, rfl⟩ := h; obtain ⟨_, _, h1', h2', rfl⟩ := h'
    rw [means_unique x hn.1 h1 h1', meansKVs_unique xs hn.2 h2 h2']
end

theorem c95_definite {kvs : KVs} (h : Val.AllKVs Val.noF32Here kvs) : Definite kvs := fun _ _ => meansKVs_unique kvs h

theorem definite_nil : Definite [] := c95_definite trivial

/-- C95 is false with failures: of two queries the first of which is refused, the second is executed when they are made one
after the other, and not when they are made as a pipeline. -/
theorem c95_false (close : M (Srv Nat) (Option GoErr)) :
    Comes demo close (freshConn 0 4096) [.exec [82, 82] [], .exec [65] []] [.failure [([114], .int .int64 0)], .summary [([115], .int .int64 1)]] 2 ∧
    Comes demo close (freshConn 0 4096) [.execPipe [([82, 82], []), ([65], [])]] [.failure [([114], .int .int64 0)]] 1 := by
  have h0 := demo_idle.rep rfl
  have hM : MeansAll [([82, 82], []), ([65], [])] [([82, 82], []), ([65], [])] := ⟨[], _, rfl, ⟨[], _, rfl, rfl, rfl⟩, rfl⟩
  refine ⟨Ran.comes (Ran.step (m := .exec [82, 82] []) h0 ⟨⟨_, .exec (kvs := []) (ps := []) rfl⟩, demo_sendable _ (by decide)⟩
      (fun _ h => by cases h with | exec h => cases h; rfl) (s1 := ⟨1, .idle, false, 4096⟩) (by simp [Sess.step, demo, freshConn, Outcome.res]) fun hr =>
    Ran.step (m := .exec [65] []) hr ⟨⟨_, .exec (kvs := []) (ps := []) rfl⟩, demo_sendable _ (by decide)⟩
      (fun _ h => by cases h with | exec h => cases h; rfl) (s1 := ⟨2, .idle, false, 4096⟩) (by simp [Sess.step, demo, Outcome.res]) fun hr => Ran.nil hr),
    Ran.comes (Ran.step (m := .execPipe [([82, 82], []), ([65], [])]) h0
      ⟨⟨_, .execPipe hM⟩, ?_⟩ ?_ (s1 := ⟨1, .idle, false, 4096⟩) ?_ fun hr => Ran.nil hr)⟩
  · intro x hx
    simp only [List.mem_cons, List.not_mem_nil, or_false] at hx
    rcases hx with rfl | rfl <;> exact demo_sendable _ (by decide)
  · intro m' hx
    cases hx with
    | execPipe hx => rw [definite_all (l := [([82, 82], []), ([65], [])]) (by simp [definite_nil]) hM hx]
  · simp [Sess.step, demo, freshConn, DB.runAll, Outcome.succeeds, pipeRes, Outcome.failure?]

/-- Two queries with two rows each: from reading them one after the other it follows what the pipeline gives. -/
example (close : M (Srv Nat) (Option GoErr)) : ∃ d', Comes demo close (freshConn 0 4096) [.exec [65] [], .exec [65, 65] []] [.summary [([115], .int .int64 0)], .summary [([115], .int .int64 1)]] d' ∧
    Comes demo close (freshConn 0 4096) [.execPipe [([65], []), ([65, 65], [])]] [.summaries [[([115], .int .int64 0)], [([115], .int .int64 1)]]] d' := by
  have hs : ∀ x ∈ [(([65] : Str), ([] : KVs)), ([65, 65], [])], Sendable 4096 (.run x.1 x.2) := by
    intro x hx
    simp only [List.mem_cons, List.not_mem_nil, or_false] at hx
    rcases hx with rfl | rfl <;> exact demo_sendable _ (by decide)
  obtain ⟨w', h', e, hr⟩ : Ran demo close (freshConn 0 4096) .none [.exec [65] [], .exec [65, 65] []] [.summary [([115], .int .int64 0)], .summary [([115], .int .int64 1)]] ⟨2, .idle, false, 4096⟩ :=
    Ran.step (m := .exec [65] []) (demo_idle.rep rfl) ⟨⟨_, .exec (kvs := []) (ps := []) rfl⟩, demo_sendable _ (by decide)⟩
      (fun _ h => by cases h with | exec h => cases h; rfl) (s1 := ⟨1, .idle, false, 4096⟩) (by simp [Sess.step, demo, freshConn, Outcome.res]) fun hr =>
    Ran.step (m := .exec [65, 65] []) hr ⟨⟨_, .exec (kvs := []) (ps := []) rfl⟩, demo_sendable _ (by decide)⟩
      (fun _ h => by cases h with | exec h => cases h; rfl) (s1 := ⟨2, .idle, false, 4096⟩) (by simp [Sess.step, demo, Outcome.res]) fun hr => Ran.nil hr
  obtain ⟨d', h1, h2, _⟩ := c95_exec_partial (D := demo) (close := close) demo_idle rfl (l := [([65], []), ([65, 65], [])]) hs (by simp [definite_nil])
    (rs := [[([115], .int .int64 0)], [([115], .int .int64 1)]]) e
  exact ⟨d', ⟨h', w', e, h1⟩, h2⟩

end Bolt
