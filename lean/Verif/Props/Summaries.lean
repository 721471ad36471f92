import Verif.Props.Session2

/-!
# C89: the summaries of the queries of a pipeline
-/

namespace Bolt
open PackStream

/-- The two lists of answers have the same headers and the same records; the summaries may differ. -/
def AlikeButSummaries (as bs : List Answer) : Prop := as.map (fun a => (a.header, a.records)) = bs.map fun b => (b.header, b.records)

theorem stepsOf_alike : ∀ {as bs : List Answer}, AlikeButSummaries as bs → stepsOf as = stepsOf bs
  | [], [], _ => rfl
  | [], _ :: _, h => by simp [AlikeButSummaries] at h
  | _ :: _, [], h => by simp [AlikeButSummaries] at h
  | [a], [b], h => by
    simp only [AlikeButSummaries, List.map_cons, List.map_nil, List.cons.injEq, Prod.mk.injEq, and_true] at h
    simp [stepsOf, h.2]
  | [_], _ :: _ :: _, h => by simp [AlikeButSummaries] at h
  | _ :: _ :: _, [_], h => by simp [AlikeButSummaries] at h
  | a :: a2 :: as, b :: b2 :: bs, h => by
    have h2 : AlikeButSummaries (a2 :: as) (b2 :: bs) := by
      simp only [AlikeButSummaries, List.map_cons, List.cons.injEq] at h ⊢
      exact h.2
    have ih := stepsOf_alike h2
    simp only [AlikeButSummaries, List.map_cons, List.cons.injEq, Prod.mk.injEq] at h
    simp only [stepsOf, ih, h.1.2, h.2.1.1]

/-- C89, the summaries are lost: two servers whose answers to the queries of a pipeline differ in nothing but the
summaries give a client that walks all rows of the pipeline and closes them the same results. -/
theorem c89_lost {δ ε : Type} {D : DB δ} {E : DB ε} {close : M (Srv δ) (Option GoErr)} {close' : M (Srv ε) (Option GoErr)}
    {w : World (Srv δ)} {w' : World (Srv ε)} {d : δ} {e : ε} (h : Idle w d) (hk : w.sockCloseErr = false)
    (h' : Idle w' e) (hk' : w'.sockCloseErr = false) {l : List (Str × KVs)}
    (hs : ∀ x ∈ l, Sendable w.chunkSize (.run x.1 x.2)) (hs' : ∀ x ∈ l, Sendable w'.chunkSize (.run x.1 x.2)) :
    ∃ m m', MeansAll l m ∧ MeansAll l m' ∧ ∀ as bs, (D.runAll d m).2 = as.map Answer.outcome → (E.runAll e m').2 = bs.map Answer.outcome →
      AlikeButSummaries as bs → as ≠ [] →
      ∃ n rs h1 w1 h2 w2,
        runCalls D.peer close .none ((.queryPipe l :: List.replicate n .nextPipe) ++ [.closeRows]) w = .ok (rs, h1) w1 ∧
        runCalls E.peer close' .none ((.queryPipe l :: List.replicate n .nextPipe) ++ [.closeRows]) w' = .ok (rs, h2) w2 ∧
        .pipeEnd ∈ rs ∧ Idle w1 (D.runAll d m).1 ∧ Idle w2 (E.runAll e m').1 := by
  obtain ⟨m, h1, h2⟩ := c25_queryPipeline_partial (D := D) (close := close) h hk hs
  obtain ⟨m', h3, h4⟩ := c25_queryPipeline_partial (D := E) (close := close') h' hk' hs'
  refine ⟨m, m', h1, h3, fun as bs ha hb hab hne => ?_⟩
  match as, bs, hne with
  | [], _, hne => exact absurd rfl hne
  | _ :: _, [], _ => simp [AlikeButSummaries] at hab
  | a :: as, b :: bs, _ =>
    obtain ⟨_, h5, w1, h6, h7⟩ := h2 a as ha
    obtain ⟨_, h8, w2, h9, h10⟩ := h4 b bs hb
    have hh : a.header = b.header := by
      simp only [AlikeButSummaries, List.map_cons, List.cons.injEq, Prod.mk.injEq] at hab
      exact hab.1.1
    rw [← stepsOf_alike hab, ← hh] at h9
    obtain ⟨st, hst, _⟩ := stepsOf_last as a
    exact ⟨_, _, h5, w1, h8, w2, h6, h9, by simp [hst, PStep.res], h7, h10⟩

/-- C89, what NextPipeline returns instead, whatever the server does: with a new rows object it returns the `Metadata()`
of those rows, the header of the next query. -/
theorem c89_header_partial {σ : Type} {P : Peer σ} {close : M σ (Option GoErr)} {r r' : Nat} {w w' : World σ} {x : PipeRes}
    (h : nextPipeline P close r w = .ok x w') (hx : x.next = some r') : x.err = none ∧ x.row = none ∧ x.md = some (w'.row r').md := by
  have hdr : ∀ {row : Rows} {v : Val} {w2 : World σ}, pipeHeader row v w2 = .ok x w' → x.err = none ∧ x.row = none ∧ x.md = some (w'.row r').md := by
    intro row v w2 h
    cases v with
    | success md =>
      cases h
      cases hx
      refine ⟨rfl, rfl, ?_⟩
      simp [World.row, World.setStmt]
    | _ => cases h; cases hx
  unfold nextPipeline at h
  simp only [mbind_run, M.get] at h
  split at h
  · cases h; cases hx
  · simp only [mbind_run] at h
    split at h
    · next a w1 _ =>
      split at h
      · cases h; cases hx
      · simp only [mbind_run, M.get] at h
        split at h
        · cases h; cases hx
        · simp only [mbind_run] at h
          split at h
          · next b w2 _ =>
            obtain ⟨v, e⟩ := b
            cases e with
            | some e =>
              simp only at h
              split at h
              · exact hdr h
              · cases h; cases hx
            | none => exact hdr h
          · cases h
          · cases h
      · cases h; cases hx
      · cases h; cases hx
    · cases h
    · cases h

/-- C89 as stated: when the records of a query of a pipeline are used up, NextPipeline returns the summary of that query
(and the rows of the next one). -/
def SummariesReturned : Prop :=
  ∀ (δ : Type) (D : DB δ) (d : δ) (close : M (Srv δ) (Option GoErr)) (w : World (Srv δ)) (l : List (Str × KVs)),
    Idle w d → w.sockCloseErr = false → (∀ x ∈ l, Sendable w.chunkSize (.run x.1 x.2)) →
    ∃ m, MeansAll l m ∧ ∀ a b as, (D.runAll d m).2 = (a :: b :: as).map Answer.outcome →
      ∃ rs h' w', runCalls D.peer close .none (.queryPipe l :: List.replicate (a.records.length + 1) .nextPipe) w =
        .ok (rs ++ [.next a.summary b.header], h') w'

/-- C89 is false. -/
theorem c89_false : ¬ SummariesReturned := by
  intro H
  obtain ⟨m, h1, h2⟩ := H Nat demo 0 (closeN demo.peer 1) (freshConn 0 4096) [([65], []), ([67], []), ([65], [])] demo_idle rfl
    (fun x hx => by simp at hx; rcases hx with rfl | rfl | rfl <;> exact demo_sendable _ (by decide))
  obtain ⟨p1, r1, -, ⟨p2, r2, -, ⟨p3, r3, -, rfl, rfl⟩, rfl⟩, rfl⟩ := h1
  obtain ⟨rs, h', w', h3⟩ := h2 ⟨[([104], .int .int64 0)], [[.int .int8 1], [.int .int8 2]], [([115], .int .int64 0)]⟩ ⟨[], [], []⟩
    [⟨[([104], .int .int64 2)], [[.int .int8 1], [.int .int8 2]], [([115], .int .int64 2)]⟩] rfl
  obtain ⟨m, h1, h4⟩ := ran_queryPipe (D := demo) (close := closeN demo.peer 1) ((demo_idle).rep rfl) (l := [([65], []), ([67], []), ([65], [])])
    (fun x hx => by simp at hx; rcases hx with rfl | rfl | rfl <;> exact demo_sendable _ (by decide))
  obtain ⟨p1, r1, -, ⟨p2, r2, -, ⟨p3, r3, -, rfl, rfl⟩, rfl⟩, rfl⟩ := h1
  obtain ⟨_, ⟨w2, h5, e2, _⟩, _⟩ := h4 _ _ 3 (show _ = demoAnswers.map Answer.outcome from rfl) (by decide)
  have e3 : (rs ++ [Res.next [([115], .int .int64 0)] []]).getLast? = (Res.rows [([104], .int .int64 0)] ::
      ((stepsOf demoAnswers).take 3).map PStep.res).getLast? := by
    have := h3.symm.trans e2
    simp only [Out.ok.injEq, Prod.mk.injEq] at this
    exact congrArg List.getLast? this.1.1
  simp [demoAnswers, stepsOf, PStep.res] at e3

/-- Two servers that differ in the summaries only. -/
def counting (n : _root_.Int) : DB Nat where
  exec d _ _ := (d + 1, .answer [] [[.int .int64 d]] (.summary [([110], .int .int64 n)]))

example : ∃ n rs h1 w1 h2 w2,
    runCalls (counting 1).peer (closeN (counting 1).peer 1) .none ((.queryPipe [([65], []), ([67], [])] :: List.replicate n .nextPipe) ++ [.closeRows]) (freshConn 0 4096) = .ok (rs, h1) w1 ∧
    runCalls (counting 2).peer (closeN (counting 2).peer 1) .none ((.queryPipe [([65], []), ([67], [])] :: List.replicate n .nextPipe) ++ [.closeRows]) (freshConn 0 4096) = .ok (rs, h2) w2 ∧
    .pipeEnd ∈ rs := by
  have hs : ∀ x ∈ ([([65], []), ([67], [])] : List (Str × KVs)), Sendable 4096 (.run x.1 x.2) := fun x hx => by
    simp at hx; rcases hx with rfl | rfl <;> exact demo_sendable _ (by decide)
  obtain ⟨m, m', h1, h2, h3⟩ := c89_lost (D := counting 1) (E := counting 2) (close := closeN (counting 1).peer 1) (close' := closeN (counting 2).peer 1)
    (w := freshConn 0 4096) (w' := freshConn 0 4096) (idle_fresh 0 (by decide) (by decide)) rfl (idle_fresh 0 (by decide) (by decide)) rfl hs hs
  obtain ⟨p1, r1, -, ⟨p2, r2, -, rfl, rfl⟩, rfl⟩ := h1
  obtain ⟨p1, r1, -, ⟨p2, r2, -, rfl, rfl⟩, rfl⟩ := h2
  obtain ⟨n, rs, a, b, c, e, h4, h5, h6, _⟩ := h3 [⟨[], [[.int .int64 0]], [([110], .int .int64 1)]⟩, ⟨[], [[.int .int64 1]], [([110], .int .int64 1)]⟩]
    [⟨[], [[.int .int64 0]], [([110], .int .int64 2)]⟩, ⟨[], [[.int .int64 1]], [([110], .int .int64 2)]⟩] rfl rfl rfl (by simp)
  exact ⟨n, rs, a, b, c, e, h4, h5, h6⟩

end Bolt
