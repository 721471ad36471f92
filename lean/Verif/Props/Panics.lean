import Verif.Proofs.NoPanic2
import Verif.Proofs.Framing
import Verif.Proofs.Run
import Verif.Spec.Histories

/-! # C65: which calls panic -/

namespace Bolt

variable {σ : Type}

/-- **C65** (the part that holds). Any peer whose messages do not make the decoder panic (C15), every reachable state,
every call on an object that exists: the only panics are nil dereferences, of `QueryNeo`/`QueryNeoAll` of the connection
after their failure handling closed it, and of calls on rows whose statement was closed while they were open. All
other calls never panic. Missing for the full statement: these two, see `c65_false_server`, `c65_false_order`, and the
unbounded recursion `c65_false_recursion`. -/
theorem c65_panics_partial {P : Peer σ} (hP : P.Tame) {n : Nat} {w0 w w' : World σ} (h0 : NewConn w0)
    (ht : ∀ i ∈ w0.inbox, i.Tame) (hr : Reach P n w0 w) {op : Op} (he : op.Exists w) {p : Panic}
    (h : op.run P (closeN P n) w = .panic p w') :
    p = .nilDeref ∧
      ((∃ q kvs, (op = .query q kvs ∨ op = .queryAll q kvs) ∧ w'.closed = true) ∨
       (∃ r, (op = .next r ∨ op = .all r ∨ op = .nextPipe r ∨ op = .closeRows r) ∧ Detached w r)) := by
  have := pan_op hP (pan_closeN hP n) (Whole.reach hP (.new h0 ht) hr) op he
  unfold Pan at this
  rw [h] at this
  cases op with
  | query q kvs => exact ⟨this.1, .inl ⟨q, kvs, .inl rfl, this.2⟩⟩
  | queryAll q kvs => exact ⟨this.1, .inl ⟨q, kvs, .inr rfl, this.2⟩⟩
  | next r => exact ⟨this.1, .inr ⟨r, .inl rfl, this.2.2⟩⟩
  | all r => exact ⟨this.1, .inr ⟨r, .inr (.inl rfl), this.2.2⟩⟩
  | nextPipe r => exact ⟨this.1, .inr ⟨r, .inr (.inr (.inl rfl)), this.2.2⟩⟩
  | closeRows r => exact ⟨this.1, .inr ⟨r, .inr (.inr (.inr rfl)), this.2.2⟩⟩
  | _ => exact this.elim

/-- The panic passes the test. -/
def Out.panics {α : Type} (o : Out σ α) (p : Panic → World σ → Bool) : Bool :=
  match o with
  | .panic q w => p q w
  | _ => false

theorem Out.of_panics {α : Type} {o : Out σ α} {p : Panic → World σ → Bool} (h : o.panics p = true) : ∃ q w, o = .panic q w ∧ p q w = true := by
  cases o with
  | ok => cases h
  | panic q w => exact ⟨q, w, rfl, h⟩
  | deep => cases h

/-- **C65 is false**: a server that answers a query, the acknowledgement and the reset with FAILURE makes `QueryNeo`
panic. -/
theorem c65_false_server : ∃ w', (Op.query [65] []).run script (closeN script 1)
    (scriptConn [[.val (.failure [])], [], [.val (.failure [])], [.val (.failure [])]]) = .panic .nilDeref w' ∧ w'.closed = true := by
  obtain ⟨q, w, h1, h2⟩ := Out.of_panics (o := (Op.query [65] []).run script (closeN script 1)
      (scriptConn [[.val (.failure [])], [], [.val (.failure [])], [.val (.failure [])]]))
    (p := fun q w => match q with | .nilDeref => w.closed | _ => false) (by decide +kernel)
  cases q with
  | nilDeref => exact ⟨w, h1, h2⟩
  | _ => cases h2

/-- **C65 is false** against a server that behaves: committing while direct rows are open, then reading them; and closing
the connection while they are open, then closing them. -/
theorem c65_false_order :
    (∃ w', Op.runAll script (closeN script 1) [.begin, .query [65] [], .commit 0, .next 0]
      (scriptConn (List.replicate 6 [.val (.success [])])) = .panic .nilDeref w') ∧
    (∃ w', Op.runAll script (closeN script 1) [.query [65] [], .close, .closeRows 0]
      (scriptConn (List.replicate 2 [.val (.success [])])) = .panic .nilDeref w') := by
  constructor
  · obtain ⟨q, w, h1, h2⟩ := Out.of_panics (o := Op.runAll script (closeN script 1) [.begin, .query [65] [], .commit 0, .next 0]
        (scriptConn (List.replicate 6 [.val (.success [])])))
      (p := fun q _ => match q with | .nilDeref => true | _ => false) (by decide +kernel)
    cases q with
    | nilDeref => exact ⟨w, h1⟩
    | _ => cases h2
  · obtain ⟨q, w, h1, h2⟩ := Out.of_panics (o := Op.runAll script (closeN script 1) [.query [65] [], .close, .closeRows 0]
        (scriptConn (List.replicate 2 [.val (.success [])])))
      (p := fun q _ => match q with | .nilDeref => true | _ => false) (by decide +kernel)
    cases q with
    | nilDeref => exact ⟨w, h1⟩
    | _ => cases h2

/-- The hypotheses of `c65_panics_partial` are met by a peer that answers everything with SUCCESS, in a state reached by a
query and a `Close` that both succeed; the next call is one of the panics. -/
theorem c65_example : yes.Tame ∧ NewConn yesConn ∧ ∃ w w', Reach yes 1 yesConn w ∧ (Op.next 0).Exists w ∧
    (Op.next 0).run yes (closeN yes 1) w = .panic .nilDeref w' ∧ Detached w 0 := by
  refine ⟨?_, ⟨rfl, rfl, rfl, rfl, rfl, rfl⟩, ?_⟩
  · intro s bs i hi
    simp only [yes] at hi
    split at hi
    · cases hi
    · simp only [List.mem_singleton] at hi; subst hi; trivial
  · obtain ⟨a1, w1, h1, t1⟩ := Out.of_test (o := (Op.query [65] []).run yes (closeN yes 1) yesConn)
      (p := fun _ w1 => (Op.close.run yes (closeN yes 1) w1).test fun _ w2 => decide (0 < w2.rows.length) && !(w2.row 0).closed &&
        !(w2.stmt (w2.row 0).stmt).conn && ((Op.next 0).run yes (closeN yes 1) w2).panics fun q _ => match q with | .nilDeref => true | _ => false)
      (by decide +kernel)
    obtain ⟨a2, w2, h2, t2⟩ := Out.of_test t1
    simp only [Bool.and_eq_true, Bool.not_eq_true', decide_eq_true_eq] at t2
    obtain ⟨⟨⟨t3, t4⟩, t5⟩, t6⟩ := t2
    obtain ⟨q, w3, h3, t7⟩ := Out.of_panics t6
    cases q with
    | nilDeref => exact ⟨w2, w3, .step (.step (.refl _) (op := .query [65] []) trivial h1) (op := .close) trivial h2, t3, h3, t4, t5⟩
    | _ => cases t7

/-! ## Unbounded recursion -/

/-- A connection to `wall` with open rows that are not consumed. -/
structure Stuck (w : World Bool) : Prop where
  closed : w.closed = false
  statement : w.statement = some 0
  sclosed : (w.stmt 0).closed = false
  conn : (w.stmt 0).conn = true
  srows : (w.stmt 0).rows = some 0
  rclosed : (w.row 0).closed = false
  rclose : (w.row 0).closeStmt = false
  consumed : (w.row 0).consumed = false
  rstmt : (w.row 0).stmt = 0
  srv : w.srv = true
  budget : w.sink.budget = none
  inbox : w.inbox = []

theorem wall_send {w : World Bool} (h : Stuck w) (v : Val) (he : (encOps v).err = none) :
    ∃ w1, send wall v w = .ok none w1 ∧ w1.inbox = [.val (.failure [])] ∧ Stuck { w1 with inbox := [] } := by
  obtain ⟨cks, buf, _, _, _, h4⟩ := encodeTo_unlimited w.chunkSize w.sink.out v
  rw [he] at h4
  have hk : w.sink = ⟨w.sink.out, none⟩ := by have := h.budget; cases hs : w.sink; rw [hs] at this; cases this; rfl
  have h5 : encodeTo w.chunkSize w.sink v = (⟨w.sink.out ++ (chunksOf w.chunkSize cks ++ tailOf buf), none⟩, none) := by
    rw [hk]; exact h4
  have h6 : (w.sink.out ++ (chunksOf w.chunkSize cks ++ tailOf buf)).drop w.sink.out.length ≠ [] := by
    rw [List.drop_left]; unfold tailOf; simp
  refine ⟨{ w with
      sink := ⟨w.sink.out ++ (chunksOf w.chunkSize cks ++ tailOf buf), none⟩
      srv := true
      inbox := w.inbox ++ [.val (.failure [])]
      connErr := w.connErr || streamFails w.chunkSize w.sink v
      log := w.log ++ [.send v none] }, ?_, ?_, ?_⟩
  · unfold send
    rw [h5]
    dsimp only
    rw [if_neg h6, show wall.react w.srv _ = (true, [.val (.failure [])]) by simp only [wall, if_neg h6, h.srv]; rfl]
  · show w.inbox ++ _ = _
    rw [h.inbox]; rfl
  · exact { closed := h.closed, statement := h.statement, sclosed := h.sclosed, conn := h.conn, srows := h.srows,
            rclosed := h.rclosed, rclose := h.rclose, consumed := h.consumed, rstmt := h.rstmt, srv := rfl, budget := rfl, inbox := rfl }

/-- A message is sent and its answer, FAILURE, read. -/
theorem wall_round {w : World Bool} (h : Stuck w) (v : Val) (he : (encOps v).err = none) :
    ∃ w1 w2, send wall v w = .ok none w1 ∧ skipIgnored w1 = .ok () w2 ∧ w2.inbox = [.val (.failure [])] ∧
      (∃ w3, recv wall w2 = .ok (.failure [], none) w3 ∧ Stuck w3) ∧ (∃ w3, recv wall w1 = .ok (.failure [], none) w3 ∧ Stuck w3) := by
  obtain ⟨w1, h1, h2, h3⟩ := wall_send h v he
  have hst : ∀ (x : World Bool), Stuck { w1 with inbox := [] } → x.stmts = w1.stmts → x.rows = w1.rows → x.closed = w1.closed →
      x.statement = w1.statement → x.srv = w1.srv → x.sink = w1.sink → x.inbox = [] → Stuck x := by
    intro x hs e1 e2 e3 e4 e5 e6 e7
    have es : x.stmt 0 = World.stmt { w1 with inbox := [] } 0 := by unfold World.stmt; rw [e1]
    have er : x.row 0 = World.row { w1 with inbox := [] } 0 := by unfold World.row; rw [e2]
    exact { closed := e3.trans hs.closed, statement := e4.trans hs.statement, sclosed := by rw [es]; exact hs.sclosed,
            conn := by rw [es]; exact hs.conn, srows := by rw [es]; exact hs.srows, rclosed := by rw [er]; exact hs.rclosed,
            rclose := by rw [er]; exact hs.rclose, consumed := by rw [er]; exact hs.consumed, rstmt := by rw [er]; exact hs.rstmt,
            srv := e5.trans hs.srv, budget := by rw [e6]; exact hs.budget, inbox := e7 }
  have e1 : w1.inbox.dropWhile Item.isIgnored = [.val (.failure [])] := by rw [h2]; rfl
  refine ⟨w1, _, h1, rfl, e1, ⟨_, recv_val wall (v := .failure []) (t := []) e1, ?_⟩, ⟨_, recv_val wall (v := .failure []) (t := []) h2, ?_⟩⟩
  · exact hst _ h3 rfl rfl rfl rfl rfl rfl rfl
  · exact hst _ h3 rfl rfl rfl rfl rfl rfl rfl

theorem wall_close (n : Nat) : ∀ {w : World Bool}, Stuck w → ∃ w', closeN wall n w = .deep w' := by
  induction n with
  | zero => exact fun _ => ⟨_, rfl⟩
  | succ n ih =>
    intro w h
    obtain ⟨w1, _, a1, _, _, _, ⟨w3, a3, a4⟩⟩ := wall_round h .discardAll rfl
    obtain ⟨w4, w5, b1, b2, _, ⟨w6, b3, b4⟩, _⟩ := wall_round a4 .ackFailure rfl
    obtain ⟨w7, w8, c1, c2, _, ⟨w9, c3, c4⟩, _⟩ := wall_round b4 .reset rfl
    obtain ⟨w', hw'⟩ := ih c4
    refine ⟨w', ?_⟩
    have hreset : reset wall (closeN wall n) w6 = .deep w' := by
      unfold reset
      refine (mbind_ok c1).trans ((mbind_ok c2).trans ((mbind_ok c3).trans (mbind_deep hw')))
    have hack : ackFailure wall (closeN wall n) w3 = .deep w' := by
      unfold ackFailure
      exact (mbind_ok b1).trans ((mbind_ok b2).trans ((mbind_ok b3).trans hreset))
    have hcons : consume wall (closeN wall n) w1 = .deep w' := by
      unfold consume
      exact (mbind_ok a3).trans (mbind_deep hack)
    have hdis : sendDiscardAllConsume wall (closeN wall n) w = .deep w' := by
      have hs : sendDiscardAll wall w = .ok none w1 := (mbind_ok a1).trans rfl
      exact (mbind_ok hs).trans hcons
    have hdrain : rowsDrain wall (closeN wall n) 0 w = .deep w' := by
      unfold rowsDrain
      dsimp only
      rw [if_pos (by rw [h.consumed]; rfl)]
      refine mbind_deep ?_
      unfold withConn
      rw [h.rstmt, if_pos h.conn]
      exact hdis
    have hrows : rowsClose0 wall (closeN wall n) 0 w = .deep w' := by
      unfold rowsClose0
      rw [get_bind]
      rw [if_neg (by rw [h.rclosed]; decide)]
      exact mbind_deep hdrain
    have hstmt : stmtClose wall (closeN wall n) 0 w = .deep w' := by
      unfold stmtClose
      rw [get_bind]
      rw [if_neg (by rw [h.sclosed]; decide)]
      refine mbind_deep ?_
      rw [get_bind]
      rw [h.srows]
      dsimp only
      rw [get_bind]
      rw [if_neg (by rw [h.rclose]; decide)]
      exact hrows
    show connClose wall (closeN wall n) w = .deep w'
    unfold connClose
    rw [get_bind]
    rw [if_neg (by rw [h.closed]; decide)]
    refine mbind_deep ?_
    rw [get_bind]
    rw [h.statement]
    exact hstmt

/-- **C65 is false**: prepare a statement, query it, close the connection. If the server answers everything after the
query with FAILURE, `Close` calls itself without end: every bound on the nesting is exceeded. In Go the stack overflows
and the program is ended. -/
theorem c65_false_recursion : ∃ w, Op.runAll wall (closeN wall 0) [.prepare [65], .stQuery 0 []] wallConn = .ok () w ∧
    ∀ n, ∃ w', Op.close.run wall (closeN wall n) w = .deep w' := by
  obtain ⟨a, w, h1, h2⟩ := Out.of_test (o := Op.runAll wall (closeN wall 0) [.prepare [65], .stQuery 0 []] wallConn)
    (p := fun _ w => !w.closed && w.statement == some 0 && !(w.stmt 0).closed && (w.stmt 0).conn && (w.stmt 0).rows == some 0 &&
      !(w.row 0).closed && !(w.row 0).closeStmt && !(w.row 0).consumed && (w.row 0).stmt == 0 && w.srv && w.sink.budget == none && w.inbox.isEmpty)
    (by decide +kernel)
  refine ⟨w, h1, fun n => ?_⟩
  simp only [Bool.and_eq_true, Bool.not_eq_true', beq_iff_eq, List.isEmpty_iff] at h2
  obtain ⟨⟨⟨⟨⟨⟨⟨⟨⟨⟨⟨h1, h2⟩, h3⟩, h4⟩, h5⟩, h6⟩, h7⟩, h8⟩, h9⟩, h10⟩, h11⟩, h12⟩ := h2
  exact wall_close (n + 1) ⟨h1, h2, h3, h4, h5, h6, h7, h8, h9, h10, h11, h12⟩

end Bolt
