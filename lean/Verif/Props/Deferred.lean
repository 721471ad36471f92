import Verif.Model.Deferred
import Verif.Proofs.Failures
import Verif.Proofs.Query
import Verif.Proofs.Quiet2
import Verif.Spec.Histories

/-!
# After a panic (C103), and C78 with deferred calls
-/

namespace Bolt

variable {σ : Type} {P : Peer σ} {close : M σ (Option GoErr)}

/-! ## Without a panic it is the same -/

/-- The call panicked. -/
def Out.panicked : Out σ α → Prop
  | .panic _ _ => True
  | _ => False

/-- `y` does what `x` does unless that panics, and then panics as well, or its deferred calls nest too deeply. -/
def SameD (x y : M σ α) : Prop := ∀ w, y w = x w ∨ ∃ p w', x w = .panic p w' ∧ ((y w).panicked ∨ ∃ w'', y w = .deep w'')

theorem SameD.refl (x : M σ α) : SameD x x := fun _ => .inl rfl

theorem SameD.bind {x y : M σ α} {f g : α → M σ β} (h : SameD x y) (hf : ∀ a, SameD (f a) (g a)) : SameD (x >>= f) (y >>= g) := by
  intro w
  show M.bind y g w = M.bind x f w ∨ ∃ p w', M.bind x f w = _ ∧ ((M.bind y g w).panicked ∨ ∃ w'', M.bind y g w = _)
  unfold M.bind
  rcases h w with h | ⟨p, w', h1, h2⟩
  · rw [h]
    cases x w with
    | ok a w1 => exact hf a w1
    | panic p w1 => exact .inl rfl
    | deep w1 => exact .inl rfl
  · rw [h1]
    refine .inr ⟨p, w', rfl, ?_⟩
    rcases h2 with h2 | ⟨w'', h2⟩
    · revert h2
      cases y w <;> simp [Out.panicked]
    · rw [h2]; exact .inr ⟨w'', rfl⟩

/-- A deferred call, and the same call at the end. -/
theorem sameD_deferred (d : M σ β) (x : M σ α) : SameD (x >>= fun a => d >>= fun _ => M.pure a) (deferred d x) := by
  intro w
  show deferred d x w = M.bind x (fun a => M.bind d fun _ => M.pure a) w ∨ ∃ p w', M.bind x (fun a => M.bind d fun _ => M.pure a) w = _ ∧ _
  unfold M.bind deferred
  cases x w with
  | ok a w1 => left; simp only; cases d w1 <;> rfl
  | panic p w1 =>
    refine .inr ⟨p, w1, rfl, ?_⟩
    simp only
    cases d w1 <;> simp [Out.panicked]
  | deep w1 => exact .inl rfl

theorem sameD_execNeo (q : Str) (kvs : KVs) : SameD (execNeo P close q kvs) (execNeoD P close q kvs) := by
  unfold execNeo execNeoD
  refine (SameD.refl _).bind fun a => ?_
  cases a with
  | some e => exact .refl _
  | none => exact (SameD.refl _).bind fun s => sameD_deferred _ _

theorem sameD_sqlExec (q : Str) (args : List DVal) : SameD (sqlExec P close q args) (sqlExecD P close q args) := by
  unfold sqlExec sqlExecD
  refine (SameD.refl _).bind fun a => ?_
  cases a with
  | some e => exact .refl _
  | none => exact (SameD.refl _).bind fun s => sameD_deferred _ _

theorem sameD_execPipeline (qs : List Str) (l : List KVs) : SameD (execPipeline P close qs l) (execPipelineD P close qs l) := by
  unfold execPipeline execPipelineD
  refine (SameD.refl _).bind fun a => ?_
  cases a with
  | some e => exact .refl _
  | none => exact (SameD.refl _).bind fun s => sameD_deferred _ _

theorem sameD_queryNeoAll (q : Str) (kvs : KVs) : SameD (queryNeoAll P close q kvs) (queryNeoAllD P close q kvs) := by
  unfold queryNeoAll queryNeoAllD
  refine (SameD.refl _).bind fun a => ?_
  cases a with
  | error e => exact .refl _
  | ok r =>
    have h := sameD_deferred (rowsClose P close r) (rowsAll P close r >>= fun x => M.get (fun w => (w.row r).md) >>= fun hdr =>
      M.pure (Except.ok (ε := GoErr) (x.1, hdr, x.2.1, x.2.2)))
    intro w
    have e : ((rowsAll P close r >>= fun x => M.get (fun w => (w.row r).md) >>= fun hdr =>
      M.pure (Except.ok (ε := GoErr) (x.1, hdr, x.2.1, x.2.2))) >>= fun a => rowsClose P close r >>= fun _ => M.pure a) w =
      (rowsAll P close r >>= fun x => M.get (fun w => (w.row r).md) >>= fun hdr => rowsClose P close r >>= fun _ =>
        M.pure (Except.ok (ε := GoErr) (x.1, hdr, x.2.1, x.2.2))) w := by
      show M.bind (M.bind _ _) _ w = M.bind _ _ w
      unfold M.bind
      cases rowsAll P close r w <;> rfl
    have := h w
    rw [e] at this
    exact this

/-- C103: deferred calls change nothing in a call that does not panic; all that is proved of calls that return holds with
them. -/
theorem c103_same (op : Op) : SameD (op.run P close) (op.runD P close) := by
  cases op <;> first
    | exact .refl _
    | exact (sameD_execNeo _ _).bind fun _ => .refl _
    | exact (sameD_execPipeline _ _).bind fun _ => .refl _
    | exact (sameD_queryNeoAll _ _).bind fun _ => .refl _

/-! ## Failures are handled also then -/

theorem Tells.deferred {α β : Type} [Reports α] [Reports β] {d : M σ β} {x : M σ α} {E : KVs → Prop} (hd : Tells (fun _ => False) d) (hx : Tells E x) :
    Tells E (deferred d x) := by
  intro w
  obtain ⟨l, h1, h2, h3⟩ := hx w
  unfold Bolt.deferred
  cases hw : x w with
  | ok a w1 =>
    rw [hw] at h1
    obtain ⟨m, k1, k2, -⟩ := hd w1
    have hl : (d w1).world.log = w.log ++ (l ++ m) := by rw [k1, show w1.log = w.log ++ l from h1, List.append_assoc]
    refine ⟨l ++ m, ?_, h2.append k2, ?_⟩
    · simp only; cases hq : d w1 <;> rw [hq] at hl <;> exact hl
    · intro a' w' ha md hmd
      simp only at ha
      have : a' = a := by revert ha; cases d w1 <;> simp; intro h _; exact h.symm
      subst this
      rcases h3 _ _ hw md hmd with h | h | h
      · exact .inl h
      · exact .inr (.inl (h.left _))
      · exact .inr (.inr (h.left _))
  | panic p w1 =>
    rw [hw] at h1
    obtain ⟨m, k1, k2, -⟩ := hd w1
    have hl : (d w1).world.log = w.log ++ (l ++ m) := by rw [k1, show w1.log = w.log ++ l from h1, List.append_assoc]
    refine ⟨l ++ m, ?_, h2.append k2, ?_⟩
    · simp only; cases hq : d w1 <;> rw [hq] at hl <;> exact hl
    · intro a' w' ha
      simp only at ha
      revert ha; cases d w1 <;> simp
  | deep w1 =>
    rw [hw] at h1
    exact ⟨l, h1, h2, fun a w' ha => by cases ha⟩

theorem tells_opD (hc : Quiet close) (op : Op) : Tells (fun _ => False) (op.runD P close) := by
  cases op
  case query a b => exact tells_op (P := P) hc (.query a b)
  case queryPipe a b => exact tells_op (P := P) hc (.queryPipe a b)
  case prepare a => exact tells_op (P := P) hc (.prepare a)
  case preparePipe a => exact tells_op (P := P) hc (.preparePipe a)
  case begin => exact tells_op (P := P) hc (.begin)
  case stExec a b => exact tells_op (P := P) hc (.stExec a b)
  case stQuery a b => exact tells_op (P := P) hc (.stQuery a b)
  case stExecPipe a b => exact tells_op (P := P) hc (.stExecPipe a b)
  case stQueryPipe a b => exact tells_op (P := P) hc (.stQueryPipe a b)
  case next a => exact tells_op (P := P) hc (.next a)
  case all a => exact tells_op (P := P) hc (.all a)
  case nextPipe a => exact tells_op (P := P) hc (.nextPipe a)
  case closeRows a => exact tells_op (P := P) hc (.closeRows a)
  case closeStmt a => exact tells_op (P := P) hc (.closeStmt a)
  case commit a => exact tells_op (P := P) hc (.commit a)
  case rollback a => exact tells_op (P := P) hc (.rollback a)
  case close => exact tells_op (P := P) hc (.close)
  case setChunkSize a => exact tells_op (P := P) hc (.setChunkSize a)
  case exec q kvs =>
    have h : Tells (fun _ => False) (execNeoD P close q kvs) := by
      unfold execNeoD
      repeat' first | exact ((tells_stmtClose hc _).deferred (tells_stmtExecNeo hc)).any | exact tells_newStmt | exact tells_guardConn | tell_step
    exact h.except
  case execPipe qs l =>
    have h : Tells (fun _ => False) (execPipelineD P close qs l) := by
      unfold execPipelineD
      repeat' first | exact ((tells_stmtClose hc _).deferred (tells_stmtExecPipeline hc)).any | exact tells_newStmt | exact tells_guardConn | tell_step
    exact h.except
  case queryAll q kvs =>
    have h : Tells (fun _ => False) (queryNeoAllD P close q kvs) := by
      unfold queryNeoAllD
      refine (tells_queryNeo hc).bind fun a => ?_
      cases a with
      | error e => exact .pure _ fun md h => .inr h
      | ok r =>
        refine (tells_rowsClose hc _).deferred ?_
        refine (tells_rowsAll hc).any.bind fun x => ?_
        refine .bind (β := Except GoErr (List (List Val) × KVs × Option KVs × Option GoErr)) (.same (fun _ => rfl) fun _ _ _ h _ hs => (show False from hs).elim) fun hdr => .pure _ fun md h => ?_
        rcases h with h | h | h | h
        · exact .inl (.inr (.inl h))
        · exact .inr h
        · exact .inl (.inr (.inr (.inl h)))
        · exact .inl (.inr (.inr (.inr h)))
    unfold Op.runD
    refine h.bind fun a => ?_
    cases a with
    | error e => exact .pure _ fun md h => .inr h
    | ok x => exact .pure _ fun md h => .inr (.inr (.inr (.inr h)))

/-- `w'` is reached from `w` by API calls that returned, or panicked and the program recovered. -/
inductive Recovered (P : Peer σ) (n : Nat) : World σ → World σ → Prop where
  | refl (w : World σ) : Recovered P n w w
  | step {w w1 w2 : World σ} {op : Op} {e : Option GoErr} : Recovered P n w w1 → op.Exists w1 →
      op.runD P (closeN P n) w1 = .ok e w2 → Recovered P n w w2
  | recover {w w1 w2 : World σ} {op : Op} {p : Panic} : Recovered P n w w1 → op.Exists w1 →
      op.runD P (closeN P n) w1 = .panic p w2 → Recovered P n w w2

/-- C103: every FAILURE is acknowledged as C78 says, also by a program that recovers from panics and goes on. -/
theorem c103_handled {n : Nat} {w w' : World σ} (h : Recovered P n w w') : ∃ l, w'.log = w.log ++ l ∧ Handled l := by
  induction h with
  | refl => exact ⟨[], by simp, .nil⟩
  | @step w1 w2 op e _ _ hr ih =>
    obtain ⟨l, h1, h2⟩ := ih
    obtain ⟨l', h3, h4, _⟩ := tells_opD (tells_closeN (P := P) n) op w1
    rw [hr] at h3
    exact ⟨l ++ l', by rw [show w2.log = _ from h3, h1, List.append_assoc], h2.append h4⟩
  | @recover w1 w2 op e _ _ hr ih =>
    obtain ⟨l, h1, h2⟩ := ih
    obtain ⟨l', h3, h4, _⟩ := tells_opD (tells_closeN (P := P) n) op w1
    rw [hr] at h3
    exact ⟨l ++ l', by rw [show w2.log = _ from h3, h1, List.append_assoc], h2.append h4⟩

/-! ## QueryNeoAll clears up -/

/-- What `consume` keeps when it returns a message. -/
theorem consume_same {v : Val} {w w' : World σ} (h : consume P close w = .ok (v, none) w') :
    w' = w.net w.sink w.srv w'.inbox w'.log := by
  obtain ⟨⟨v1, e1⟩, w1, h1, h⟩ := run_inv h
  cases e1 with
  | some e => cases h
  | none =>
    have h2 : w1 = w.net w.sink w.srv w1.inbox w1.log := by
      unfold recv at h1
      simp only at h1
      split at h1 <;> cases h1
      rfl
    cases v1 with
    | failure md =>
      obtain ⟨a, w2, _, h3⟩ := run_inv h
      cases a <;> cases h3
    | _ => cases h; exact h2

/-- What sending keeps. -/
theorem send_same {v : Val} {a : Option GoErr} {w w' : World σ} (h : send P v w = .ok a w') :
    w' = { w.net w'.sink w'.srv w'.inbox w'.log with connErr := w'.connErr } := by
  unfold send at h
  injection h with _ h
  rw [← h]
  rfl

/-- What sending a query keeps. -/
theorem sendRunPullAll_same {q : Str} {kvs : KVs} {w w' : World σ} (h : sendRunPullAll P q kvs w = .ok none w') :
    w' = { w.net w'.sink w'.srv w'.inbox w'.log with connErr := w'.connErr } := by
  obtain ⟨a, w1, h1, h⟩ := run_inv h
  obtain ⟨a', w2, h1, h2⟩ := run_inv h1
  cases a' with
  | some e => cases h2; cases h
  | none =>
    cases h2
    obtain ⟨a, w3, h3, h⟩ := run_inv h
    cases a with
    | some e => cases h
    | none => cases h; rw [send_same h3, send_same h1]; rfl

/-- What a direct query has made when it returns rows. -/
theorem queryNeo_made {q : Str} {kvs : KVs} {r : Nat} {w w' : World σ} (h : queryNeo P close q kvs w = .ok (.ok r) w') :
    ∃ s md, w'.statement = some s ∧ w'.closed = false ∧ w'.row r = directRow md s ∧ r < w'.rows.length ∧ s < w'.stmts.length ∧
      w'.stmt s = ⟨q, [], true, false, some r⟩ ∧ w'.transaction = w.transaction := by
  obtain ⟨a, w1, h1, h⟩ := run_inv h
  cases a with
  | some e => cases h
  | none =>
    have hg : w1 = w ∧ w.closed = false := by
      unfold guardConn at h1
      by_cases hs : w.statement.isSome = true
      · rw [if_pos hs] at h1; cases h1
      · rw [if_neg hs] at h1
        cases hcl : w.closed with
        | true => rw [hcl, if_pos rfl] at h1; cases h1
        | false => rw [hcl, if_neg (by simp)] at h1; cases h1; exact ⟨rfl, rfl⟩
    obtain ⟨hg, hcl⟩ := hg
    subst w1
    obtain ⟨s, w2, h2, h⟩ := run_inv h
    cases h2
    obtain ⟨_, w3, h3, h⟩ := run_inv h
    cases h3
    obtain ⟨⟨v, e⟩, w4, h4, h⟩ := run_inv h
    cases e with
    | some e =>
      obtain ⟨_, w5, h5, h⟩ := run_inv h
      cases h
    | none =>
      cases v with
      | success md =>
        obtain ⟨b, w5, h5, h6⟩ := run_inv h4
        cases b with
        | some e => cases h6
        | none =>
          have k1 := consume_same h6
          have k2 := sendRunPullAll_same h5
          cases h
          have hw : w4.stmts = w.stmts ++ [⟨q, [], true, false, none⟩] ∧ w4.statement = some w.stmts.length ∧ w4.closed = w.closed ∧ w4.transaction = w.transaction := by
            rw [k1, k2]; exact ⟨rfl, rfl, rfl, rfl⟩
          refine ⟨w.stmts.length, md, hw.2.1, hw.2.2.1.trans hcl, ?_, ?_, ?_, ?_, hw.2.2.2⟩
          · simp [World.row, World.setStmt, directRow]
          · simp [World.setStmt]
          · simp [World.setStmt, hw.1]
          · simp [World.stmt, World.setStmt, hw.1]
      | _ =>
        obtain ⟨_, w5, h5, h⟩ := run_inv h
        cases h

/-- A message that makes the decoder panic is taken off the stream, and nothing else happens. -/
theorem nextNeo_boom {w : World σ} {r : Nat} {p : Panic} {t : List Item} (h1 : (w.row r).closed = false) (h2 : (w.row r).consumed = true)
    (h3 : (w.stmt (w.row r).stmt).conn = true) (hi : w.inbox = .boom p :: t) :
    nextNeo P close r w = .panic p (w.net w.sink w.srv t (w.log ++ [.recv (.boom p)])) := by
  have h4 : consume P close w = .panic p (w.net w.sink w.srv t (w.log ++ [.recv (.boom p)])) := by
    unfold consume
    refine mbind_panic ?_
    unfold recv nextItem
    simp [hi, World.net]
  have h5 := (withConn_ok (k := consume P close) h3).trans h4
  unfold nextNeo
  simp only [get_bind, h1, h2, Bool.false_eq_true, Bool.not_true, if_false, pure_bind']
  rw [mbind_panic h5]

theorem allLoop_boom (r : Nat) {p : Panic} {t : List Item} (rs : List (List Val)) : ∀ (f : Nat) (w : World σ) (out : List (List Val)),
    (w.row r).closed = false → (w.row r).consumed = true → (w.stmt (w.row r).stmt).conn = true →
    w.inbox = (rs.map Val.record).map Item.val ++ .boom p :: t → rs.length < f →
    allLoop P close r f out w = .panic p (w.net w.sink w.srv t (w.log ++ gotRecords rs ++ [.recv (.boom p)])) := by
  induction rs with
  | nil =>
    intro f w out h1 h2 h3 hi hf
    obtain ⟨f, rfl⟩ : ∃ k, f = k + 1 := ⟨f - 1, by omega⟩
    rw [allLoop, mbind_panic (nextNeo_boom h1 h2 h3 (by simpa using hi))]
    simp [gotRecords]
  | cons fs rs ih =>
    intro f w out h1 h2 h3 hi hf
    obtain ⟨f, rfl⟩ : ∃ k, f = k + 1 := ⟨f - 1, by omega⟩
    have h4 := nextNeo_record P close h1 h2 h3 (t := (rs.map Val.record).map Item.val ++ .boom p :: t) (by simpa using hi)
    rw [allLoop, mbind_ok h4]
    simp only []
    rw [ih f (w.net w.sink w.srv ((rs.map Val.record).map Item.val ++ .boom p :: t) (w.log ++ [Event.recv (Item.val (Val.record fs))])) (out ++ [fs]) h1 h2 h3 rfl (by simpa using hf)]
    simp [gotRecords, World.net]

/-- C103 for NextNeo on rows that the server is sending: a record that makes it panic is skipped, and nothing else has changed
for the calls that follow. -/
theorem c103_next_partial {w : World σ} {r : Nat} {p : Panic} {t : List Item} (h1 : (w.row r).closed = false) (h2 : (w.row r).consumed = true)
    (h3 : (w.stmt (w.row r).stmt).conn = true) (hi : w.inbox = .boom p :: t) :
    (Op.next r).runD P close w = .panic p { w with inbox := t, log := w.log ++ [.recv (.boom p)] } := by
  show (nextNeo P close r >>= _) w = _
  rw [mbind_panic (nextNeo_boom h1 h2 h3 hi)]
  rfl

/-- C103 for QueryNeoAll: when a record of the answer makes it panic and the rest of the answer is in order, the rest has been
read when the panic arrives at the program: nothing is open, nothing is left to be read but what the server sent after the
answer, nothing has been sent. The next query is on its own. Missing: a second such record, see `c103_twice_false`, and
the other calls, see `c103_exec_false`. -/
theorem c103_all_partial {q : Str} {kvs : KVs} {r : Nat} {w w1 : World σ} (h : queryNeo P close q kvs w = .ok (.ok r) w1)
    {rs : List (List Val)} {p : Panic} {vs : List Val} {md : KVs} {t : List Item}
    (hi : w1.inbox = (rs.map Val.record).map Item.val ++ .boom p :: (vs.map .val ++ .val (.success md) :: t))
    (hv : ∀ v ∈ vs, (∀ md, v ≠ .success md) ∧ ∀ md, v ≠ .failure md) :
    ∃ w2, queryNeoAllD P close q kvs w = .panic p w2 ∧ w2.inbox = t ∧ w2.statement = none ∧ w2.closed = false ∧ w2.transaction = w.transaction ∧
      w2.sink = w1.sink ∧ w2.srv = w1.srv ∧ (w2.row r).closed = true := by
  obtain ⟨s, hd, e1, e2, e3, e4, e5, e6, e7⟩ := queryNeo_made h
  have hs : (w1.row r).stmt = s := by rw [e3]; rfl
  unfold queryNeoAllD
  rw [mbind_ok h]
  have hall : rowsAll P close r w1 = .panic p (w1.net w1.sink w1.srv (vs.map .val ++ .val (.success md) :: t) (w1.log ++ gotRecords rs ++ [.recv (.boom p)])) := by
    unfold rowsAll
    refine allLoop_boom r rs _ w1 [] (by rw [e3]; rfl) (by rw [e3]; rfl) (by rw [hs, e6]) hi ?_
    rw [hi]; simp; omega
  simp only []
  unfold deferred
  rw [mbind_panic hall]
  simp only []
  generalize hw2 : w1.net w1.sink w1.srv (vs.map Item.val ++ Item.val (Val.success md) :: t) (w1.log ++ gotRecords rs ++ [Event.recv (Item.boom p)]) = w2
  have hr2 : w2.row r = directRow hd s := by rw [← hw2]; exact e3
  have hs2 : w2.stmt s = ⟨q, [], true, false, some r⟩ := by rw [← hw2]; exact e6
  have hp : ∀ v ∈ vs, Item.isPlain (.val v) = true := by
    intro v hv'
    obtain ⟨a, b⟩ := hv v hv'
    cases v <;> first | rfl | exact absurd rfl (a _) | exact absurd rfl (b _)
  have hca := consumeAll_success P close (w := w2) (vs := vs) (md := md) (t := t) (by rw [← hw2]; rfl) hp
  generalize hw3 : w2.net w2.sink w2.srv t (w2.log ++ vs.map (fun v => Event.recv (.val v)) ++ [Event.recv (.val (.success md))]) = w3 at hca
  have hdr : rowsDrain P close r w2 = .ok none w3 := by
    refine rowsDrain_pulled P close (by rw [hr2]; rfl) (by rw [hr2]; rfl) (by rw [hr2]; show (w2.stmt s).conn = true; rw [hs2]) (n := 1) (res := none) (by rw [hr2]; show numConsume (w2.stmt s).queries.length 0 = 1; rw [hs2]; rfl) ?_
    show consumeAllMultiple P close 1 w2 = _
    unfold consumeAllMultiple
    rw [mbind_ok hca]
    rfl
  have hrow3 : w3.row r = directRow hd s := by rw [← hw3]; exact hr2
  have hst3 : w3.stmt s = ⟨q, [], true, false, some r⟩ := by rw [← hw3]; exact hs2
  have hl3 : r < w3.rows.length := by rw [← hw3, ← hw2]; exact e4
  have hls3 : s < w3.stmts.length := by rw [← hw3, ← hw2]; exact e5
  have hx2 : w2.rows[r]? = some (directRow hd s) := by
    have : r < w2.rows.length := by rw [← hw2]; exact e4
    rw [← hr2]; simp [World.row, this]
  have hx3 : w3.rows[r]? = some (directRow hd s) := by rw [← hrow3]; simp [World.row, hl3]
  have hy3 : w3.stmts[s]? = some ⟨q, [], true, false, some r⟩ := by rw [← hst3]; simp [World.stmt, hls3]
  rw [rowsClose_direct P close hx2 rfl hdr hx3 rfl rfl hy3 rfl rfl]
  refine ⟨_, rfl, ?_, rfl, ?_, ?_, ?_, ?_, ?_⟩
  · show w3.inbox = t; rw [← hw3]; rfl
  · show w3.closed = false; rw [← hw3, ← hw2]; exact e2
  · show w3.transaction = _; rw [← hw3, ← hw2]; exact e7
  · show w3.sink = _; rw [← hw3, ← hw2]; rfl
  · show w3.srv = _; rw [← hw3, ← hw2]; rfl
  · have := row_of (rowsDone_row hx3)
    show ((w3.rowsDone r).row r).closed = true
    rw [this]

/-- The outcome is a panic, and the world then passes the test. -/
def Out.panicTest (p : World σ → Bool) : Out σ α → Bool
  | .panic _ w => p w
  | _ => false

theorem Out.of_panicTest {o : Out σ α} {p : World σ → Bool} (h : o.panicTest p = true) : ∃ q w, o = .panic q w ∧ p w = true := by
  cases o with
  | ok a w => cases h
  | panic q w => exact ⟨q, w, rfl, h⟩
  | deep => cases h

/-- An answer with a record that cannot be decoded, and the answer to another query. -/
def spoiled : List (List Item) :=
  [[.val (.success [])], [.val (.record []), .boom .typeAssert, .val (.record []), .val (.success [([120], .nil)])],
   [.val (.success [([102], .nil)])], [.val (.success [([116], .nil)])]]

/-- C103 at work: the answer of the second query is its own. -/
example : ((Op.queryAll [65] []).runD script (closeN script 1) (scriptConn spoiled)).panicTest (fun w =>
    (execNeo script (closeN script 1) [66] [] w).test fun r w' => (match r with | .ok md => md.map (·.1) == [[116]] | .error _ => false) && w'.inbox.isEmpty) = true := by
  decide +kernel

/-- C103 is false for ExecNeo: it leaves the rest of the answer behind, and the next ExecNeo returns, for the summary of its
query, the header. -/
theorem c103_exec_false : ∃ p w1 w2 md, (Op.exec [65] []).runD script (closeN script 1) (scriptConn
    [[.boom .typeAssert], [.val (.success [])], [.val (.success [([102], .nil)])], [.val (.success [([116], .nil)])]]) = .panic p w1 ∧
    execNeo script (closeN script 1) [66] [] w1 = .ok (.ok md) w2 ∧ md.map (·.1) = [[102]] := by
  obtain ⟨p, w1, h1, h2⟩ := Out.of_panicTest (o := (Op.exec [65] []).runD script (closeN script 1) (scriptConn
    [[.boom .typeAssert], [.val (.success [])], [.val (.success [([102], .nil)])], [.val (.success [([116], .nil)])]]))
    (p := fun w => (execNeo script (closeN script 1) [66] [] w).test fun r _ => (match r with | .ok md => md.map (·.1) == [[102]] | .error _ => false)) (by decide +kernel)
  obtain ⟨r, w2, h3, h4⟩ := Out.of_test h2
  cases r with
  | error e => cases h4
  | ok md => exact ⟨p, w1, w2, md, h1, h3, by simpa using h4⟩

/-- C103 is false for QueryNeoAll when two records cannot be decoded: the deferred Close panics as well, the statement stays
open, and the connection refuses every query. -/
theorem c103_twice_false : ∃ p w, (Op.queryAll [65] []).runD script (closeN script 1) (scriptConn
    [[.val (.success [])], [.boom .typeAssert, .boom .typeAssert, .val (.success [])]]) = .panic p w ∧
    ∀ q kvs, (Op.exec q kvs).Refused script 1 w ∧ (Op.query q kvs).Refused script 1 w := by
  obtain ⟨p, w, h1, h2⟩ := Out.of_panicTest (o := (Op.queryAll [65] []).runD script (closeN script 1) (scriptConn
    [[.val (.success [])], [.boom .typeAssert, .boom .typeAssert, .val (.success [])]])) (p := fun w => w.statement.isSome) (by decide +kernel)
  have hg : guardConn w = .ok (some (.new "An open statement already exists")) w := by unfold guardConn; rw [if_pos h2]
  refine ⟨p, w, h1, fun q kvs => ⟨⟨.new "An open statement already exists", ?_⟩, ⟨.new "An open statement already exists", ?_⟩⟩⟩
  · show (execNeo _ _ _ _ >>= _) w = _
    unfold execNeo
    exact (mbind_ok (a := .error (.new "An open statement already exists")) (w' := w) ((mbind_ok hg).trans rfl)).trans rfl
  · show (queryNeo _ _ _ _ >>= _) w = _
    unfold queryNeo
    exact (mbind_ok (a := .error (.new "An open statement already exists")) (w' := w) ((mbind_ok hg).trans rfl)).trans rfl

end Bolt
