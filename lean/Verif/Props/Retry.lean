import Verif.Model.Retry
import Verif.Props.Cause
import Verif.Props.Sql
import Verif.Props.Blame

/-!
# The driver under database/sql: C105, C106, C107
-/

namespace Bolt

variable {σ : Type} {P : Peer σ} {n : Nat}

/-! ## C105 -/

/-- During these exchanges the server answered FAILURE, and answered ACK_FAILURE or RESET with something else than SUCCESS, FAILURE
or IGNORED. -/
def FailedAndStrange (l : List Event) : Prop := (∃ md, .recv (.val (.failure md)) ∈ l) ∧ StrangeAnswer l

/-- ACK_FAILURE and RESET are only sent after a FAILURE. -/
theorem handled_failure {l : List Event} (h : Handled l) (hs : ∃ m e, .send m e ∈ l ∧ (m = .ackFailure ∨ m = .reset)) :
    ∃ md, .recv (.val (.failure md)) ∈ l := by
  induction h with
  | nil => obtain ⟨_, _, h, _⟩ := hs; cases h
  | @plain x l hx _ ih =>
    obtain ⟨m, e, h, hm⟩ := hs
    rcases List.mem_cons.1 h with rfl | h
    · rcases hm with rfl | rfl <;> cases hx
    · obtain ⟨md, h⟩ := ih ⟨m, e, h, hm⟩
      exact ⟨md, List.mem_cons_of_mem _ h⟩
  | failure md _ _ _ => exact ⟨md, List.mem_cons_self⟩

theorem StrangeAnswer.asks {l : List Event} (h : StrangeAnswer l) : ∃ m e, .send m e ∈ l ∧ (m = .ackFailure ∨ m = .reset) := by
  obtain ⟨l1, m, ig, v, l2, rfl, _, hm, _⟩ := h
  exact ⟨m, none, by simp, hm⟩

/-- Any peer, any state, any call but Close that returns `driver.ErrBadConn` itself. -/
theorem badConn_call {op : Op} (hop : op ≠ .close) {w w' : World σ} (h : op.run P (closeN P n) w = .ok (some .badConn) w') :
    ∃ l, w'.log = w.log ++ l ∧ (FailedAndStrange l ∨ ∃ half, .recv (.bad .badConn half) ∈ l) := by
  obtain ⟨l, h1, h2⟩ := c92_partial h
  refine ⟨l, h1, ?_⟩
  rcases h2 with h2 | ⟨h2, _⟩ | h2 | ⟨_, h2⟩ | ⟨_, h2, _⟩
  · cases h2
  · cases h2
  · exact .inr h2
  · obtain ⟨l', h3, h4⟩ := c78_call (P := P) n op w
    rw [h] at h4
    obtain rfl : l' = l := List.append_cancel_left ((show w'.log = _ from h4).symm.trans h1)
    exact .inl ⟨handled_failure h3 h2.asks, h2⟩
  · exact (hop h2).elim

theorem unmarshal_err {b : Bytes} {e : GoErr} (h : unmarshal b = .error (.err e)) : e ≠ .badConn := by
  unfold unmarshal decodeFrom at h
  split at h
  · next hm => cases h; intro he; subst he; cases Bare.msg_lib _ _ _ _ _ hm
  · split at h
    · cases h
    · next hd =>
      cases h
      rcases Bare.fair_decode _ _ _ hd with h | rfl | rfl
      · intro he; subst he; cases h
      · intro h; cases h
      · intro h; cases h

theorem argsFrom_err {e : GoErr} : ∀ {out : KVs} {args : List DVal}, driverArgsFrom out args = .error (.err e) → e ≠ .badConn
  | _, [], h => by cases h
  | _, .plain _ :: _, h => by cases h; intro h; cases h
  | _, .bytes b :: rest, h => by
    unfold driverArgsFrom at h
    split at h
    · next hu => cases h; exact unmarshal_err hu
    · exact argsFrom_err h
    · cases h

/-- Arguments that are maps: the calls of database/sql are the calls with a map. -/
theorem sqlExec_ok {args : List DVal} {kvs : KVs} (h : driverArgsToMap args = .ok kvs) (close : M σ (Option GoErr)) (q : Str) :
    sqlExec P close q args = execNeo P close q kvs := by
  have hx : ∀ s, sqlStmtExec P close s args = stmtExecNeo P close s kvs := fun s => funext fun w => mbind_ok (convert_ok h w)
  unfold sqlExec execNeo
  simp only [hx]
  rfl

theorem sqlExec_err {args : List DVal} {e : GoErr} (h : driverArgsToMap args = .error (.err e)) {close : M σ (Option GoErr)} {q : Str} {w w' : World σ} {r : Except GoErr KVs}
    (hr : sqlExec P close q args w = .ok r w') : r = .error e ∨ ∃ m, r = .error (.new m) := by
  obtain ⟨g, w1, h1, hr⟩ := run_inv hr
  cases g with
  | some x =>
    cases hr
    unfold guardConn at h1
    repeat' split at h1
    all_goals cases h1
    all_goals exact .inr ⟨_, rfl⟩
  | none =>
    obtain ⟨s, w2, _, hr⟩ := run_inv hr
    obtain ⟨res, w3, h3, hr⟩ := run_inv hr
    obtain ⟨_, w4, _, hr⟩ := run_inv hr
    cases hr
    rw [show sqlStmtExec P close s args w2 = .ok (.error e) w2 from mbind_ok (convert_err h w2)] at h3
    cases h3
    exact .inl rfl

theorem sqlExec_fault {args : List DVal} {f : Fault} (h : driverArgsToMap args = .error f) (hf : ∀ e, f ≠ .err e) {close : M σ (Option GoErr)} {q : Str} {w w' : World σ} {r : Except GoErr KVs}
    (hr : sqlExec P close q args w = .ok r w') : ∃ m, r = .error (.new m) := by
  obtain ⟨g, w1, h1, hr⟩ := run_inv hr
  cases g with
  | some x =>
    cases hr
    unfold guardConn at h1
    repeat' split at h1
    all_goals cases h1
    all_goals exact ⟨_, rfl⟩
  | none =>
    obtain ⟨s, w2, _, hr⟩ := run_inv hr
    obtain ⟨res, w3, h3, hr⟩ := run_inv hr
    obtain ⟨k, w4, h4, _⟩ := run_inv h3
    unfold convertArgs at h4
    rw [h] at h4
    cases f with
    | err e => exact (hf e rfl).elim
    | panic p => cases h4
    | fuel => cases h4

/-- C105, the driver: any peer, any state: `Exec`, `Query`, `Prepare` and `Begin` return `driver.ErrBadConn` itself only when the
server answered FAILURE during the call and then answered ACK_FAILURE or RESET with something else than SUCCESS, FAILURE or IGNORED. (The decoder never
gives `driver.ErrBadConn` itself: `c92_decoder`.) -/
theorem c105_driver {c : SqlCall} {w w' : World σ} (h : c.run P (closeN P n) w = .ok (some .badConn) w') :
    ∃ l, w'.log = w.log ++ l ∧ (FailedAndStrange l ∨ ∃ half, .recv (.bad .badConn half) ∈ l) := by
  cases c with
  | exec q args =>
    obtain ⟨r, w1, h1, h2⟩ := run_inv h
    cases ha : driverArgsToMap args with
    | ok kvs =>
      rw [sqlExec_ok ha] at h1
      exact badConn_call (op := .exec q kvs) (by simp) (show (execNeo P (closeN P n) q kvs >>= fun x => M.pure (exceptErr x)) w = _ by rw [mbind_ok h1]; exact h2)
    | error f =>
      by_cases hf : ∃ e, f = .err e
      · obtain ⟨e, rfl⟩ := hf
        rcases sqlExec_err ha h1 with rfl | ⟨m, rfl⟩
        · cases h2; exact (argsFrom_err ha rfl).elim
        · cases h2
      · obtain ⟨m, rfl⟩ := sqlExec_fault ha (fun e he => hf ⟨e, he⟩) h1
        cases h2
  | query q args =>
    obtain ⟨r, w1, h1, h2⟩ := run_inv h
    obtain ⟨k, w2, h3, h4⟩ := run_inv h1
    unfold convertArgs at h3
    cases ha : driverArgsToMap args with
    | ok kvs =>
      rw [ha] at h3
      cases h3
      obtain ⟨x, w3, h5, h6⟩ := run_inv h4
      cases h6
      cases x with
      | ok x => cases h2
      | error e =>
        cases h2
        exact badConn_call (op := .query q kvs) (by simp) (show (queryNeo P (closeN P n) q kvs >>= fun x => M.pure (exceptErr x)) w = _ by rw [mbind_ok h5]; rfl)
    | error f =>
      rw [ha] at h3
      cases f with
      | err e => cases h3; cases h4; cases h2; exact (argsFrom_err ha rfl).elim
      | panic p => cases h3
      | fuel => cases h3
  | prepare q =>
    obtain ⟨r, w1, h1, h2⟩ := run_inv h
    obtain ⟨x, w3, h5, h6⟩ := run_inv h1
    cases h6
    cases x with
    | ok x => cases h2
    | error e =>
      cases h2
      exact badConn_call (P := P) (n := n) (op := .prepare q) (by simp) (show (prepare q [] >>= fun x => M.pure (exceptErr x)) w = _ by rw [mbind_ok h5]; rfl)
  | begin => exact badConn_call (op := .begin) (by simp) h

/-- What `sql.DB` has seen before it tries again. -/
def Excused (t : Try σ) : Prop := ∃ l, t.after.log = t.before.log ++ l ∧ (FailedAndStrange l ∨ ∃ half, .recv (.bad .badConn half) ∈ l)

theorem isErrBadConn_eq {e : Option GoErr} (h : isErrBadConn e = true) : e = some .badConn := by
  cases e with
  | none => cases h
  | some x => cases x <;> first | rfl | cases h

/-- An attempt makes at most one call. -/
theorem attempt_tries {dial : Nat → Except GoErr (World σ)} {c : SqlCall} {fresh : Bool} {d d' : Db σ} {e : Option GoErr} (h : d.attempt P n dial c fresh = some (e, d')) :
    ∃ ts, d'.tries = d.tries ++ ts ∧ ts.length ≤ 1 ∧ (isErrBadConn e = true → ∀ t ∈ ts, Excused t) := by
  have on : ∀ {d0 : Db σ} {w : World σ}, d0.tries = d.tries → d0.on P n c w = some (e, d') →
      ∃ ts, d'.tries = d.tries ++ ts ∧ ts.length ≤ 1 ∧ (isErrBadConn e = true → ∀ t ∈ ts, Excused t) := by
    intro d0 w h0 h
    unfold Db.on at h
    split at h
    · next e' w' hr =>
      have hx : e' = e ∧ d'.tries = d.tries ++ [⟨w, w'⟩] := by
        split at h <;> cases h <;> exact ⟨rfl, by simp only [h0]⟩
      obtain ⟨rfl, hx⟩ := hx
      refine ⟨_, hx, by simp, fun he t ht => ?_⟩
      obtain rfl := List.mem_singleton.1 ht
      rw [isErrBadConn_eq he] at hr
      exact c105_driver hr
    · cases h
  unfold Db.attempt at h
  split at h
  · refine on ?_ h
    rfl
  · split at h
    · cases h; exact ⟨[], by simp, by simp, fun _ _ h => by cases h⟩
    · refine on ?_ h
      rfl

theorem mem_dropLast_append {α : Type} {a b : List α} {x : α} (h : x ∈ (a ++ b).dropLast) : x ∈ a ∨ x ∈ b.dropLast := by
  by_cases hb : b = []
  · subst hb; rw [List.append_nil] at h; exact .inl (List.dropLast_subset _ h)
  · rw [List.dropLast_append_of_ne_nil hb] at h; exact List.mem_append.1 h

theorem short_dropLast {α : Type} {b : List α} {x : α} (hb : b.length ≤ 1) (h : x ∈ b.dropLast) : False := by
  match b, hb, h with
  | [], _, h => cases h
  | [_], _, h => cases h

/-- C105: any peers, any idle connections, any outcomes of opening connections, any `DB.Exec`, `DB.Query`, `DB.Prepare` or `DB.Begin`: the
driver is called at most three times, and called again only after a call during which the server answered FAILURE and then answered
ACK_FAILURE or RESET with something else than SUCCESS, FAILURE or IGNORED. -/
theorem c105_again {dial : Nat → Except GoErr (World σ)} {c : SqlCall} {d d' : Db σ} {e : Option GoErr} (h : d.call P n dial c = some (e, d')) :
    ∃ ts, d'.tries = d.tries ++ ts ∧ ts.length ≤ 3 ∧ ∀ t ∈ ts.dropLast, Excused t := by
  unfold Db.call at h
  cases h1 : d.attempt P n dial c false with
  | none => rw [h1] at h; cases h
  | some x1 =>
    obtain ⟨e1, d1⟩ := x1
    rw [h1] at h
    obtain ⟨ts1, a1, b1, c1⟩ := attempt_tries h1
    unfold retrying at h
    simp only at h
    split at h
    · next he1 =>
      cases h2 : d1.attempt P n dial c false with
      | none => rw [h2] at h; cases h
      | some x2 =>
        obtain ⟨e2, d2⟩ := x2
        rw [h2] at h
        obtain ⟨ts2, a2, b2, c2⟩ := attempt_tries h2
        simp only at h
        split at h
        · next he2 =>
          obtain ⟨ts3, a3, b3, -⟩ := attempt_tries h
          refine ⟨ts1 ++ (ts2 ++ ts3), by rw [a3, a2, a1]; simp, by simp; omega, fun t ht => ?_⟩
          rcases mem_dropLast_append ht with ht | ht
          · exact c1 he1 t ht
          · rcases mem_dropLast_append ht with ht | ht
            · exact c2 he2 t ht
            · exact (short_dropLast b3 ht).elim
        · cases h
          refine ⟨ts1 ++ ts2, by rw [a2, a1]; simp, by simp; omega, fun t ht => ?_⟩
          rcases mem_dropLast_append ht with ht | ht
          · exact c1 he1 t ht
          · exact (short_dropLast b2 ht).elim
    · cases h
      exact ⟨ts1, a1, by omega, fun t ht => (short_dropLast b1 ht).elim⟩

/-- A call that does not return `driver.ErrBadConn` and does not keep the connection, on an idle connection: one attempt. -/
theorem call_once {dial : Nat → Except GoErr (World σ)} {c : SqlCall} {d : Db σ} {w w' : World σ} {rest : List (World σ)} {e : Option GoErr} (hf : d.free = w :: rest)
    (h : c.run P (closeN P n) w = .ok e w') (he : isErrBadConn e = false) (hk : c.keeps = false) :
    d.call P n dial c = some (e, { d with free := rest ++ [w'], tries := d.tries ++ [⟨w, w'⟩] }) := by
  have h1 : d.attempt P n dial c false = some (e, { d with free := rest ++ [w'], tries := d.tries ++ [⟨w, w'⟩] }) := by
    unfold Db.attempt
    rw [hf]
    simp only [Db.on, h, he, hk, Bool.and_false, Bool.or_false, Bool.false_eq_true, if_false]
  unfold Db.call
  rw [h1]
  simp [retrying, he]

/-- C105 with an honest server, any database, any statement with arguments that are maps: `DB.Exec` on an idle connection
makes one call, the server executes the statement once, and the connection is idle again. -/
theorem c105_once_partial {δ : Type} {D : DB δ} {dial : Nat → Except GoErr (World (Srv δ))} {db : Db (Srv δ)} {w : World (Srv δ)} {rest : List (World (Srv δ))} {d : δ}
    (hf : db.free = w :: rest) (h : Idle w d) {q : Str} {args : List DVal} {kvs : KVs} (ha : driverArgsToMap args = .ok kvs) (hs : Sendable w.chunkSize (.run q kvs)) :
    ∃ ps e w', MeansKVs kvs ps ∧ db.call D.peer n dial (.exec q args) = some (e, { db with free := rest ++ [w'], tries := db.tries ++ [⟨w, w'⟩] }) ∧
      Idle w' (D.exec d q ps).1 ∧ (e = none ↔ (D.exec d q ps).2.failure? = none) := by
  obtain ⟨ps, res, w', h1, h2, h3, h4⟩ := c20_execNeo_partial (close := closeN D.peer n) (D := D) h hs
  have hrun : (SqlCall.exec q args).run D.peer (closeN D.peer n) w = .ok (exceptErr res) w' := by
    refine mbind_ok ?_
    rw [sqlExec_ok ha]
    exact h2
  have hx : isErrBadConn (exceptErr res) = false ∧ (exceptErr res = none ↔ (D.exec d q ps).2.failure? = none) := by
    have fin : ∀ md, (∃ e, res = .error e ∧ e.innerMost = .failure md) → isErrBadConn (exceptErr res) = false ∧ exceptErr res ≠ none := by
      rintro md ⟨e, rfl, he⟩
      refine ⟨?_, by simp [exceptErr]⟩
      cases e <;> first | rfl | cases he
    cases ho : (D.exec d q ps).2 with
    | refused md =>
      rw [ho] at h4
      obtain ⟨a, b⟩ := fin md h4.1
      exact ⟨a, by simp [b, Outcome.failure?]⟩
    | answer hd rs en =>
      cases en with
      | summary md =>
        rw [ho] at h4
        obtain ⟨rfl, _⟩ := h4
        exact ⟨rfl, by simp [exceptErr, Outcome.failure?]⟩
      | broken md =>
        rw [ho] at h4
        obtain ⟨a, b⟩ := fin md h4.1
        exact ⟨a, by simp [b, Outcome.failure?]⟩
  exact ⟨ps, _, w', h1, call_once hf hrun hx.1 rfl, h3, hx.2⟩

/-- The demo database, through `sql.DB`. -/
example : ∃ e w', (⟨[freshConn 0 4096], 1, []⟩ : Db (Srv Nat)).call demo.peer 1 (fun _ => .error .eof) (.exec [65] []) = some (e, ⟨[w'], 1, [⟨freshConn 0 4096, w'⟩]⟩) ∧ Idle w' 1 ∧ e = none := by
  obtain ⟨ps, e, w', _, h2, h3, h4⟩ := c105_once_partial (D := demo) (n := 1) (dial := fun _ => .error .eof) (db := ⟨[freshConn 0 4096], 1, []⟩) rfl demo_idle (q := [65]) (args := []) (kvs := []) rfl
    (demo_sendable [65] (by decide))
  exact ⟨e, w', h2, h3, h4.2 rfl⟩

/-- The server fails the statement and answers ACK_FAILURE with a record. -/
def oddOnce : List (List Item) := [[.val (.failure [])], [], [.val (.record [])]]

/-- C105 is not void: this statement is run again, on a new connection, where it succeeds. -/
theorem c105_case : ∃ d', (⟨[scriptConn oddOnce], 1, []⟩ : Db (List (List Item))).call script 1 (fun _ => .ok (scriptConn [[.val (.success [])], [.val (.success [])]])) (.exec [65] []) = some (none, d') ∧
    d'.tries.length = 2 ∧ d'.free.length = 1 ∧ d'.opened = 2 := by
  have h : (match (⟨[scriptConn oddOnce], 1, []⟩ : Db (List (List Item))).call script 1 (fun _ => .ok (scriptConn [[.val (.success [])], [.val (.success [])]])) (.exec [65] []) with
    | some (none, d') => d'.tries.length == 2 && d'.free.length == 1 && d'.opened == 2
    | _ => false) = true := by decide +kernel
  split at h
  · rename_i d' hd
    simp only [Bool.and_eq_true, beq_iff_eq] at h
    exact ⟨d', hd, h.1.1, h.1.2, h.2⟩
  · cases h

theorem two_tries {dial : Nat → Except GoErr (World σ)} {c : SqlCall} {d d' : Db σ} {e : Option GoErr} (h : d.call P n dial c = some (e, d')) (h0 : d.tries = []) (h2 : d'.tries.length = 2) :
    ∃ t t', Excused t ∧ d'.tries = [t, t'] := by
  obtain ⟨ts, h3, _, h4⟩ := c105_again h
  rw [h0, List.nil_append] at h3
  rw [h3] at h2
  obtain ⟨t, t', rfl⟩ := List.length_eq_two.1 h2
  exact ⟨t, t', h4 t List.mem_cons_self, h3⟩

/-- In it the first of the two calls is excused. -/
example : ∃ (t t' : Try (List (List Item))) (d' : Db (List (List Item))), Excused t ∧ d'.tries = [t, t'] := by
  have ⟨d', h1, h2, _⟩ := c105_case
  have ⟨t, t', h3, h4⟩ := two_tries h1 rfl h2
  exact ⟨t, t', d', h3, h4⟩

/-! ## C106 -/

/-- From a state in `S` the peer stays in `S` and says nothing, whatever it is sent. -/
def NeverAnswers (P : Peer σ) (S : σ → Prop) : Prop := ∀ s bs, S s → S (P.react s bs).1 ∧ (P.react s bs).2 = []

/-- A connection without open statement or transaction, not closed, that will never receive anything again. -/
structure DeadConn (S : σ → Prop) (w : World σ) : Prop where
  srv : S w.srv
  inbox : w.inbox = []
  statement : w.statement = none
  transaction : w.transaction = none
  closed : w.closed = false

/-- What talking to such a peer changes: nothing that the driver keeps about statements. -/
structure Vain (S : σ → Prop) (w w1 : World σ) : Prop where
  srv : S w1.srv
  inbox : w1.inbox = []
  stmts : w1.stmts = w.stmts
  statement : w1.statement = w.statement
  transaction : w1.transaction = w.transaction
  closed : w1.closed = w.closed

namespace Retry

variable {S : σ → Prop}

theorem _root_.Bolt.Vain.trans {w w1 w2 : World σ} (h : Vain S w w1) (h' : Vain S w1 w2) : Vain S w w2 :=
  ⟨h'.srv, h'.inbox, h'.stmts.trans h.stmts, h'.statement.trans h.statement, h'.transaction.trans h.transaction, h'.closed.trans h.closed⟩

theorem vain_send (hm : NeverAnswers P S) {w : World σ} (hs : S w.srv) (hi : w.inbox = []) (v : Val) : ∃ e w1, send P v w = .ok e w1 ∧ Vain S w w1 := by
  refine ⟨_, _, rfl, ?_, ?_, rfl, rfl, rfl, rfl⟩
  · dsimp only; split
    · exact hs
    · exact (hm _ _ hs).1
  · dsimp only; split
    · rw [hi]; rfl
    · rw [hi, (hm _ _ hs).2]; rfl

theorem vain_recv {w : World σ} (hs : S w.srv) (hi : w.inbox = []) : ∃ e w1, recv P w = .ok (.nil, some (readErr e)) w1 ∧ Vain S w w1 := by
  have hn : nextItem P w = .ioerr ∨ nextItem P w = .eof := by
    unfold nextItem
    rw [hi]
    dsimp only
    split
    · exact .inl rfl
    · split
      · exact .inr rfl
      · exact .inl rfl
  unfold recv
  rcases hn with hn | hn <;> rw [hn]
  · exact ⟨_, _, rfl, hs, by simp [hi], rfl, rfl, rfl, rfl⟩
  · exact ⟨_, _, rfl, hs, by simp [hi], rfl, rfl, rfl, rfl⟩

/-- A wrapped error. -/
def Wrap (e : GoErr) : Prop := ∃ m x, e = .wrap m x

theorem Wrap.notBad {e : GoErr} (h : Wrap e) : isErrBadConn (some e) = false := by obtain ⟨_, _, rfl⟩ := h; rfl

variable {close : M σ (Option GoErr)}

theorem vain_consume {w : World σ} (hs : S w.srv) (hi : w.inbox = []) : ∃ e w1, consume P close w = .ok (.nil, some e) w1 ∧ Wrap e ∧ Vain S w w1 := by
  obtain ⟨e, w1, h1, h2⟩ := vain_recv (P := P) hs hi
  exact ⟨_, w1, (mbind_ok h1).trans rfl, ⟨_, _, rfl⟩, h2⟩

theorem vain_sendRun (hm : NeverAnswers P S) {w : World σ} (hs : S w.srv) (hi : w.inbox = []) (q : Str) (kvs : KVs) :
    ∃ e w1, sendRun P q kvs w = .ok e w1 ∧ (∀ x, e = some x → Wrap x) ∧ Vain S w w1 := by
  obtain ⟨e, w1, h1, h2⟩ := vain_send hm hs hi (.run q kvs)
  unfold sendRun
  rw [mbind_ok h1]
  cases e with
  | some e => exact ⟨_, w1, rfl, fun x hx => (by cases hx; exact ⟨_, _, rfl⟩), h2⟩
  | none => exact ⟨none, w1, rfl, fun x hx => (by cases hx), h2⟩

theorem vain_sendPullAll (hm : NeverAnswers P S) {w : World σ} (hs : S w.srv) (hi : w.inbox = []) :
    ∃ e w1, sendPullAll P w = .ok e w1 ∧ (∀ x, e = some x → Wrap x) ∧ Vain S w w1 := by
  obtain ⟨e, w1, h1, h2⟩ := vain_send hm hs hi .pullAll
  unfold sendPullAll
  rw [mbind_ok h1]
  cases e with
  | some e => exact ⟨_, w1, rfl, fun x hx => (by cases hx; exact ⟨_, _, rfl⟩), h2⟩
  | none => exact ⟨none, w1, rfl, fun x hx => (by cases hx), h2⟩

theorem vain_sendRunPullAll (hm : NeverAnswers P S) {w : World σ} (hs : S w.srv) (hi : w.inbox = []) (q : Str) (kvs : KVs) :
    ∃ e w1, sendRunPullAll P q kvs w = .ok e w1 ∧ (∀ x, e = some x → Wrap x) ∧ Vain S w w1 := by
  obtain ⟨e, w1, h1, h2, h3⟩ := vain_sendRun hm hs hi q kvs
  unfold sendRunPullAll
  rw [mbind_ok h1]
  cases e with
  | some e => exact ⟨_, w1, rfl, h2, h3⟩
  | none =>
    obtain ⟨e, w2, h4, h5, h6⟩ := vain_sendPullAll hm h3.srv h3.inbox
    exact ⟨e, w2, h4, h5, h3.trans h6⟩

theorem vain_runAll (hm : NeverAnswers P S) {w : World σ} (hs : S w.srv) (hi : w.inbox = []) (q : Str) (kvs : KVs) :
    ∃ e w1, sendRunPullAllConsumeAll P close q kvs w = .ok (.nil, .nil, some e) w1 ∧ Wrap e ∧ Vain S w w1 := by
  unfold sendRunPullAllConsumeAll
  obtain ⟨e, w1, h1, h2, h3⟩ := vain_sendRunPullAll hm hs hi q kvs
  cases e with
  | some e => exact ⟨e, w1, (mbind_ok h1).trans rfl, h2 e rfl, h3⟩
  | none =>
    obtain ⟨e, w2, h4, h5, h6⟩ := vain_consume (P := P) (close := close) h3.srv h3.inbox
    exact ⟨e, w2, (mbind_ok h1).trans ((mbind_ok h4).trans rfl), h5, h3.trans h6⟩

theorem vain_run (hm : NeverAnswers P S) {w : World σ} (hs : S w.srv) (hi : w.inbox = []) (q : Str) (kvs : KVs) :
    ∃ e w1, sendRunPullAllConsumeRun P close q kvs w = .ok (.nil, some e) w1 ∧ Wrap e ∧ Vain S w w1 := by
  unfold sendRunPullAllConsumeRun
  obtain ⟨e, w1, h1, h2, h3⟩ := vain_sendRunPullAll hm hs hi q kvs
  cases e with
  | some e => exact ⟨e, w1, (mbind_ok h1).trans rfl, h2 e rfl, h3⟩
  | none =>
    obtain ⟨e, w2, h4, h5, h6⟩ := vain_consume (P := P) (close := close) h3.srv h3.inbox
    exact ⟨e, w2, (mbind_ok h1).trans h4, h5, h3.trans h6⟩

theorem vain_single (hm : NeverAnswers P S) {w : World σ} (hs : S w.srv) (hi : w.inbox = []) (q : Str) (kvs : KVs) :
    ∃ e w1, sendRunPullAllConsumeSingle P close q kvs w = .ok (.nil, .nil, some e) w1 ∧ Wrap e ∧ Vain S w w1 := by
  unfold sendRunPullAllConsumeSingle
  obtain ⟨e, w1, h1, h2, h3⟩ := vain_sendRunPullAll hm hs hi q kvs
  cases e with
  | some e => exact ⟨e, w1, (mbind_ok h1).trans rfl, h2 e rfl, h3⟩
  | none =>
    obtain ⟨e, w2, h4, h5, h6⟩ := vain_consume (P := P) (close := close) h3.srv h3.inbox
    exact ⟨e, w2, (mbind_ok h1).trans ((mbind_ok h4).trans rfl), h5, h3.trans h6⟩

theorem guard_open {w : World σ} (h1 : w.statement = none) (h2 : w.closed = false) : guardConn w = .ok none w := by
  unfold guardConn; rw [h1, h2]; rfl

theorem lost_exec (hm : NeverAnswers P S) {w : World σ} (h : DeadConn S w) (q : Str) (kvs : KVs) : ∃ e w1, execNeo P close q kvs w = .ok (.error e) w1 ∧ Wrap e ∧ DeadConn S w1 := by
  have es : World.stmt { w with stmts := w.stmts ++ [{ query := q, queries := [], conn := true, closed := false, rows := none }] } w.stmts.length = _ := stmt_append w _
  obtain ⟨e, w2, h3, h4, h5⟩ := vain_runAll (close := close) hm (w := { w with stmts := w.stmts ++ [{ query := q, queries := [], conn := true, closed := false, rows := none }] }) h.srv h.inbox q kvs
  have es2 : w2.stmt w.stmts.length = _ := (show w2.stmt w.stmts.length = World.stmt { w with stmts := w.stmts ++ [{ query := q, queries := [], conn := true, closed := false, rows := none }] } w.stmts.length by
    unfold World.stmt; rw [h5.stmts]).trans es
  have hx : stmtExecNeo P close w.stmts.length kvs { w with stmts := w.stmts ++ [{ query := q, queries := [], conn := true, closed := false, rows := none }] } = .ok (.error e) w2 := by
    unfold stmtExecNeo
    refine (mbind_ok (a := none) (w' := { w with stmts := w.stmts ++ [{ query := q, queries := [], conn := true, closed := false, rows := none }] }) ?_).trans ?_
    · unfold guardStmt; rw [es]; rfl
    · refine (mbind_ok (show M.get (fun w : World σ => (w.stmt _).query) _ = .ok q _ by rw [get_run, es])).trans ?_
      refine (mbind_ok (show withConn _ _ _ = .ok (.nil, .nil, some e) w2 from ?_)).trans rfl
      unfold withConn
      rw [es]
      exact h3
  refine ⟨e, w2.stmtDone w.stmts.length, ?_, h4, ?_⟩
  · unfold execNeo
    exact (mbind_ok (guard_open h.statement h.closed)).trans ((mbind_ok rfl).trans ((mbind_ok hx).trans ((mbind_ok (stmtClose_norows P close (by rw [es2]) (by rw [es2]) (by rw [es2]))).trans rfl)))
  · exact ⟨h5.srv, h5.inbox, rfl, h5.transaction.trans h.transaction, h5.closed.trans h.closed⟩

theorem lost_query (hm : NeverAnswers P S) {w : World σ} (h : DeadConn S w) (q : Str) (kvs : KVs) : ∃ e w1, queryNeo P close q kvs w = .ok (.error e) w1 ∧ Wrap e ∧ DeadConn S w1 := by
  have es : World.stmt { w with stmts := w.stmts ++ [{ query := q, queries := [], conn := true, closed := false, rows := none }] } w.stmts.length = _ := stmt_append w _
  obtain ⟨e, w2, h3, h4, h5⟩ := vain_run (close := close) hm (w := { w with stmts := w.stmts ++ [{ query := q, queries := [], conn := true, closed := false, rows := none }], statement := some w.stmts.length }) h.srv h.inbox q kvs
  have es2 : w2.stmt w.stmts.length = _ := (show w2.stmt w.stmts.length = World.stmt { w with stmts := w.stmts ++ [{ query := q, queries := [], conn := true, closed := false, rows := none }] } w.stmts.length by
    unfold World.stmt; rw [h5.stmts]).trans es
  refine ⟨e, w2.stmtDone w.stmts.length, ?_, h4, ?_⟩
  · unfold queryNeo
    refine (mbind_ok (guard_open h.statement h.closed)).trans ((mbind_ok rfl).trans ((mbind_ok rfl).trans ((mbind_ok h3).trans ?_)))
    refine (mbind_ok (a := none) (w' := w2.stmtDone w.stmts.length) ?_).trans rfl
    unfold queryNeo.stmtCloseCurrent
    refine (mbind_ok (show M.get (fun w : World σ => w.statement) w2 = .ok (some w.stmts.length) w2 by rw [get_run, h5.statement])).trans ?_
    exact stmtClose_norows P close (by rw [es2]) (by rw [es2]) (by rw [es2])
  · exact ⟨h5.srv, h5.inbox, rfl, h5.transaction.trans h.transaction, h5.closed.trans h.closed⟩

theorem lost_begin (hm : NeverAnswers P S) {w : World σ} (h : DeadConn S w) : ∃ e w1, begin_ P close w = .ok (.error e) w1 ∧ Wrap e ∧ DeadConn S w1 := by
  obtain ⟨e, w2, h3, h4, h5⟩ := vain_single (close := close) hm h.srv h.inbox qBegin []
  refine ⟨.wrap "An error occurred beginning transaction" (some e), w2, ?_, ⟨_, _, rfl⟩, h5.srv, h5.inbox, h5.statement.trans h.statement, h5.transaction.trans h.transaction, h5.closed.trans h.closed⟩
  unfold begin_
  refine (mbind_ok (show M.get (fun w : World σ => w.transaction) w = .ok none w by rw [get_run, h.transaction])).trans ?_
  refine (mbind_ok (show M.get (fun w : World σ => w.statement) w = .ok none w by rw [get_run, h.statement])).trans ?_
  refine (mbind_ok (show M.get (fun w : World σ => w.closed) w = .ok false w by rw [get_run, h.closed])).trans ?_
  exact (mbind_ok h3).trans rfl

end Retry

/-- The call sends a statement: arguments that are maps, and not `Prepare`. -/
def SqlCall.sends : SqlCall → Prop
  | .exec _ args | .query _ args => ∃ kvs, driverArgsToMap args = .ok kvs
  | .prepare _ => False
  | .begin => True

theorem run_exec {close : M σ (Option GoErr)} {q : Str} {args : List DVal} {w w' : World σ} {r : Except GoErr KVs} (h : sqlExec P close q args w = .ok r w') :
    (SqlCall.exec q args).run P close w = .ok (exceptErr r) w' := mbind_ok h

theorem run_query {close : M σ (Option GoErr)} {q : Str} {args : List DVal} {kvs : KVs} (ha : driverArgsToMap args = .ok kvs) {w w' : World σ} {r : Except GoErr Nat}
    (h : queryNeo P close q kvs w = .ok r w') : (SqlCall.query q args).run P close w = .ok (exceptErr r) w' := by
  have : sqlQuery P close q args w = .ok (viaPtr r) w' := (mbind_ok (convert_ok ha w)).trans ((mbind_ok h).trans rfl)
  refine (mbind_ok this).trans ?_
  cases r <;> rfl

theorem run_prepare {close : M σ (Option GoErr)} {q : Str} {w w' : World σ} {r : Except GoErr Nat}
    (h : prepare q [] w = .ok r w') : (SqlCall.prepare q).run P close w = .ok (exceptErr r) w' := by
  have : apiPrepare q w = .ok (viaPtr r) w' := (mbind_ok h).trans rfl
  refine (mbind_ok this).trans ?_
  cases r <;> rfl

theorem run_begin {close : M σ (Option GoErr)} {w w' : World σ} {r : Except GoErr Nat} (h : begin_ P close w = .ok r w') :
    SqlCall.begin.run P close w = .ok (exceptErr r) w' := mbind_ok h

theorem lost_call {S : σ → Prop} (hm : NeverAnswers P S) {w : World σ} (h : DeadConn S w) {c : SqlCall} (hc : c.sends) :
    ∃ e w1, c.run P (closeN P n) w = .ok (some e) w1 ∧ isErrBadConn (some e) = false ∧ DeadConn S w1 := by
  cases c with
  | exec q args =>
    obtain ⟨kvs, ha⟩ := hc
    obtain ⟨e, w1, h1, h2, h3⟩ := Retry.lost_exec (close := closeN P n) hm h q kvs
    exact ⟨e, w1, run_exec (r := .error e) (by rw [sqlExec_ok ha]; exact h1), h2.notBad, h3⟩
  | query q args =>
    obtain ⟨kvs, ha⟩ := hc
    obtain ⟨e, w1, h1, h2, h3⟩ := Retry.lost_query (close := closeN P n) hm h q kvs
    exact ⟨e, w1, run_query ha h1, h2.notBad, h3⟩
  | prepare q => exact hc.elim
  | begin =>
    obtain ⟨e, w1, h1, h2, h3⟩ := Retry.lost_begin (close := closeN P n) hm h
    exact ⟨e, w1, run_begin h1, h2.notBad, h3⟩

/-- The calls one after the other: the errors, and `sql.DB` afterwards. -/
def Db.calls (P : Peer σ) (n : Nat) (dial : Nat → Except GoErr (World σ)) : List SqlCall → Db σ → Option (List (Option GoErr) × Db σ)
  | [], d => some ([], d)
  | c :: cs, d =>
    match d.call P n dial c with
    | some (e, d1) =>
      match Db.calls P n dial cs d1 with
      | some (es, d2) => some (e :: es, d2)
      | none => none
    | none => none

/-- An error that is not kept. -/
theorem call_error {dial : Nat → Except GoErr (World σ)} {c : SqlCall} {d : Db σ} {w w' : World σ} {rest : List (World σ)} {e : GoErr} (hf : d.free = w :: rest)
    (h : c.run P (closeN P n) w = .ok (some e) w') (he : isErrBadConn (some e) = false) :
    d.call P n dial c = some (some e, { d with free := rest ++ [w'], tries := d.tries ++ [⟨w, w'⟩] }) := by
  have h1 : d.attempt P n dial c false = some (some e, { d with free := rest ++ [w'], tries := d.tries ++ [⟨w, w'⟩] }) := by
    unfold Db.attempt
    rw [hf]
    simp only [Db.on, h, he, Option.isNone_some, Bool.false_and, Bool.or_false, Bool.false_eq_true, if_false]
  unfold Db.call
  rw [h1]
  simp [retrying, he]

/-- C106 is false, any peer: once the idle connection is lost, every `DB.Exec`, `DB.Query` and `DB.Begin` fails, however many there are, and no
connection is ever opened, whether or not that would succeed. -/
theorem c106_false {S : σ → Prop} (hm : NeverAnswers P S) (dial : Nat → Except GoErr (World σ)) : ∀ (cs : List SqlCall) {d : Db σ} {w : World σ}, d.free = [w] → DeadConn S w → (∀ c ∈ cs, c.sends) →
    ∃ es d', d.calls P n dial cs = some (es, d') ∧ es.length = cs.length ∧ (∀ e ∈ es, e ≠ none) ∧ d'.opened = d.opened ∧ ∃ w', d'.free = [w'] ∧ DeadConn S w'
  | [], d, w, hf, hw, _ => ⟨[], d, rfl, rfl, fun _ h => (by cases h), rfl, w, hf, hw⟩
  | c :: cs, d, w, hf, hw, hc => by
    obtain ⟨e, w1, h1, h2, h3⟩ := lost_call (n := n) hm hw (hc c List.mem_cons_self)
    have h4 := call_error (dial := dial) hf h1 h2
    obtain ⟨es, d', h5, h6, h7, h8, h9⟩ := c106_false hm dial cs (d := { d with free := [] ++ [w1], tries := d.tries ++ [⟨w, w1⟩] }) (w := w1) rfl h3 fun c hc' => hc c (List.mem_cons_of_mem _ hc')
    refine ⟨some e :: es, d', ?_, by simp [h6], ?_, h8, h9⟩
    · unfold Db.calls
      rw [h4]
      simp only [h5]
    · intro x hx
      rcases List.mem_cons.1 hx with rfl | hx
      · simp
      · exact h7 x hx

/-- A server that has closed the stream. -/
theorem mute_gone {δ : Type} (D : DB δ) : NeverAnswers D.peer fun s => s.mode = .gone := by
  have h : ∀ f d bs, (D.absorb f d .gone bs).1.mode = .gone ∧ (D.absorb f d .gone bs).2 = [] := by
    intro f
    induction f with
    | zero => exact fun d bs => ⟨rfl, rfl⟩
    | succ f ih =>
      intro d bs
      unfold DB.absorb
      cases deframe bs.length bs with
      | none => exact ⟨rfl, rfl⟩
      | some x =>
        obtain ⟨p, rest⟩ := x
        have := ih d rest
        exact ⟨this.1, by simpa [DB.handle] using this.2⟩
  intro s bs hs
  obtain ⟨d, m, p⟩ := s
  cases hs
  refine ⟨(h _ _ _).1, ?_⟩
  change List.map Item.val _ = []
  rw [(h _ _ _).2]
  rfl

/-- C106 is false with an honest server: it has closed the stream of the idle connection, as after a restart; it would accept a
new connection, but none is opened, and every statement fails. -/
theorem c106_restart_false {δ : Type} {D : DB δ} (dial : Nat → Except GoErr (World (Srv δ))) (cs : List SqlCall) (hc : ∀ c ∈ cs, c.sends) {db : Db (Srv δ)} {w : World (Srv δ)}
    (hf : db.free = [w]) (hw : DeadConn (fun s => s.mode = .gone) w) :
    ∃ es d', db.calls D.peer n dial cs = some (es, d') ∧ es.length = cs.length ∧ (∀ e ∈ es, e ≠ none) ∧ d'.opened = db.opened := by
  obtain ⟨es, d', h1, h2, h3, h4, _⟩ := c106_false (n := n) (mute_gone D) dial cs hf hw hc
  exact ⟨es, d', h1, h2, h3, h4⟩

example : ∃ es d', (⟨[{ freshConn 0 4096 with srv := ⟨0, .gone, []⟩ }], 1, []⟩ : Db (Srv Nat)).calls demo.peer 1 (fun _ => .ok (freshConn 0 4096)) [.exec [65] [], .begin, .query [65] []] = some (es, d') ∧
    es.length = 3 ∧ (∀ e ∈ es, e ≠ none) ∧ d'.opened = 1 :=
  c106_restart_false (D := demo) _ _ (by rintro c hc; simp at hc; rcases hc with rfl | rfl | rfl <;> first | exact ⟨[], rfl⟩ | trivial) rfl ⟨rfl, rfl, rfl, rfl, rfl⟩

/-- C106, when the driver does return `driver.ErrBadConn`, any peer: with no other idle connection a new one is opened, the lost one is
dropped, and the result is that of the call on the new one. -/
theorem c106_partial {dial : Nat → Except GoErr (World σ)} {c : SqlCall} {d : Db σ} {w w1 w2 w3 : World σ} {e : Option GoErr} (hf : d.free = [w])
    (h : c.run P (closeN P n) w = .ok (some .badConn) w1) (hd : dial d.opened = .ok w2) (h2 : c.run P (closeN P n) w2 = .ok e w3) (he : isErrBadConn e = false) :
    ∃ d', d.call P n dial c = some (e, d') ∧ d'.opened = d.opened + 1 ∧ (d'.free = [w3] ∨ (d'.free = [] ∧ e = none ∧ c.keeps = true)) := by
  have h1 : d.attempt P n dial c false = some (some .badConn, { d with free := [], tries := d.tries ++ [⟨w, w1⟩] }) := by
    unfold Db.attempt
    rw [hf]
    simp only [Db.on, h, isErrBadConn, Bool.true_or, if_true]
  unfold Db.call
  rw [h1]
  have h3 : ∃ d', ({ d with free := [], tries := d.tries ++ [⟨w, w1⟩] } : Db σ).attempt P n dial c false = some (e, d') ∧ d'.opened = d.opened + 1 ∧
      (d'.free = [w3] ∨ (d'.free = [] ∧ e = none ∧ c.keeps = true)) := by
    unfold Db.attempt
    simp only [hd, Db.on, h2, he, Bool.false_or]
    by_cases hk : (e.isNone && c.keeps) = true
    · rw [if_pos hk]
      simp only [Bool.and_eq_true, Option.isNone_iff_eq_none] at hk
      exact ⟨_, rfl, rfl, .inr ⟨rfl, hk⟩⟩
    · rw [if_neg hk]
      exact ⟨_, rfl, rfl, .inl rfl⟩
  obtain ⟨d', h3, h4⟩ := h3
  refine ⟨d', ?_, h4⟩
  simp only [retrying, show isErrBadConn (some .badConn) = true from rfl, if_true]
  rw [h3]
  exact if_neg (by rw [he]; simp)

/-- C106, why: any peer, any state, any `Exec`, `Query`, `Prepare` or `Begin` that fails, because of the network or otherwise, without a strange
answer to ACK_FAILURE or RESET: the error is not `driver.ErrBadConn` itself, and the connection is idle again, to be used for the next call. -/
theorem c106_kept_false {dial : Nat → Except GoErr (World σ)} {c : SqlCall} {d : Db σ} {w w' : World σ} {rest : List (World σ)} {e : GoErr} (hf : d.free = w :: rest)
    (h : c.run P (closeN P n) w = .ok (some e) w') {l : List Event} (hl : w'.log = w.log ++ l) (hs : ¬ StrangeAnswer l) (hb : ∀ half, .recv (.bad .badConn half) ∉ l) :
    ∃ d', d.call P n dial c = some (some e, d') ∧ w' ∈ d'.free ∧ d'.opened = d.opened := by
  have he : isErrBadConn (some e) = false := by
    cases hx : isErrBadConn (some e) with
    | false => rfl
    | true =>
      cases isErrBadConn_eq hx
      obtain ⟨l', h1, h2⟩ := c105_driver h
      obtain rfl : l' = l := List.append_cancel_left (h1.symm.trans hl)
      rcases h2 with h2 | ⟨half, h2⟩
      · exact (hs h2.2).elim
      · exact (hb half h2).elim
  exact ⟨_, call_error hf h he, by simp, rfl⟩

/-- The network fails while the answer is awaited: the connection is among the idle ones again. -/
example : ∃ e w' d', (⟨[scriptConn [[], [.ioerr]]], 1, []⟩ : Db (List (List Item))).call script 1 (fun _ => .ok (scriptConn [])) (.exec [65] []) = some (some e, d') ∧ e.isBadConn = true ∧
    w' ∈ d'.free ∧ d'.opened = 1 := by
  obtain ⟨e, w', h1, h2, _⟩ := c81_case
  have hr : (SqlCall.exec [65] []).run script (closeN script 1) (scriptConn [[], [.ioerr]]) = .ok (some e) w' := by
    have : (SqlCall.exec [65] []).run script (closeN script 1) = (Op.exec [65] []).run script (closeN script 1) := by
      funext w
      change ((sqlExec script (closeN script 1) [65] [] >>= _) w) = _
      rw [sqlExec_ok (kvs := []) rfl]
      rfl
    rw [this]
    exact h1
  have hb : isErrBadConn (some e) = false := by
    obtain ⟨a, w1, h3, h4⟩ := Out.of_test (o := Op.run script (closeN script 1) (.exec [65] []) (scriptConn [[], [.ioerr]]))
      (p := fun a _ => !isErrBadConn a) (by decide +kernel)
    rw [h1] at h3
    cases h3
    simpa using h4
  exact ⟨e, w', _, call_error rfl hr hb, h2, by simp, rfl⟩

/-! ## C107 -/

/-- C107 is false, any peer: `DB.Prepare` gives the connection back while the driver's statement is open on it; until that is closed
every `DB.Exec`, `DB.Query`, `DB.Prepare` and `DB.Begin` that uses the connection fails, nothing is sent, and the connection goes back
to the idle ones to fail the next call. -/
theorem c107_false {dial : Nat → Except GoErr (World σ)} {d : Db σ} {w : World σ} (hf : d.free = [w]) (hs : w.statement = none) (hc : w.closed = false) (ht : w.transaction = none) (q : Str) :
    ∃ d1 w1, d.call P n dial (.prepare q) = some (none, d1) ∧ d1.free = [w1] ∧ w1.log = w.log ∧
      ∀ c : SqlCall, c.sends ∨ (∃ q', c = .prepare q') → ∃ e d2, d1.call P n dial c = some (some e, d2) ∧ d2.free = [w1] ∧ d2.opened = d.opened := by
  let w1 : World σ := { w with stmts := w.stmts ++ [{ query := q, queries := [], conn := true, closed := false, rows := none }], statement := some w.stmts.length }
  have hp : (SqlCall.prepare q).run P (closeN P n) w = .ok none w1 := run_prepare (r := .ok w.stmts.length) ((mbind_ok (Retry.guard_open hs hc)).trans rfl)
  have hg : guardConn w1 = .ok (some (.new "An open statement already exists")) w1 := rfl
  refine ⟨_, w1, call_once hf hp rfl rfl, rfl, rfl, fun c hc' => ?_⟩
  have hrun : ∃ m, c.run P (closeN P n) w1 = .ok (some (.new m)) w1 := by
    cases c with
    | exec q' args => exact ⟨_, run_exec (r := .error (.new _)) ((mbind_ok hg).trans rfl)⟩
    | query q' args =>
      rcases hc' with ⟨kvs, ha⟩ | ⟨q', h⟩
      · exact ⟨_, run_query (r := .error (.new _)) ha ((mbind_ok hg).trans rfl)⟩
      · cases h
    | prepare q' => exact ⟨_, run_prepare (r := .error (.new _)) ((mbind_ok hg).trans rfl)⟩
    | begin =>
      refine ⟨_, run_begin (r := .error (.new "Cannot open a transaction when you already have an open statement")) ?_⟩
      unfold begin_
      refine (mbind_ok (show M.get (fun w : World σ => w.transaction) w1 = .ok none w1 by rw [get_run]; exact congrArg (Out.ok · w1) ht)).trans ?_
      exact (mbind_ok (show M.get (fun w : World σ => w.statement) w1 = .ok (some w.stmts.length) w1 from rfl)).trans rfl
  obtain ⟨m, hrun⟩ := hrun
  exact ⟨_, _, call_error rfl hrun rfl, rfl, rfl⟩

/-- C107: once the statement has been closed (`boltStmt.Close`, stmt.go:57-72), which sends nothing, the connection is as it was before `Prepare`, but
for a closed statement. -/
theorem c107_partial {w : World σ} (hs : w.statement = none) (hc : w.closed = false) (q : Str) (close : M σ (Option GoErr)) :
    ∃ w1 x, prepare q [] w = .ok (.ok w.stmts.length) w1 ∧ x.closed = true ∧ stmtClose P close w.stmts.length w1 = .ok none { w with stmts := w.stmts ++ [x] } := by
  refine ⟨{ w with stmts := w.stmts ++ [{ query := q, queries := [], conn := true, closed := false, rows := none }], statement := some w.stmts.length },
    { query := q, queries := [], conn := false, closed := true, rows := none }, (mbind_ok (Retry.guard_open hs hc)).trans rfl, rfl, ?_⟩
  have es : World.stmt { w with stmts := w.stmts ++ [{ query := q, queries := [], conn := true, closed := false, rows := none }] } w.stmts.length = _ := stmt_append w _
  refine (stmtClose_norows P close (s := w.stmts.length) ?_ ?_ ?_).trans ?_
  · exact congrArg Stmt.closed es
  · exact congrArg Stmt.conn es
  · exact congrArg Stmt.rows es
  · cases w
    cases hs
    simp only [World.stmtDone, World.setStmt, modify_last]

/-- `DB.Prepare` and then `DB.Exec` on a connection to a server that answers SUCCESS to everything. -/
example : ∃ d1 e d2, (⟨[yesConn], 1, []⟩ : Db Unit).call yes 1 (fun _ => .ok yesConn) (.prepare [65]) = some (none, d1) ∧
    d1.call yes 1 (fun _ => .ok yesConn) (.exec [66] []) = some (some e, d2) ∧ d2.opened = 1 := by
  obtain ⟨d1, w1, h1, _, _, h4⟩ := c107_false (P := yes) (n := 1) (dial := fun _ => .ok yesConn) (d := ⟨[yesConn], 1, []⟩) rfl rfl rfl rfl [65]
  obtain ⟨e, d2, h5, _, h7⟩ := h4 (.exec [66] []) (.inl ⟨[], rfl⟩)
  exact ⟨d1, e, d2, h1, h5, h7⟩

end Bolt
