import Verif.Proofs.Quiet

/-! API calls that return no error have met no network error. -/

namespace Bolt

variable {σ : Type} {P : Peer σ} {close : M σ (Option GoErr)} {w : World σ}

/-- No error, or `io.EOF` itself. -/
abbrev okEof {γ δ : Type} : γ × δ × Option GoErr → Prop := fun a => a.2.2 = none ∨ a.2.2 = some .eof

/-- No error, or `io.EOF` itself. -/
abbrev okVEof : Val × Option GoErr → Prop := fun a => a.2 = none ∨ a.2 = some .eof

/-- The result is an error other than `io.EOF` if it is an error. -/
def NotEof (x : M σ (Option GoErr)) (w : World σ) : Prop := ∀ w', x w ≠ .ok (some .eof) w'

theorem NotEof.pure {a : Option GoErr} (h : a ≠ some .eof) : NotEof (M.pure a) w := fun _ e => by cases e; exact h rfl
theorem NotEof.bind {γ : Type} {x : M σ γ} {f : γ → M σ (Option GoErr)} (h : ∀ a w1, x w = .ok a w1 → NotEof (f a) w1) : NotEof (x >>= f) w := fun _ e => by
  obtain ⟨a, w1, h1, h2⟩ := run_inv e
  exact h a w1 h1 _ h2

theorem reset_notEof (w : World σ) : NotEof (reset P close) w := by
  refine .bind fun a w1 _ => ?_
  cases a with
  | some e => exact .pure (by simp)
  | none =>
    refine .bind fun a w1 _ => .bind fun x w3 _ => ?_
    obtain ⟨v, e⟩ := x
    cases e with
    | some e => exact .pure (by simp)
    | none =>
      cases v with
      | success md => exact .pure (by simp)
      | failure md => exact .bind fun _ _ _ => .pure (by simp)
      | _ => exact .bind fun _ _ _ => .bind fun _ _ _ => .pure (by simp)

theorem ack_notEof (w : World σ) : NotEof (ackFailure P close) w := by
  refine .bind fun a w1 _ => ?_
  cases a with
  | some e => exact .pure (by simp)
  | none =>
    refine .bind fun a w1 _ => .bind fun x w3 _ => ?_
    obtain ⟨v, e⟩ := x
    cases e with
    | some e => exact .pure (by simp)
    | none =>
      cases v with
      | success md => exact .pure (by simp)
      | failure md => exact reset_notEof w3
      | _ => exact .bind fun _ _ _ => .bind fun _ _ _ => .pure (by simp)

/-- `consume` returns `io.EOF` itself only when the decoder did; nothing else has happened then. -/
theorem consume_eof_run {w w1 : World σ} {v : Val} {e : GoErr} (h : consume P close w = .ok (v, some e) w1) (he : e.isEOF = true) :
    ∃ half, nextItem P w = .bad .eof half ∧ v = (if half then .success [] else .nil) ∧
      w1 = { w with inbox := w.inbox.tail, log := w.log ++ [.recv (.bad .eof half)] } := by
  obtain rfl : e = .eof := by cases e <;> first | rfl | cases he
  obtain ⟨⟨v', e'⟩, wa, h1, h⟩ := run_inv h
  cases e' with
  | some e1 =>
    have : v' = v ∧ e1 = .eof ∧ wa = w1 := by cases v' <;> cases h <;> exact ⟨rfl, rfl, rfl⟩
    obtain ⟨rfl, rfl, rfl⟩ := this
    unfold recv at h1
    simp only at h1
    cases hn : nextItem P w <;> rw [hn] at h1 <;> cases h1
    exact ⟨_, rfl, rfl, rfl⟩
  | none =>
    cases v' with
    | failure md =>
      obtain ⟨a, wb, h2, h⟩ := run_inv h
      cases a with
      | none => cases h
      | some e2 => cases h; exact (ack_notEof _ _ h2).elim
    | _ => cases h

theorem hon_recv_eof (w : World σ) : Hon (recv P) w okVEof := fun a w' e => by
  unfold recv at e
  simp only at e
  cases hn : nextItem P w <;> rw [hn] at e <;> cases e <;> refine ⟨[.recv _], rfl, fun h e he => ?_⟩ <;>
    first | (rw [List.mem_singleton] at he; rw [he]; rfl) | (rcases h with h | h <;> (unfold readErr at h; cases h))

variable (hc : ∀ w, Grow close w)
include hc

theorem hon_consume_eof (w : World σ) : Hon (consume P close) w okVEof := by
  refine (hon_recv_eof w).bind (fun x w3 _ h => ?_) (fun x w3 _ h => ?_)
  · obtain ⟨v, e⟩ := x
    cases e with
    | some e => exact Hon.pure _
    | none =>
      cases v with
      | failure md =>
        refine Hon.bind (hon_ack hc w3) (fun a _ _ h => ?_) (fun a w4 ha h => ?_)
        · cases h; exact Hon.pure _
        · cases a with
          | none => exact absurd rfl h
          | some e =>
            refine Bad.pure fun he => ?_
            rcases he with he | he
            · cases he
            · cases he; exact ack_notEof w3 _ ha
      | _ => exact Hon.pure _
  · obtain ⟨v, e⟩ := x
    cases e with
    | none => exact absurd (.inl rfl) h
    | some e => exact Bad.pure h

theorem hon_nextNeo (r : Nat) (w : World σ) : Hon (nextNeo P close r) w okEof := by
  refine (Hon.get _).seq fun row w1 _ => ?_
  split
  · exact Hon.pure _
  · refine Hon.bind (g := okE) ?_ (fun a w2 _ h => ?_) (fun a w2 ha h => ?_)
    · split
      · refine (Hon.mod (g := fun _ => True) rfl).seq fun _ w2 _ => ?_
        refine (hon_withConn (hon_sendPullAll w2)).bind (fun a w3 _ h => ?_) (fun a w3 _ h => ?_)
        · cases h; exact Hon.pure _
        · cases a with
          | none => exact absurd rfl h
          | some e => exact Bad.bind (Hon.mod rfl) fun _ _ _ => Bad.pure (by simp)
      · exact Hon.pure _
    · cases h
      refine (hon_withConn (hon_consume_eof hc w2)).bind (fun x w3 _ h => ?_) (fun x w3 _ h => ?_)
      · obtain ⟨v, e⟩ := x
        cases e with
        | some e => exact Hon.pure _
        | none =>
          cases v with
          | success md => exact (Hon.mod (g := fun _ => True) rfl).seq fun _ _ _ => Hon.pure _
          | _ => exact Hon.pure _
      · obtain ⟨v, e⟩ := x
        cases e with
        | none => exact absurd (.inl rfl) h
        | some e => exact Bad.pure h
    · cases a with
      | none => exact absurd rfl h
      | some e =>
        refine Bad.pure fun he => ?_
        rcases he with he | he
        · cases he
        · cases he
          revert ha
          refine (?_ : NotEof _ _) _
          split
          · refine .bind fun _ w4 _ => .bind fun a w5 h5 => ?_
            cases a with
            | none => exact .pure (by simp)
            | some e =>
              refine .bind fun _ _ _ => .pure ?_
              have : NotEof (withConn row.stmt (sendPullAll P)) w4 := by
                intro w' h
                unfold withConn at h
                split at h
                · refine (.bind fun a _ _ => ?_ : NotEof (sendPullAll P) w4) _ h
                  cases a <;> exact .pure (by simp)
                · cases h
              intro h6
              cases h6
              exact this _ h5
          · exact .pure (by simp)

theorem hon_allLoop (r f : Nat) : ∀ (out : List (List Val)) (w : World σ), Hon (allLoop P close r f out) w okVV := by
  induction f with
  | zero => exact fun out w a w' e => nomatch e
  | succ f ih =>
    intro out w
    refine (hon_nextNeo hc r w).bind (fun x w1 _ h => ?_) (fun x w1 _ h => ?_)
    · obtain ⟨row, md, e⟩ := x
      cases row with
      | none =>
        cases e with
        | none => exact Hon.pure _
        | some e => simp only; split <;> exact Hon.pure _
      | some row =>
        cases e with
        | none => exact ih _ w1
        | some e => simp only; split <;> exact Hon.pure _
    · obtain ⟨row, md, e⟩ := x
      cases e with
      | none => exact absurd (.inl rfl) h
      | some e =>
        have hne : e.isEOF = false := by
          cases e with
          | eof => exact absurd (.inr rfl) h
          | _ => rfl
        cases row <;> simp only <;> rw [hne] <;> exact Bad.pure (by simp)

theorem hon_rowsAll (r : Nat) (w : World σ) : Hon (rowsAll P close r) w okVV := hon_allLoop hc r _ _ w

/-- No error. -/
abbrev okX {γ : Type} : Except GoErr γ → Prop := fun a => exceptErr a = none

omit hc in
theorem hon_guardConn (w : World σ) : Hon guardConn w fun _ => True := fun a w' e => by
  unfold guardConn at e
  split at e
  · cases e; exact Ext.refl _ _
  · split at e <;> cases e <;> exact Ext.refl _ _

omit hc in
theorem hon_guardStmt (s : Nat) (w : World σ) : Hon (guardStmt s) w fun _ => True := fun a w' e => by
  unfold guardStmt at e
  split at e
  · cases e; exact Ext.refl _ _
  · split at e <;> cases e <;> exact Ext.refl _ _

theorem hon_stmtExecNeo (s : Nat) (kvs : KVs) (w : World σ) : Hon (stmtExecNeo P close s kvs) w okX := by
  refine (hon_guardStmt s w).seq fun a w1 _ => ?_
  cases a with
  | some e => exact Hon.pure _
  | none =>
    refine (Hon.get _).seq fun q w2 _ => (hon_withConn (hon_sendRunPullAllConsumeAll hc q kvs w2)).bind (fun x w3 _ h => ?_) (fun x w3 _ h => ?_)
    · obtain ⟨run, pull, e⟩ := x
      cases h
      simp only
      split
      · exact Hon.pure _
      · cases pull <;> exact Hon.pure _
    · obtain ⟨run, pull, e⟩ := x
      cases e with
      | none => exact absurd rfl h
      | some e => exact Bad.pure (by simp [exceptErr])

omit hc in
theorem hon_sendAll (msg : String) : ∀ (l : List (Str × KVs)) (w : World σ), Hon (sendAll P msg l) w okE := by
  intro l
  induction l with
  | nil => exact fun w => Hon.pure _
  | cons x l ih =>
    intro w
    obtain ⟨q, kvs⟩ := x
    refine (hon_sendRunPullAll q kvs w).bind (fun a w1 _ h => ?_) (fun a w1 _ h => ?_)
    · cases h; exact ih w1
    · cases a with
      | none => exact absurd rfl h
      | some e => exact Bad.pure (by simp)

theorem hon_collect (n : Nat) : ∀ w : World σ, Hon (collect P close n) w okX := by
  induction n with
  | zero => exact fun w => Hon.pure _
  | succ n ih =>
    intro w
    refine (hon_consume hc w).bind (fun x w1 _ h => ?_) (fun x w1 _ h => ?_)
    · obtain ⟨run, e⟩ := x
      cases h
      simp only
      split
      · exact Hon.pure _
      · refine (hon_consumeAll hc w1).bind (fun x w2 _ h => ?_) (fun x w2 _ h => ?_)
        · obtain ⟨rs, pull, e⟩ := x
          cases h
          cases pull with
          | success md =>
            refine (ih w2).bind (fun x w3 _ h => ?_) (fun x w3 _ h => ?_)
            · cases x <;> exact Hon.pure _
            · cases x with
              | ok a => exact absurd rfl h
              | error e => exact Bad.pure (by simp [exceptErr])
          | _ => exact Hon.pure _
        · obtain ⟨rs, pull, e⟩ := x
          cases e with
          | none => exact absurd rfl h
          | some e => cases pull <;> exact Bad.pure (by simp [exceptErr])
    · obtain ⟨run, e⟩ := x
      cases e with
      | none => exact absurd rfl h
      | some e => exact Bad.pure (by simp [exceptErr])

theorem hon_stmtExecPipeline (s : Nat) (l : List KVs) (w : World σ) : Hon (stmtExecPipeline P close s l) w okX := by
  refine (hon_guardStmt s w).seq fun a w1 _ => ?_
  cases a with
  | some e => exact Hon.pure _
  | none =>
    refine (Hon.get _).seq fun q w2 _ => ?_
    split
    · exact Hon.pure _
    · refine (hon_withConn (hon_sendAll _ _ w2)).bind (fun a w3 _ h => ?_) (fun a w3 _ h => ?_)
      · cases h; exact hon_withConn (hon_collect hc _ w3)
      · cases a with
        | none => exact absurd rfl h
        | some e => exact Bad.pure (by simp [exceptErr])

omit hc in
/-- Storing new rows. -/
theorem hon_newRows (x : Rows) {γ : Type} (s : Nat) (g : Nat → γ) (k : γ → Prop) (w : World σ) :
    Hon (newRowsObj x >>= fun r => (M.modify fun w => w.setStmt s fun y => { y with rows := some r }) >>= fun _ => M.pure (g r)) w k := fun a w' e => by
  cases e
  exact ⟨[], by simp [World.setStmt], fun _ _ h => by cases h⟩

theorem hon_stmtQueryNeo (s : Nat) (kvs : KVs) (w : World σ) : Hon (stmtQueryNeo P close s kvs) w okX := by
  refine (hon_guardStmt s w).seq fun a w1 _ => ?_
  cases a with
  | some e => exact Hon.pure _
  | none =>
    refine (Hon.get _).seq fun q w2 _ => (hon_withConn (hon_sendRunConsume hc q kvs w2)).bind (fun x w3 _ h => ?_) (fun x w3 _ h => ?_)
    · obtain ⟨v, e⟩ := x
      cases h
      cases v with
      | success md => exact hon_newRows _ s (fun r => (.ok r : Except GoErr Nat)) _ w3
      | _ => exact Hon.pure _
    · obtain ⟨v, e⟩ := x
      cases e with
      | none => exact absurd rfl h
      | some e => exact Bad.pure (by simp [exceptErr])

theorem hon_stmtQueryPipeline (s : Nat) (l : List KVs) (w : World σ) : Hon (stmtQueryPipeline P close s l) w okX := by
  refine (hon_guardStmt s w).seq fun a w1 _ => ?_
  cases a with
  | some e => exact Hon.pure _
  | none =>
    refine (Hon.get _).seq fun q w2 _ => ?_
    split
    · exact Hon.pure _
    · refine (hon_withConn (hon_sendAll _ _ w2)).bind (fun a w3 _ h => ?_) (fun a w3 _ h => ?_)
      · cases h
        refine (hon_withConn (hon_consume hc w3)).bind (fun x w3 _ h => ?_) (fun x w3 _ h => ?_)
        · obtain ⟨v, e⟩ := x
          cases h
          cases v with
          | success md => exact hon_newRows _ s (fun r => (.ok r : Except GoErr Nat)) _ w3
          | _ => exact Hon.pure _
        · obtain ⟨v, e⟩ := x
          cases e with
          | none => exact absurd rfl h
          | some e => exact Bad.pure (by simp [exceptErr])
      · cases a with
        | none => exact absurd rfl h
        | some e => exact Bad.pure (by simp [exceptErr])

omit hc in
theorem hon_pipeHeader (row : Rows) (v : Val) (w : World σ) : Hon (pipeHeader row v) w fun x => x.err = none := by
  unfold pipeHeader
  split
  · exact hon_newRows _ row.stmt (fun r => PipeRes.mk none (some _) (some r) none) _ w
  · exact Hon.pure _

theorem hon_nextPipeline (r : Nat) (w : World σ) : Hon (nextPipeline P close r) w fun x => x.err = none := by
  refine (Hon.get _).seq fun row w1 _ => ?_
  split
  · exact Hon.pure _
  · refine (hon_withConn (hon_consume hc w1)).bind (fun x w3 _ h => ?_) (fun x w3 _ h => ?_)
    · obtain ⟨v, e⟩ := x
      cases h
      cases v with
      | success md =>
        refine (Hon.get _).seq fun n w3 _ => ?_
        split
        · exact (Hon.mod (g := fun _ => True) rfl).seq fun _ _ _ => Hon.pure _
        · refine (hon_withConn (hon_consume_eof hc w3)).bind (fun x w3 _ h => ?_) (fun x w3 _ h => ?_)
          · obtain ⟨v, e⟩ := x
            cases e with
            | none => exact hon_pipeHeader _ _ _
            | some e =>
              simp only
              split
              · exact hon_pipeHeader _ _ _
              · exact Hon.pure _
          · obtain ⟨v, e⟩ := x
            cases e with
            | none => exact absurd (.inl rfl) h
            | some e =>
              simp only
              have : e.isEOF = false := by
                cases e <;> first | rfl | exact absurd (.inr rfl) h
              rw [this]
              exact Bad.pure (by simp)
      | _ => exact Hon.pure _
    · obtain ⟨v, e⟩ := x
      cases e with
      | none => exact absurd rfl h
      | some e => exact Bad.pure (by simp)

omit hc in
/-- A statement without rows has nothing to read when it is closed. -/
theorem hon_stmtClose_none {s : Nat} {w : World σ} (h : (w.stmt s).rows = none) : Hon (stmtClose P close s) w fun _ => True := by
  intro a w' e
  rw [stmtClose_def] at e
  split at e
  · cases e; exact Ext.refl _ _
  · have h1 : stmtCloseRows P close s w = .ok none w := by
      unfold stmtCloseRows
      refine (mbind_ok (a := none) (w' := w) ?_).trans rfl
      change Out.ok (w.stmt s).rows w = _
      rw [h]
    rw [mbind_ok h1] at e
    exact ((hon_stmtMark s w).seq fun _ _ _ => Hon.pure _ : Hon _ _ fun _ => True) a w' e

/-- The connection as `execNeo` has it once the statement is allocated. -/
abbrev World.withStmt (w : World σ) (q : Str) (qs : List Str) : World σ :=
  { w with stmts := w.stmts ++ [{ query := q, queries := qs, conn := true, closed := false, rows := none }] }

omit hc in
theorem sound_withStmt {w : World σ} (h : Sound w) (hn : w.statement = none) (q : Str) (qs : List Str) : Sound (w.withStmt q qs) :=
  ⟨h.good, (fun i hi => by rw [show (w.withStmt q qs).statement = w.statement from rfl, hn] at hi; cases hi), h.fin⟩

omit hc in
/-- Run on a statement of its own, then close that. -/
theorem hon_temp {γ : Type} {f : Nat → M σ (Except GoErr γ)} (q : Str) (qs : List Str) (w : World σ) (hs : Sound w) (hn : w.statement = none)
    (hi : ∀ w1, Inner (f w.stmts.length) w1) (h : ∀ w1, Hon (f w.stmts.length) w1 okX) :
    Hon (newStmt q qs >>= fun s => f s >>= fun res => stmtClose P close s >>= fun _ => M.pure res) w okX := fun a w' e => by
  obtain ⟨b, w1, h1, h2⟩ := run_inv e
  cases h1
  obtain ⟨b, w2, h3, h4⟩ := run_inv h2
  have hi1 := (hi _).int (sound_withStmt hs hn q qs) h3
  have hr := hi1.srows w.stmts.length (by simp [World.stmt, World.withStmt])
  obtain ⟨c, w3, h5, h6⟩ := run_inv h4
  cases h6
  have e0 : Ext w (w.withStmt q qs) True := ⟨[], by simp [World.withStmt], fun _ _ h => by cases h⟩
  exact (e0.tr ((h _ _ w2 h3).tr (hon_stmtClose_none hr c _ h5))).mono fun hk => ⟨trivial, hk, trivial⟩

variable (hi : ∀ w, Inner close w)
include hi

theorem hon_execNeo (q : Str) (kvs : KVs) (w : World σ) (hs : Sound w) : Hon (execNeo P close q kvs) w okX := by
  unfold execNeo
  rcases guardConn_cases w with ⟨e, h⟩ | ⟨h, hn, _⟩
  · intro a w' e
    rw [mbind_ok h] at e
    exact Hon.pure _ a w' e
  · intro a w' e
    rw [mbind_ok h] at e
    exact hon_temp (f := fun s => stmtExecNeo P close s kvs) q [] w hs hn (inner_stmtExecNeo hi _ kvs) (hon_stmtExecNeo hc _ kvs) a w' e

theorem hon_execPipeline (qs : List Str) (l : List KVs) (w : World σ) (hs : Sound w) : Hon (execPipeline P close qs l) w okX := by
  unfold execPipeline
  rcases guardConn_cases w with ⟨e, h⟩ | ⟨h, hn, _⟩
  · intro a w' e
    rw [mbind_ok h] at e
    exact Hon.pure _ a w' e
  · intro a w' e
    rw [mbind_ok h] at e
    exact hon_temp (f := fun s => stmtExecPipeline P close s l) [] qs w hs hn (inner_stmtExecPipeline hi _ l) (hon_stmtExecPipeline hc _ l) a w' e

omit hi

omit hc in
theorem hon_newStmt (q : Str) (qs : List Str) (w : World σ) : Hon (newStmt q qs) w fun _ => True := fun a w' e => by
  cases e
  exact ⟨[], by simp, fun _ _ h => by cases h⟩

omit hc in
theorem hon_prepare (q : Str) (qs : List Str) (w : World σ) : Hon (prepare q qs) w okX := by
  refine (hon_guardConn w).seq fun a w1 _ => ?_
  cases a with
  | some e => exact Hon.pure _
  | none => exact (hon_newStmt q qs w1).seq fun s w2 _ => (Hon.mod (g := fun _ => True) rfl).seq fun _ w3 _ => Hon.pure _

theorem grow_stmtCloseCurrent (w : World σ) : Grow (queryNeo.stmtCloseCurrent P close) w := by
  refine Grow.bind (Hon.get _) fun b w0 _ => ?_
  cases b with
  | none => exact Hon.panic _
  | some s => exact (hon_stmtClose hc s w0).grow

theorem hon_queryNeo (q : Str) (kvs : KVs) (w : World σ) : Hon (queryNeo P close q kvs) w okX := by
  refine (hon_guardConn w).seq fun a w1 _ => ?_
  cases a with
  | some e => exact Hon.pure _
  | none =>
    refine (hon_newStmt q [] w1).seq fun s w2 _ => (Hon.mod (g := fun _ => True) rfl).seq fun _ w3 _ => ?_
    refine (hon_sendRunPullAllConsumeRun hc q kvs w3).bind (fun x w4 _ h => ?_) (fun x w4 _ h => ?_)
    · obtain ⟨v, e⟩ := x
      cases h
      cases v with
      | success md => exact hon_newRows _ s (fun r => (.ok r : Except GoErr Nat)) _ w4
      | _ => exact (Bad.bind (grow_stmtCloseCurrent hc w4) fun _ _ _ => Bad.pure (by simp [exceptErr])).hon
    · obtain ⟨v, e⟩ := x
      cases e with
      | none => exact absurd rfl h
      | some e => exact Bad.bind (grow_stmtCloseCurrent hc w4) fun _ _ _ => Bad.pure (by simp [exceptErr])

theorem hon_queryPipeline (qs : List Str) (l : List KVs) (w : World σ) : Hon (queryPipeline P close qs l) w okX := by
  refine (hon_guardConn w).seq fun a w1 _ => ?_
  cases a with
  | some e => exact Hon.pure _
  | none =>
    refine (hon_newStmt [] qs w1).seq fun s w2 _ => (Hon.mod (g := fun _ => True) rfl).seq fun _ w3 _ => ?_
    refine (hon_stmtQueryPipeline hc s l w3).bind (fun x w4 _ h => ?_) (fun x w4 _ h => ?_)
    · cases x with
      | ok r => exact (Hon.mod (g := fun _ => True) rfl).seq fun _ w3 _ => Hon.pure _
      | error e => cases h
    · cases x with
      | ok r => exact absurd rfl h
      | error e => exact Bad.pure (by simp [exceptErr])

theorem hon_begin (w : World σ) : Hon (begin_ P close) w okX := by
  unfold begin_
  refine (Hon.get _).seq fun a w1 _ => ?_
  split
  · exact Hon.pure _
  · refine (Hon.get _).seq fun a w1 _ => ?_
    split
    · exact Hon.pure _
    · refine (Hon.get _).seq fun a w1 _ => ?_
      split
      · exact Hon.pure _
      · refine (hon_sendRunPullAllConsumeSingle hc qBegin [] w1).bind (fun x w3 _ h => ?_) (fun x w3 _ h => ?_)
        · obtain ⟨run, pull, e⟩ := x
          cases h
          simp only
          split
          · exact Hon.pure _
          · split
            · exact Hon.pure _
            · intro a w' e
              cases e
              exact ⟨[], by simp, fun _ _ h => by cases h⟩
        · obtain ⟨run, pull, e⟩ := x
          cases e with
          | none => exact absurd rfl h
          | some e => exact Bad.pure (by simp [exceptErr])

/-! ### Reading to the end -/

omit hc in
theorem recv_keeps {a : Val × Option GoErr} {w' : World σ} (h : recv P w = .ok a w') : w'.stmts = w.stmts ∧ w'.rows = w.rows := by
  unfold recv at h
  simp only at h
  cases hn : nextItem P w <;> rw [hn] at h <;> cases h <;> exact ⟨rfl, rfl⟩

omit hc in
theorem consume_keeps {v : Val} {w' : World σ} (h : consume P close w = .ok (v, none) w') : w'.stmts = w.stmts ∧ w'.rows = w.rows := by
  obtain ⟨⟨v1, e1⟩, w1, h1, h2⟩ := run_inv h
  cases e1 with
  | some e => cases h2
  | none =>
    cases v1 with
    | failure md =>
      obtain ⟨a, w2, h3, h4⟩ := run_inv h2
      cases a <;> cases h4
    | _ => cases h2; exact recv_keeps h1

omit hc in
/-- Reading one row of rows already being pulled, when it was a row or the end. -/
theorem nextNeo_keeps {r : Nat} {x : Option (List Val) × Option KVs × Option GoErr} {w' : World σ} (hr : r < w.rows.length)
    (hk : (w.row r).consumed = true) (h : nextNeo P close r w = .ok x w') (hx : x.2.2 = none ∨ x.2.1.isSome = true) :
    w'.stmts = w.stmts ∧ w'.rows.length = w.rows.length ∧ (w'.row r).consumed = true ∧ (w'.row r).stmt = (w.row r).stmt ∧
      (x.2.1.isSome = true → (w'.row r).finished = true) ∧ (x.2.2 = none → x.1.isSome = true) := by
  obtain ⟨_, _, h1, h⟩ := run_inv h
  cases h1
  split at h
  · cases h; rcases hx with h | h <;> cases h
  · rw [hk] at h
    obtain ⟨_, _, h1, h⟩ := run_inv h
    cases h1
    simp only at h
    obtain ⟨⟨v, e⟩, w1, h1, h⟩ := run_inv h
    unfold withConn at h1
    split at h1
    · cases e with
      | some e => cases h; rcases hx with h | h <;> cases h
      | none =>
        obtain ⟨k1, k2⟩ := consume_keeps h1
        cases v with
        | success md =>
          obtain ⟨_, _, h1, h⟩ := run_inv h
          cases h1
          cases h
          have hr' : r < w1.rows.length := by rw [k2]; exact hr
          have hrow : w1.row r = w.row r := by simp only [World.row, k2]
          refine ⟨k1, by simp [World.setRow, k2], ?_, ?_, fun _ => ?_, fun h => by cases h⟩
          · rw [row_modify, if_pos ⟨rfl, hr'⟩, hrow]; exact hk
          · rw [row_modify, if_pos ⟨rfl, hr'⟩, hrow]
          · rw [row_modify, if_pos ⟨rfl, hr'⟩]
        | record fs =>
          cases h
          have hrow : w'.row r = w.row r := by simp only [World.row, k2]
          exact ⟨k1, by rw [k2], by rw [hrow]; exact hk, by rw [hrow], (fun h => by cases h), fun _ => rfl⟩
        | _ => cases h; rcases hx with h | h <;> cases h
    · cases h1

omit hc in
/-- Reading all rows to the summary. -/
theorem allLoop_keeps {r : Nat} (f : Nat) : ∀ {out : List (List Val)} {w w' : World σ} {data : List (List Val)} {md : Option KVs},
    r < w.rows.length → (w.row r).consumed = true → allLoop P close r f out w = .ok (data, md, none) w' → md.isSome = true →
    w'.stmts = w.stmts ∧ (w'.row r).consumed = true ∧ (w'.row r).stmt = (w.row r).stmt ∧ (w'.row r).finished = true ∧ r < w'.rows.length := by
  induction f with
  | zero => intro out w w' data md _ _ h; cases h
  | succ f ih =>
    intro out w w' data md hr hk h hmd
    obtain ⟨⟨row, m, e⟩, w1, h1, h⟩ := run_inv h
    have key : ∀ k : (e = none ∨ m.isSome = true), _ := fun k => nextNeo_keeps hr hk h1 k
    cases e with
    | none =>
      obtain ⟨k1, k2, k3, k4, _, k6⟩ := key (.inl rfl)
      cases row with
      | none => exact absurd (k6 rfl) (by simp)
      | some row =>
        obtain ⟨j1, j2, j3, j4, j5⟩ := ih (by rw [k2]; exact hr) k3 h hmd
        exact ⟨j1.trans k1, j2, j3.trans k4, j4, j5⟩
    | some e =>
      have : m = md ∧ w1 = w' := by
        cases row <;> simp only at h <;> split at h <;> cases h <;> exact ⟨rfl, rfl⟩
      obtain ⟨rfl, rfl⟩ := this
      obtain ⟨k1, k2, k3, k4, k5, _⟩ := key (.inr hmd)
      exact ⟨k1, k3, k4, k5 hmd, by rw [k2]; exact hr⟩

omit hc in
/-- Closing rows that were read to the end reads nothing. -/
theorem hon_rowsClose_finished {r : Nat} {w : World σ} (hk : (w.row r).consumed = true) (hf : (w.row r).finished = true) : Hon (rowsClose P close r) w fun _ => True := by
  refine (Hon.get _).seq fun b w0 h0 => ?_
  cases h0
  split
  · exact Hon.pure _
  · intro a w' e
    have h1 : rowsDrain P close r w = .ok none w := by
      unfold rowsDrain
      simp only [hk, hf]
      rfl
    rw [mbind_ok h1] at e
    change (rowsMark r >>= fun _ => M.get (fun w => (w.row r).closeStmt) >>= fun b =>
      if b = true then (M.get fun w => (w.row r).stmt) >>= fun s => stmtClose P close s else M.pure none) w = _ at e
    revert e
    refine ((hon_rowsMark r w).seq fun _ w1 h1 => (Hon.get _).seq fun b w2 h2 => ?_ : Hon _ _ fun _ => True) a w'
    cases h1
    cases h2
    simp only
    split
    · refine (Hon.get _).seq fun b w2 h2 => ?_
      cases h2
      refine hon_stmtClose_none ?_
      have hst : (World.row (w.setRow r fun x => { x with closed := true }) r).stmt = (w.row r).stmt := by
        rw [row_modify]; split <;> rfl
      change (World.stmt (World.setStmt _ _ _) (World.row (w.setRow r fun x => { x with closed := true }) r).stmt).rows = none
      rw [hst, stmt_modify]
      split
      · rfl
      · rename_i hlt
        simp only [true_and, Nat.not_lt] at hlt
        have : (World.stmt (w.setRow r fun x => { x with closed := true }) (w.row r).stmt) = default := by
          unfold World.stmt
          rw [List.getElem?_eq_none hlt]; rfl
        rw [this]; rfl
    · exact Hon.pure _

/-- The rows and their summary arrived, without an error. -/
abbrev okAll : Except GoErr (List (List Val) × KVs × Option KVs × Option GoErr) → Prop
  | .error _ => False
  | .ok x => x.2.2.2 = none ∧ x.2.2.1.isSome = true

omit hc in
theorem send_keeps {v : Val} {a : Option GoErr} {w' : World σ} (h : send P v w = .ok a w') : w'.stmts = w.stmts ∧ w'.rows = w.rows := by
  cases h; exact ⟨rfl, rfl⟩

omit hc in
theorem sendRunPullAll_keeps {q : Str} {kvs : KVs} {w' : World σ} (h : sendRunPullAll P q kvs w = .ok none w') : w'.stmts = w.stmts ∧ w'.rows = w.rows := by
  obtain ⟨a, w1, h1, h⟩ := run_inv h
  obtain ⟨a', w2, h1, h2⟩ := run_inv h1
  cases a' with
  | some e => cases h2; cases h
  | none =>
    cases h2
    obtain ⟨a, w3, h3, h⟩ := run_inv h
    cases a with
    | some e => cases h
    | none =>
      cases h
      exact ⟨(send_keeps h3).1.trans (send_keeps h1).1, (send_keeps h3).2.trans (send_keeps h1).2⟩

omit hc in
/-- New rows of the connection are its last and belong to a statement that exists. -/
theorem queryNeo_new {q : Str} {kvs : KVs} {r : Nat} {w' : World σ} (h : queryNeo P close q kvs w = .ok (.ok r) w') :
    r < w'.rows.length ∧ (w'.row r).consumed = true ∧ (w'.stmt (w'.row r).stmt).rows = some r := by
  obtain ⟨a, w1, h1, h⟩ := run_inv h
  cases a with
  | some e => cases h
  | none =>
    obtain ⟨s, w2, h2, h⟩ := run_inv h
    cases h2
    obtain ⟨_, w3, h3, h⟩ := run_inv h
    cases h3
    obtain ⟨⟨v, e⟩, w4, h4, h⟩ := run_inv h
    cases e with
    | some e =>
      obtain ⟨_, w5, h5, h⟩ := run_inv h
      cases h
    | none =>
      cases v with
      | success md =>
        obtain ⟨b, w5, h5, h6⟩ := run_inv h4
        cases b with
        | some e => cases h6
        | none =>
          have k1 := (consume_keeps h6).1.trans (sendRunPullAll_keeps h5).1
          cases h
          have hrow := row_append w4 { md := md, stmt := w1.stmts.length, closed := false, consumed := true, finished := false, idx := 0, closeStmt := true } w4.rows.length
          rw [if_pos rfl] at hrow
          refine ⟨by simp [World.setStmt], ?_, ?_⟩
          · exact (congrArg Rows.consumed hrow).trans rfl
          · rw [show ∀ x f, World.row (World.setStmt x w1.stmts.length f) w4.rows.length = x.row w4.rows.length from fun _ _ => rfl, hrow, stmt_modify, if_pos ⟨rfl, by simp [k1]⟩]
      | _ =>
        obtain ⟨_, w5, h5, h⟩ := run_inv h
        cases h

theorem hon_queryNeoAll (q : Str) (kvs : KVs) (w : World σ) : Hon (queryNeoAll P close q kvs) w okAll := by
  refine (hon_queryNeo hc q kvs w).bind (fun x w1 h1 h => ?_) (fun x w1 h1 h => ?_)
  · cases x with
    | error e => cases h
    | ok r =>
      obtain ⟨n1, n2, _⟩ := queryNeo_new h1
      intro a w' e
      obtain ⟨⟨data, md, err⟩, w2, h2, e⟩ := run_inv e
      obtain ⟨_, _, h3, e⟩ := run_inv e
      cases h3
      obtain ⟨c, w4, h4, e⟩ := run_inv e
      cases e
      have hall := hon_rowsAll hc r w1 _ w2 h2
      by_cases hg : err = none ∧ md.isSome = true
      · obtain ⟨rfl, hmd⟩ := hg
        obtain ⟨k1, k2, k3, k4, k5⟩ := allLoop_keeps _ n1 n2 h2 hmd
        have := hon_rowsClose_finished (P := P) (close := close) k2 k4 c w' h4
        exact (hall.tr this).mono fun _ => ⟨rfl, trivial⟩
      · exact (hall.tr (hon_rowsClose hc r w2 c w' h4)).mono fun h => absurd h hg
  · cases x with
    | ok r => exact absurd rfl h
    | error e => exact Bad.pure (by simp [okAll])

end Bolt
