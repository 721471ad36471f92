import Verif.Proofs.Safety

/-! Every API call keeps at most one statement open and never reopens anything, whatever the peer sends. -/

namespace Bolt

variable {σ : Type}

/-- At most one statement is not closed, and it is the one the connection knows. -/
structure Tidy (w : World σ) : Prop where
  cur : ∀ i, w.statement = some i → i < w.stmts.length
  one : ∀ i, i < w.stmts.length → (w.stmt i).closed = true ∨ w.statement = some i
  row : ∀ r, r < w.rows.length → (w.row r).stmt < w.stmts.length
  sound : Sound w

/-- What stays true forever. -/
structure Later (w w' : World σ) : Prop where
  nstmts : w.stmts.length ≤ w'.stmts.length
  stmts : ∀ i, (w.stmt i).closed = true → (w'.stmt i).closed = true
  nrows : w.rows.length ≤ w'.rows.length
  rowc : ∀ r, (w.row r).closed = true → (w'.row r).closed = true
  rows : ∀ r, r < w.rows.length → (w'.row r).stmt = (w.row r).stmt
  ntxs : w.txs.length ≤ w'.txs.length
  txs : ∀ t, w.txClosed t = true → w'.txClosed t = true
  trans : w.transaction = none → w'.transaction = none
  closed : w.closed = true → w'.closed = true
  shut : Shut w → Shut w' ∧ (w'.sink.out, w'.srv) = (w.sink.out, w.srv)

theorem Later.refl (w : World σ) : Later w w :=
  ⟨Nat.le_refl _, fun _ h => h, Nat.le_refl _, fun _ h => h, fun _ _ => rfl, Nat.le_refl _, fun _ h => h, fun h => h, fun h => h, fun h => ⟨h, rfl⟩⟩

theorem Later.tr {a b c : World σ} (h : Later a b) (h' : Later b c) : Later a c where
  nstmts := Nat.le_trans h.nstmts h'.nstmts
  stmts i x := h'.stmts i (h.stmts i x)
  nrows := Nat.le_trans h.nrows h'.nrows
  rowc i x := h'.rowc i (h.rowc i x)
  rows i x := (h'.rows i (Nat.lt_of_lt_of_le x h.nrows)).trans (h.rows i x)
  ntxs := Nat.le_trans h.ntxs h'.ntxs
  txs i x := h'.txs i (h.txs i x)
  trans x := h'.trans (h.trans x)
  closed x := h'.closed (h.closed x)
  shut x := ⟨(h'.shut (h.shut x).1).1, (h'.shut (h.shut x).1).2.trans (h.shut x).2⟩

theorem Int.later {w w' : World σ} (h : Int w w') : Later w w' where
  nstmts := Nat.le_of_eq h.nstmts.symm
  stmts := h.stmts
  nrows := Nat.le_of_eq h.nrows.symm
  rowc := h.rowc
  rows r _ := h.rows r
  ntxs := Nat.le_of_eq h.ntxs.symm
  txs := h.txs
  trans x := by
    rcases h.trans with h1 | h1
    · rw [h1, x]
    · exact h1
  closed := h.closed
  shut := h.shut

theorem Tidy.int {w w' : World σ} (h : Tidy w) (hi : Int w w') : Tidy w' where
  cur i hs := by
    rw [hi.nstmts]
    rcases hi.st with h1 | h1
    · exact h.cur i (h1 ▸ hs)
    · rw [h1] at hs; cases hs
  one i hl := by
    rw [hi.nstmts] at hl
    rcases h.one i hl with h1 | h1
    · exact .inl (hi.stmts i h1)
    · rcases hi.own i hl h1 with h2 | h2
      · exact .inr h2
      · exact .inl h2
  row r hr := by
    rw [hi.nrows] at hr
    rw [hi.rows, hi.nstmts]
    exact h.row r hr
  sound := hi.sound h.sound

/-- The call keeps the connection tidy, undoes nothing, and ends with `Q`. -/
def KeepsP {α : Type} (x : M σ α) (w : World σ) (Q : α → World σ → Prop) : Prop :=
  Later w (x w).world ∧ ∀ a w', x w = .ok a w' → Tidy w' ∧ Q a w'

/-- … with nothing more to say. -/
abbrev Keeps {α : Type} (x : M σ α) (w : World σ) : Prop := KeepsP x w fun _ _ => True

theorem KeepsP.bind {α β : Type} {x : M σ α} {f : α → M σ β} {w : World σ} {Q : α → World σ → Prop} {R : β → World σ → Prop}
    (h : KeepsP x w Q) (hf : ∀ a w', x w = .ok a w' → Tidy w' → Later w w' → Q a w' → KeepsP (f a) w' R) : KeepsP (x >>= f) w R := by
  obtain ⟨h1, h2⟩ := h
  unfold KeepsP
  rw [mbind_run]
  cases hx : x w with
  | ok a w' =>
    rw [hx] at h1
    obtain ⟨h3, h4⟩ := h2 a w' hx
    obtain ⟨h5, h6⟩ := hf a w' hx h3 h1 h4
    exact ⟨Later.tr h1 h5, h6⟩
  | panic p w' => rw [hx] at h1; exact ⟨h1, fun a w' h => nomatch h⟩
  | deep w' => rw [hx] at h1; exact ⟨h1, fun a w' h => nomatch h⟩

theorem KeepsP.pure {α : Type} {a : α} {w : World σ} {Q : α → World σ → Prop} (h : Tidy w) (hq : Q a w) : KeepsP (M.pure a) w Q :=
  ⟨Later.refl w, fun _ _ e => by cases e; exact ⟨h, hq⟩⟩

theorem Inner.keepsQ {α : Type} {x : M σ α} {w : World σ} {Q : α → World σ → Prop} (h : Inner x w) (ht : Tidy w)
    (hq : ∀ a w', x w = .ok a w' → Int w w' → Q a w') : KeepsP x w Q :=
  ⟨Int.later (h ht.sound), fun a w' e => by
    have : Int w w' := h.int ht.sound e
    exact ⟨ht.int this, hq a w' e this⟩⟩

theorem Inner.keeps {α : Type} {x : M σ α} {w : World σ} (h : Inner x w) (ht : Tidy w) : KeepsP x w fun _ w' => Int w w' :=
  h.keepsQ ht fun _ _ _ h => h

theorem KeepsP.weaken {α : Type} {x : M σ α} {w : World σ} {Q : α → World σ → Prop} (h : KeepsP x w Q) : Keeps x w :=
  ⟨h.1, fun a w' e => ⟨(h.2 a w' e).1, trivial⟩⟩

theorem KeepsP.panic {α : Type} (p : Panic) (w : World σ) (Q : α → World σ → Prop) : KeepsP (M.panic p : M σ α) w Q :=
  ⟨Later.refl w, fun _ _ e => nomatch e⟩

/-! ### Allocation -/

theorem stmt_append_if (w : World σ) (x : Stmt) (o : Option Nat) (i : Nat) :
    World.stmt { w with stmts := w.stmts ++ [x], statement := o } i = if i = w.stmts.length then x else w.stmt i := by
  unfold World.stmt
  simp only [List.getElem?_append]
  by_cases h : i < w.stmts.length
  · rw [if_pos h, if_neg (Nat.ne_of_lt h)]
  · rw [if_neg h]
    by_cases h2 : i = w.stmts.length
    · rw [if_pos h2, h2]; simp
    · rw [if_neg h2, List.getElem?_eq_none (Nat.le_of_not_lt h)]
      have : 1 ≤ i - w.stmts.length := by omega
      rw [List.getElem?_eq_none (l := [x]) this]

theorem later_newStmt (w : World σ) (x : Stmt) (o : Option Nat) : Later w { w with stmts := w.stmts ++ [x], statement := o } where
  nstmts := by simp
  stmts i h := by
    rw [stmt_append_if]
    split
    · rename_i hi
      subst hi
      unfold World.stmt at h
      rw [List.getElem?_eq_none (Nat.le_refl _)] at h
      cases h
    · exact h
  nrows := Nat.le_refl _
  rowc r h := h
  rows r _ := rfl
  ntxs := Nat.le_refl _
  txs t h := h
  trans h := h
  closed h := h
  shut h := ⟨h, rfl⟩

/-- A new statement that becomes the current one. -/
theorem tidy_newStmt {w : World σ} (h : Tidy w) (hn : w.statement = none) (hcl : w.closed = false) (x : Stmt) (hx : x.closed = false ∧ x.conn = true) :
    Tidy { w with stmts := w.stmts ++ [x], statement := some w.stmts.length } where
  cur i e := by cases e; simp
  one i hi := by
    rw [stmt_append_if]
    by_cases hl : i = w.stmts.length
    · exact .inr (by rw [hl])
    · rw [if_neg hl]
      have : i < w.stmts.length := by simp at hi; omega
      refine (h.one i this).imp id fun h1 => ?_
      rw [hn] at h1; cases h1
  row r hr := Nat.lt_of_lt_of_le (h.row r hr) (by simp)
  sound := ⟨h.sound.good, fun i e => by cases e; rw [stmt_append_if, if_pos rfl]; exact hx, fun e => by
    change w.closed = true at e; rw [hcl] at e; cases e⟩

theorem row_append (w : World σ) (x : Rows) (i : Nat) :
    World.row { w with rows := w.rows ++ [x] } i = if i = w.rows.length then x else w.row i := by
  unfold World.row
  simp only [List.getElem?_append]
  by_cases h : i < w.rows.length
  · rw [if_pos h, if_neg (Nat.ne_of_lt h)]
  · rw [if_neg h]
    by_cases h2 : i = w.rows.length
    · rw [if_pos h2, h2]; simp
    · rw [if_neg h2, List.getElem?_eq_none (Nat.le_of_not_lt h)]
      have : 1 ≤ i - w.rows.length := by omega
      rw [List.getElem?_eq_none (l := [x]) this]

/-- A new rows object, stored in its statement. -/
theorem keeps_newRows {w : World σ} (h : Tidy w) {x : Rows} (hx : x.stmt < w.stmts.length) {β : Type} (g : Nat → β) :
    KeepsP (newRowsObj x >>= fun r => (M.modify fun w => w.setStmt x.stmt fun y => { y with rows := some r }) >>= fun _ => M.pure (g r)) w
      fun b w' => w.rows.length < w'.rows.length ∧ b = g w.rows.length ∧ w'.stmts.length = w.stmts.length := by
  have hl : Later w { w with rows := w.rows ++ [x] } :=
    { nstmts := Nat.le_refl _, stmts := fun _ h => h, nrows := by simp, rowc := fun r hr => by
        rw [row_append]
        split
        · rename_i hi
          subst hi
          unfold World.row at hr
          rw [List.getElem?_eq_none (Nat.le_refl _)] at hr
          cases hr
        · exact hr
      rows := fun r hr => by rw [row_append, if_neg (Nat.ne_of_lt hr)], ntxs := Nat.le_refl _, txs := fun _ h => h, trans := fun h => h, closed := fun h => h,
      shut := fun h => ⟨h, rfl⟩ }
  have ht : Tidy { w with rows := w.rows ++ [x] } :=
    { cur := h.cur, one := h.one, sound := ⟨h.sound.good, h.sound.alive, h.sound.fin⟩, row := fun r hr => by
        rw [row_append]
        split
        · exact hx
        · rename_i hne; exact h.row r (by simp at hr; omega) }
  have hl2 : ∀ r, Later (World.mk w.stmts (w.rows ++ [x]) w.txs w.statement w.transaction w.closed w.connErr w.chunkSize w.sockCloseErr w.sink w.inbox w.srv w.log)
      (World.setStmt { w with rows := w.rows ++ [x] } x.stmt fun y => { y with rows := some r }) := fun r =>
    { nstmts := by simp [World.setStmt], stmts := fun i hi => by rw [stmt_modify]; split <;> exact hi, nrows := Nat.le_refl _, rowc := fun _ h => h, rows := fun _ _ => rfl,
      ntxs := Nat.le_refl _, txs := fun _ h => h, trans := fun h => h, closed := fun h => h, shut := fun h => ⟨h, rfl⟩ }
  have ht2 : ∀ r, Tidy (World.setStmt { w with rows := w.rows ++ [x] } x.stmt fun y => { y with rows := some r }) := fun r =>
    { cur := fun i hi => by simpa [World.setStmt] using ht.cur i hi
      one := fun i hi => by
        have hi' : i < w.stmts.length := by simpa [World.setStmt] using hi
        rw [stmt_modify]
        split <;> exact ht.one i hi'
      row := fun r hr => by have := ht.row r hr; simpa [World.setStmt, World.row] using this
      sound := ⟨h.sound.good, fun i hi => by rw [stmt_modify]; split <;> exact ht.sound.alive i hi, h.sound.fin⟩ }
  refine ⟨hl.tr (hl2 w.rows.length), fun b w' e => ?_⟩
  cases e
  exact ⟨ht2 _, by simp [World.setStmt], rfl, by simp [World.setStmt]⟩


/-! ### Statements and rows -/

variable {P : Peer σ} {close : M σ (Option GoErr)} (hc : ∀ w, Inner close w)

theorem guardConn_cases (w : World σ) : (∃ e, guardConn w = .ok (some e) w) ∨ (guardConn w = .ok none w ∧ w.statement = none ∧ w.closed = false) := by
  unfold guardConn
  cases hs : w.statement with
  | some i => exact .inl ⟨_, if_pos rfl⟩
  | none =>
    rw [if_neg (by simp)]
    cases hcl : w.closed with
    | true => exact .inl ⟨_, if_pos rfl⟩
    | false => exact .inr ⟨if_neg (by simp), rfl, rfl⟩

theorem keeps_guard {α : Type} {f : Option GoErr → M σ α} {w : World σ} {Q : α → World σ → Prop} (hf : ∀ e, KeepsP (f (some e)) w Q)
    (hn : w.statement = none → w.closed = false → KeepsP (f none) w Q) : KeepsP (guardConn >>= f) w Q := by
  unfold KeepsP
  rcases guardConn_cases w with ⟨e, h⟩ | ⟨h, h1, h2⟩
  · rw [mbind_ok h]; exact hf e
  · rw [mbind_ok h]; exact hn h1 h2

theorem guardStmt_cases (s : Nat) (w : World σ) : (∃ e, guardStmt s w = .ok (some e) w) ∨
    (guardStmt s w = .ok none w ∧ (w.stmt s).closed = false ∧ (w.stmt s).rows = none) := by
  unfold guardStmt
  cases hcl : (w.stmt s).closed with
  | true => exact .inl ⟨_, if_pos rfl⟩
  | false =>
    rw [if_neg (by simp)]
    cases hr : (w.stmt s).rows with
    | some i => exact .inl ⟨_, if_pos rfl⟩
    | none => exact .inr ⟨if_neg (by simp), rfl, rfl⟩

theorem inner_guardStmt (s : Nat) (w : World σ) : Inner (guardStmt s) w := by
  refine .of ?_
  rcases guardStmt_cases s w with ⟨e, h⟩ | ⟨h, -, -⟩ <;> rw [h] <;> exact Int.refl w

include hc

theorem inner_stmtExecNeo (s : Nat) (kvs : KVs) (w : World σ) : Inner (stmtExecNeo P close s kvs) w := by
  refine (inner_guardStmt s w).bind fun a w1 _ => ?_
  cases a with
  | some e => exact Inner.pure _ _
  | none =>
    refine (Inner.get _ w1).bind fun q w2 _ => (inner_withConn (inner_sendRunPullAllConsumeAll hc q kvs w2)).bind fun x w3 _ => ?_
    obtain ⟨run, pull, e⟩ := x
    cases e with
    | some e => exact Inner.pure _ _
    | none =>
      simp only
      split
      · exact Inner.pure _ _
      · cases pull <;> exact Inner.pure _ _

omit hc in
theorem inner_sendAll (msg : String) : ∀ (l : List (Str × KVs)) (w : World σ), Inner (sendAll P msg l) w := by
  intro l
  induction l with
  | nil => exact fun w => Inner.pure _ _
  | cons x l ih =>
    intro w
    obtain ⟨q, kvs⟩ := x
    refine (inner_sendRunPullAll q kvs w).bind fun a w1 _ => ?_
    cases a with
    | some e => exact Inner.pure _ _
    | none => exact ih w1

theorem inner_collect (n : Nat) : ∀ w : World σ, Inner (collect P close n) w := by
  induction n with
  | zero => exact fun w => Inner.pure _ _
  | succ n ih =>
    intro w
    refine (inner_consume hc w).bind fun x w1 _ => ?_
    obtain ⟨run, e⟩ := x
    cases e with
    | some e => exact Inner.pure _ _
    | none =>
      simp only
      split
      · exact Inner.pure _ _
      · refine (inner_consumeAll hc w1).bind fun x w2 _ => ?_
        obtain ⟨rs, pull, e⟩ := x
        cases e with
        | some e => cases pull <;> exact Inner.pure _ _
        | none =>
          cases pull with
          | success md =>
            refine (ih w2).bind fun x w3 _ => ?_
            cases x <;> exact Inner.pure _ _
          | _ => exact Inner.pure _ _

theorem inner_stmtExecPipeline (s : Nat) (l : List KVs) (w : World σ) : Inner (stmtExecPipeline P close s l) w := by
  refine (inner_guardStmt s w).bind fun a w1 _ => ?_
  cases a with
  | some e => exact Inner.pure _ _
  | none =>
    refine (Inner.get _ w1).bind fun q w2 _ => ?_
    split
    · exact Inner.pure _ _
    · refine (inner_withConn (inner_sendAll _ _ w2)).bind fun a w3 _ => ?_
      cases a with
      | some e => exact Inner.pure _ _
      | none => exact inner_withConn (inner_collect hc _ w3)

theorem keeps_stmtQueryNeo {s : Nat} {w : World σ} (ht : Tidy w) (hs : s < w.stmts.length) (kvs : KVs) :
    KeepsP (stmtQueryNeo P close s kvs) w fun x w' => ∀ r, x = .ok r → r < w'.rows.length := by
  refine ((inner_guardStmt s w).keeps ht).bind fun a w1 _ t1 _ i1 => ?_
  cases a with
  | some e => exact .pure t1 fun r e => nomatch e
  | none =>
    refine ((Inner.get _ w1).keeps t1).bind fun q w2 _ t2 _ i2 =>
      ((inner_withConn (inner_sendRunConsume hc q kvs w2)).keeps t2).bind fun x w3 _ t3 _ i3 => ?_
    have i4 := (i1.tr i2).tr i3
    obtain ⟨v, e⟩ := x
    cases e with
    | some e => exact .pure t3 fun r e => nomatch e
    | none =>
      cases v with
      | success md =>
        have := keeps_newRows t3 (x := { md := md, stmt := s, closed := false, consumed := false, finished := false, idx := 0, closeStmt := false })
          (by rw [i4.nstmts]; exact hs) (fun r => (.ok r : Except GoErr Nat))
        exact ⟨this.1, fun a w' e => ⟨(this.2 a w' e).1, fun r hr => by
          obtain ⟨_, h1, h2, _⟩ := this.2 a w' e
          rw [h2] at hr; cases hr; exact h1⟩⟩
      | _ => exact .pure t3 fun r e => nomatch e

theorem keeps_stmtQueryPipeline {s : Nat} {w : World σ} (ht : Tidy w) (hs : s < w.stmts.length) (l : List KVs) :
    KeepsP (stmtQueryPipeline P close s l) w fun x w' => ∀ r, x = .ok r → r < w'.rows.length := by
  refine ((inner_guardStmt s w).keeps ht).bind fun a w1 _ t1 _ i1 => ?_
  cases a with
  | some e => exact .pure t1 fun r e => nomatch e
  | none =>
    refine ((Inner.get _ w1).keeps t1).bind fun q w2 _ t2 _ i2 => ?_
    split
    · exact .pure t2 fun r e => nomatch e
    · refine ((inner_withConn (inner_sendAll _ _ w2)).keeps t2).bind fun a w3 _ t3 _ i3 => ?_
      cases a with
      | some e => exact .pure t3 fun r e => nomatch e
      | none =>
        refine ((inner_withConn (inner_consume hc w3)).keeps t3).bind fun x w4 _ t4 _ i4 => ?_
        obtain ⟨v, e⟩ := x
        cases e with
        | some e => exact .pure t4 fun r e => nomatch e
        | none =>
          cases v with
          | success md =>
            have := keeps_newRows t4 (x := { md := md, stmt := s, closed := false, consumed := true, finished := false, idx := 0, closeStmt := false })
              (by rw [(((i1.tr i2).tr i3).tr i4).nstmts]; exact hs) (fun r => (.ok r : Except GoErr Nat))
            exact ⟨this.1, fun a w' e => ⟨(this.2 a w' e).1, fun r hr => by
              obtain ⟨_, h1, h2, _⟩ := this.2 a w' e
              rw [h2] at hr; cases hr; exact h1⟩⟩
          | _ => exact .pure t4 fun r e => nomatch e

theorem inner_nextNeo (r : Nat) (w : World σ) : Inner (nextNeo P close r) w := by
  refine (Inner.get _ w).bind fun row w1 _ => ?_
  split
  · exact Inner.pure _ _
  · refine Inner.bind ?_ fun a w2 _ => ?_
    · split
      · refine Inner.bind (.of (Int.setRow w1 r _ (fun _ h => h) (fun _ => rfl))) fun _ w2 _ => ?_
        refine (inner_withConn (inner_sendPullAll w2)).bind fun a w3 _ => ?_
        cases a with
        | some e => exact Inner.bind (.of (Int.setRow w3 r _ (fun _ h => h) (fun _ => rfl))) fun _ w2 _ => Inner.pure _ _
        | none => exact Inner.pure _ _
      · exact Inner.pure _ _
    · cases a with
      | some e => exact Inner.pure _ _
      | none =>
        refine (inner_withConn (inner_consume hc w2)).bind fun x w3 _ => ?_
        obtain ⟨v, e⟩ := x
        cases e with
        | some e => exact Inner.pure _ _
        | none =>
          cases v with
          | success md => exact Inner.bind (.of (Int.setRow w3 r _ (fun _ h => h) (fun _ => rfl))) fun _ w2 _ => Inner.pure _ _
          | _ => exact Inner.pure _ _

theorem inner_allLoop (r f : Nat) : ∀ (out : List (List Val)) (w : World σ), Inner (allLoop P close r f out) w := by
  induction f with
  | zero => exact fun out w => .of (Int.refl w)
  | succ f ih =>
    intro out w
    refine (inner_nextNeo hc r w).bind fun x w1 _ => ?_
    obtain ⟨row, md, e⟩ := x
    cases row with
    | none =>
      cases e with
      | none => exact Inner.pure _ _
      | some e => simp only; split <;> exact Inner.pure _ _
    | some row =>
      cases e with
      | none => exact ih _ w1
      | some e => simp only; split <;> exact Inner.pure _ _

theorem inner_rowsAll (r : Nat) (w : World σ) : Inner (rowsAll P close r) w := inner_allLoop hc r _ _ w

theorem inner_rowsClose {r : Nat} {w : World σ} (ht : Tidy w) (hr : r < w.rows.length) : Inner (rowsClose P close r) w := by
  refine (Inner.get _ w).bind fun b w0 h0 => ?_
  cases h0
  split
  · exact Inner.pure _ _
  · have i1 := inner_rowsDrain hc (P := P) r w
    refine i1.bind fun a w1 h1 => ?_
    have i1 := i1.int ht.sound h1
    cases a with
    | some e => exact Inner.pure _ _
    | none =>
      have i2 := inner_rowsMark r w1
      refine i2.bind fun _ w2 h2 => ?_
      have i3 := Int.tr i1 (i2.int (i1.sound ht.sound) h2)
      refine (Inner.get _ w2).bind fun b w3 h0 => ?_
      cases h0
      split
      · refine (Inner.get _ w2).bind fun s w3 h0 => ?_
        cases h0
        have t := ht.int i3
        rcases t.one _ (t.row r (by rw [i3.nrows]; exact hr)) with h3 | h3
        · exact inner_stmtClose hc (.inr h3)
        · exact inner_stmtClose hc (.inl (.inl h3))
      · exact Inner.pure _ _

omit hc in
theorem keeps_pipeHeader {w : World σ} (ht : Tidy w) {row : Rows} (hs : row.stmt < w.stmts.length) (v : Val) : Keeps (pipeHeader row v) w := by
  unfold pipeHeader
  split
  · next md =>
    exact (keeps_newRows ht (x := { md := md, stmt := row.stmt, closed := false, consumed := true, finished := false, idx := row.idx + 1, closeStmt := row.closeStmt })
      hs (fun r => PipeRes.mk none (some md) (some r) none)).weaken
  · exact .pure ht trivial

theorem keeps_nextPipeline {r : Nat} {w : World σ} (ht : Tidy w) (hr : r < w.rows.length) : Keeps (nextPipeline P close r) w := by
  refine ((Inner.get _ w).keepsQ ht (Q := fun row w' => w' = w ∧ row = w.row r) fun _ _ h _ => by cases h; exact ⟨rfl, rfl⟩).bind
    fun row w1 _ t1 _ hq => ?_
  obtain ⟨rfl, rfl⟩ := hq
  split
  · exact .pure t1 trivial
  · refine ((inner_withConn (inner_consume hc w1)).keeps t1).bind fun x w2 _ t2 _ i2 => ?_
    obtain ⟨v, e⟩ := x
    cases e with
    | some e => exact .pure t2 trivial
    | none =>
      cases v with
      | success md =>
        refine ((Inner.get _ w2).keeps t2).bind fun n w3 _ t3 _ i3 => ?_
        split
        · have i5 : Inner (M.modify fun w : World σ => w.setRow r fun x => { x with finished := true }) w3 :=
            .of (Int.setRow w3 r _ (fun _ h => h) (fun _ => rfl))
          exact (i5.keeps t3).bind fun _ w4 _ t4 _ _ => .pure t4 trivial
        · refine ((inner_withConn (inner_consume hc w3)).keeps t3).bind fun x w4 _ t4 _ i4 => ?_
          obtain ⟨v, e⟩ := x
          cases e with
          | some e =>
            simp only
            split
            · exact keeps_pipeHeader t4 (by rw [((i2.tr i3).tr i4).nstmts]; exact t1.row r hr) v
            · exact .pure t4 trivial
          | none => exact keeps_pipeHeader t4 (by rw [((i2.tr i3).tr i4).nstmts]; exact t1.row r hr) v
      | record fs => exact .pure t2 trivial
      | _ => exact .pure t2 trivial


/-! ### The connection -/

omit hc in
theorem keeps_prepare {w : World σ} (ht : Tidy w) (q : Str) (qs : List Str) : Keeps (prepare q qs) w := by
  refine keeps_guard (fun e => .pure ht trivial) fun hn hcl => ?_
  exact ⟨later_newStmt w _ _, fun a w' e => by cases e; exact ⟨tidy_newStmt ht hn hcl _ ⟨rfl, rfl⟩, trivial⟩⟩

omit hc in
/-- A new statement, made the current one. -/
theorem keeps_alloc {α : Type} {w : World σ} (ht : Tidy w) (hn : w.statement = none) (hcl : w.closed = false) (q : Str) (qs : List Str) {f : Nat → M σ α} {R : α → World σ → Prop}
    (hf : ∀ w', Tidy w' → w.stmts.length < w'.stmts.length → w'.statement = some w.stmts.length → KeepsP (f w.stmts.length) w' R) :
    KeepsP (newStmt q qs >>= fun s => (M.modify fun w : World σ => { w with statement := some s }) >>= fun _ => f s) w R := by
  have := hf { w with stmts := w.stmts ++ [{ query := q, queries := qs, conn := true, closed := false, rows := none }], statement := some w.stmts.length }
    (tidy_newStmt ht hn hcl _ ⟨rfl, rfl⟩) (by simp) rfl
  exact ⟨(later_newStmt w _ _).tr this.1, this.2⟩

theorem inner_stmtCloseCurrent (w : World σ) : Inner (queryNeo.stmtCloseCurrent P close) w := by
  intro hs
  unfold queryNeo.stmtCloseCurrent
  show Int w (Out.world ((match w.statement with | some s => stmtClose P close s | none => M.panic .nilDeref : M σ (Option GoErr)) w))
  cases h : w.statement with
  | none => exact Int.refl w
  | some s => exact inner_stmtClose hc (.inl (.inl h)) hs

theorem keeps_queryNeo {w : World σ} (ht : Tidy w) (q : Str) (kvs : KVs) :
    KeepsP (queryNeo P close q kvs) w fun x w' => ∀ r, x = .ok r → r < w'.rows.length := by
  refine keeps_guard (fun e => .pure ht fun r e => nomatch e) fun hn hcl => keeps_alloc ht hn hcl q [] fun w1 t1 hl hs => ?_
  refine ((inner_sendRunPullAllConsumeRun hc q kvs w1).keeps t1).bind fun x w2 _ t2 _ i2 => ?_
  obtain ⟨v, e⟩ := x
  cases e with
  | some e => exact ((inner_stmtCloseCurrent hc w2).keeps t2).bind fun _ w3 _ t3 _ _ => .pure t3 fun r e => nomatch e
  | none =>
    cases v with
    | success md =>
      have := keeps_newRows t2 (x := { md := md, stmt := w.stmts.length, closed := false, consumed := true, finished := false, idx := 0, closeStmt := true })
        (by rw [i2.nstmts]; exact hl) (fun r => (.ok r : Except GoErr Nat))
      exact ⟨this.1, fun a w' e => ⟨(this.2 a w' e).1, fun r hr => by
        obtain ⟨_, h1, h2, _⟩ := this.2 a w' e
        rw [h2] at hr; cases hr; exact h1⟩⟩
    | _ => exact ((inner_stmtCloseCurrent hc w2).keeps t2).bind fun _ w3 _ t3 _ _ => .pure t3 fun r e => nomatch e

theorem keeps_queryNeoAll {w : World σ} (ht : Tidy w) (q : Str) (kvs : KVs) : Keeps (queryNeoAll P close q kvs) w := by
  refine (keeps_queryNeo hc ht q kvs).bind fun x w1 _ t1 _ hr => ?_
  cases x with
  | error e => exact .pure t1 trivial
  | ok r =>
    refine ((inner_rowsAll hc r w1).keeps t1).bind fun x w2 _ t2 _ i2 => ((Inner.get _ w2).keeps t2).bind fun hdr w3 _ t3 _ i3 => ?_
    refine ((inner_rowsClose hc t3 (by rw [(i2.tr i3).nrows]; exact hr r rfl)).keeps t3).bind fun x w4 _ t4 _ i4 => .pure t4 trivial

theorem keeps_queryPipeline {w : World σ} (ht : Tidy w) (qs : List Str) (l : List KVs) : Keeps (queryPipeline P close qs l) w := by
  refine keeps_guard (fun e => .pure ht trivial) fun hn hcl => keeps_alloc ht hn hcl [] qs fun w1 t1 hl hs => ?_
  refine (keeps_stmtQueryPipeline hc t1 hl l).bind fun x w2 _ t2 _ _ => ?_
  cases x with
  | error e => exact .pure t2 trivial
  | ok r =>
    have i5 : Inner (M.modify fun w : World σ => w.setRow r fun x => { x with closeStmt := true }) w2 :=
      .of (Int.setRow w2 r _ (fun _ h => h) (fun _ => rfl))
    exact (i5.keeps t2).bind fun _ w3 _ t3 _ _ => .pure t3 trivial

/-- `ExecNeo` and `ExecPipeline`: the new statement is not the current one, but it is closed at the end. -/
theorem keeps_temp {α : Type} {w : World σ} (ht : Tidy w) (hn : w.statement = none) (q : Str) (qs : List Str) {f : Nat → M σ α}
    (hf : ∀ w', Inner (f w.stmts.length) w') :
    Keeps (newStmt q qs >>= fun s => f s >>= fun res => stmtClose P close s >>= fun _ => M.pure res) w := by
  have l1 := later_newStmt w { query := q, queries := qs, conn := true, closed := false, rows := none } w.statement
  have hstmt := stmt_append_if w { query := q, queries := qs, conn := true, closed := false, rows := none } w.statement w.stmts.length
  rw [if_pos rfl] at hstmt
  unfold Keeps KeepsP
  rw [mbind_ok (show newStmt q qs w = .ok w.stmts.length
    { w with stmts := w.stmts ++ [{ query := q, queries := qs, conn := true, closed := false, rows := none }], statement := w.statement } from rfl)]
  revert l1 hstmt
  generalize hw1 : World.mk _ _ _ _ _ _ _ _ _ _ _ _ _ = w1
  intro l1 hstmt
  have hst : w1.statement = none := by rw [← hw1]; exact hn
  have s1 : Sound w1 := by
    rw [← hw1]
    exact ⟨ht.sound.good, fun i hi => (by change w.statement = some i at hi; rw [hn] at hi; cases hi), ht.sound.fin⟩
  have i2 := hf w1 s1
  rw [mbind_run]
  cases hx : f w.stmts.length w1 with
  | panic p w2 => rw [hx] at i2; exact ⟨l1.tr (Int.later i2), fun _ _ e => nomatch e⟩
  | deep w2 => rw [hx] at i2; exact ⟨l1.tr (Int.later i2), fun _ _ e => nomatch e⟩
  | ok a w2 =>
    rw [hx] at i2
    have i2 : Int w1 w2 := i2
    have hst2 : w2.statement = none := by rcases i2.st with h | h; exact h.trans hst; exact h
    have i3 : Inner (stmtClose P close w.stmts.length) w2 := inner_stmtClose hc (.inl (.inr hst2))
    have i4 : Int w2 ((stmtClose P close w.stmts.length >>= fun _ => M.pure a) w2).world := (i3.bind fun _ _ _ => Inner.pure _ _) (i2.sound s1)
    refine ⟨(l1.tr i2.later).tr i4.later, fun b w4 e => ⟨?_, trivial⟩⟩
    have i4' : Int w2 w4 := by have h := i4; rw [show (stmtClose P close w.stmts.length >>= fun _ => M.pure a) w2 = _ from e] at h; exact h
    have i5 := i2.tr i4'
    have hlen : w1.stmts.length = w.stmts.length + 1 := by rw [← hw1]; simp
    have hold : ∀ i, i < w.stmts.length → w1.stmt i = w.stmt i := fun i hi => by
      rw [← hw1, stmt_append_if, if_neg (Nat.ne_of_lt hi)]
    have hnew : (w4.stmt w.stmts.length).closed = true := by
      have hrows : (w2.stmt w.stmts.length).rows = none := i2.srows _ (by rw [hstmt])
      change (stmtClose P close w.stmts.length >>= fun _ => M.pure a) w2 = .ok b w4 at e
      rw [mbind_run, stmtClose_def] at e
      by_cases hcl : (w2.stmt w.stmts.length).closed = true
      · rw [if_pos hcl] at e
        cases e; exact hcl
      · rw [if_neg hcl] at e
        have hq : stmtCloseRows P close w.stmts.length w2 = .ok none w2 := by
          unfold stmtCloseRows
          show (match (w2.stmt w.stmts.length).rows with
            | none => M.pure none
            | some r => _ : M σ (Option GoErr)) w2 = _
          rw [hrows]; rfl
        rw [mbind_ok hq] at e
        unfold stmtMark at e
        simp only [mbind_run] at e
        by_cases hconn : (w2.stmt w.stmts.length).conn = true
        · rw [if_pos hconn] at e
          cases e
          rw [stmt_modify, if_pos ⟨rfl, by show w.stmts.length < w2.stmts.length; rw [i2.nstmts, hlen]; omega⟩]
        · rw [if_neg hconn] at e
          cases e
    exact
      { cur := fun i hi => by
          rcases i5.st with h | h
          · rw [h, hst] at hi; cases hi
          · rw [h] at hi; cases hi
        one := fun i hi => by
          rw [i5.nstmts, hlen] at hi
          by_cases hl : i = w.stmts.length
          · rw [hl]; exact .inl hnew
          · have hl' : i < w.stmts.length := by omega
            rcases ht.one i hl' with h | h
            · exact .inl (i5.stmts i (by rw [hold i hl']; exact h))
            · rw [hn] at h; cases h
        row := fun r hr => by
          rw [i5.nrows, ← hw1] at hr
          rw [i5.nstmts, i5.rows, hlen, ← hw1]
          exact Nat.lt_succ_of_lt (ht.row r hr)
        sound := i5.sound s1 }

theorem keeps_execNeo {w : World σ} (ht : Tidy w) (q : Str) (kvs : KVs) : Keeps (execNeo P close q kvs) w :=
  keeps_guard (fun e => .pure ht trivial) fun hn _ => keeps_temp hc ht hn q [] fun w' => inner_stmtExecNeo hc _ kvs w'

theorem keeps_execPipeline {w : World σ} (ht : Tidy w) (qs : List Str) (l : List KVs) : Keeps (execPipeline P close qs l) w :=
  keeps_guard (fun e => .pure ht trivial) fun hn _ => keeps_temp hc ht hn [] qs fun w' => inner_stmtExecPipeline hc _ l w'

theorem keeps_begin {w : World σ} (ht : Tidy w) : Keeps (begin_ P close) w := by
  unfold begin_
  refine ((Inner.get _ w).keeps ht).bind fun a w1 _ t1 _ _ => ?_
  split
  · exact .pure t1 trivial
  · refine ((Inner.get _ w1).keeps t1).bind fun a w2 _ t2 _ _ => ?_
    split
    · exact .pure t2 trivial
    · refine ((Inner.get _ w2).keeps t2).bind fun a w3 _ t3 _ _ => ?_
      split
      · exact .pure t3 trivial
      · refine ((inner_sendRunPullAllConsumeSingle hc qBegin [] w3).keeps t3).bind fun x w4 _ t4 _ i4 => ?_
        obtain ⟨run, pull, e⟩ := x
        cases e with
        | some e => exact .pure t4 trivial
        | none =>
          simp only
          split
          · exact .pure t4 trivial
          · split
            · exact .pure t4 trivial
            · refine ⟨{ nstmts := Nat.le_refl _, stmts := fun _ h => h, nrows := Nat.le_refl _, rowc := fun _ h => h, rows := fun _ _ => rfl, ntxs := (by simp [Out.world]), txs := fun t h => ?_, trans := fun h => h, closed := fun h => h, shut := fun h => ⟨h, rfl⟩ }, fun a w' e => ?_⟩
              · unfold World.txClosed at *
                show (w4.txs ++ [false])[t]?.getD false = true
                by_cases hl : t < w4.txs.length
                · rw [List.getElem?_append_left hl]; exact h
                · rw [List.getElem?_eq_none (Nat.le_of_not_lt hl)] at h; cases h
              · cases e; exact ⟨⟨t4.cur, t4.one, t4.row, ⟨t4.sound.good, t4.sound.alive, t4.sound.fin⟩⟩, trivial⟩

/-- Every API call. -/
theorem keeps_op {w : World σ} (ht : Tidy w) {op : Op} (ho : op.Exists w) : Keeps (op.run P close) w := by
  cases op with
  | exec q kvs => exact (keeps_execNeo hc ht q kvs).bind fun _ _ _ t _ _ => .pure t trivial
  | query q kvs => exact (keeps_queryNeo hc ht q kvs).bind fun _ _ _ t _ _ => .pure t trivial
  | queryAll q kvs =>
    refine (keeps_queryNeoAll hc ht q kvs).bind fun x _ _ t _ _ => ?_
    cases x <;> exact .pure t trivial
  | execPipe qs l => exact (keeps_execPipeline hc ht qs l).bind fun _ _ _ t _ _ => .pure t trivial
  | queryPipe qs l => exact (keeps_queryPipeline hc ht qs l).bind fun _ _ _ t _ _ => .pure t trivial
  | prepare q => exact (keeps_prepare ht q []).bind fun _ _ _ t _ _ => .pure t trivial
  | preparePipe qs => exact (keeps_prepare ht [] qs).bind fun _ _ _ t _ _ => .pure t trivial
  | begin => exact (keeps_begin hc ht).bind fun _ _ _ t _ _ => .pure t trivial
  | stExec s kvs => exact ((inner_stmtExecNeo hc s kvs w).keeps ht).bind fun _ _ _ t _ _ => .pure t trivial
  | stQuery s kvs => exact (keeps_stmtQueryNeo hc ht ho kvs).bind fun _ _ _ t _ _ => .pure t trivial
  | stExecPipe s l => exact ((inner_stmtExecPipeline hc s l w).keeps ht).bind fun _ _ _ t _ _ => .pure t trivial
  | stQueryPipe s l => exact (keeps_stmtQueryPipeline hc ht ho l).bind fun _ _ _ t _ _ => .pure t trivial
  | next r => exact ((inner_nextNeo hc r w).keeps ht).bind fun _ _ _ t _ _ => .pure t trivial
  | all r => exact ((inner_rowsAll hc r w).keeps ht).bind fun _ _ _ t _ _ => .pure t trivial
  | nextPipe r => exact (keeps_nextPipeline hc ht ho).bind fun _ _ _ t _ _ => .pure t trivial
  | closeRows r => exact ((inner_rowsClose hc ht ho).keeps ht).weaken
  | closeStmt s =>
    refine ((inner_stmtClose hc ?_).keeps ht).weaken
    exact (ht.one s ho).symm.imp (fun h => .inl h) id
  | commit t => exact ((inner_txFinish hc qCommit t w).keeps ht).weaken
  | rollback t => exact ((inner_txFinish hc qRollback t w).keeps ht).weaken
  | close => exact ((inner_connClose hc w).keeps ht).weaken
  | setChunkSize n =>
    have i5 : Inner (setChunkSize n) w := .of (Int.socket rfl rfl rfl rfl rfl rfl fun h => ⟨rfl, h.2.2, rfl⟩)
    exact (i5.keeps ht).bind fun _ _ _ t _ _ => .pure t trivial

omit hc in
theorem Reach.keeps {n : Nat} {w w' : World σ} (h : Reach P n w w') (ht : Tidy w) : Tidy w' ∧ Later w w' := by
  induction h with
  | refl => exact ⟨ht, Later.refl _⟩
  | step _ ho hr ih =>
    obtain ⟨t1, l1⟩ := ih
    have k := keeps_op (P := P) (close := closeN P n) (inner_closeN n) t1 ho
    have l2 := k.1
    rw [hr] at l2
    exact ⟨(k.2 _ _ hr).1, l1.tr l2⟩

omit hc in
theorem NewConn.tidy {w : World σ} (h : NewConn w) : Tidy w where
  cur i hi := by rw [h.statement] at hi; cases hi
  one i hi := by rw [h.stmts] at hi; cases hi
  row r hr := by rw [h.rows] at hr; cases hr
  sound := ⟨fun hcl => (by rw [h.closed] at hcl; cases hcl), fun i hi => (by rw [h.statement] at hi; cases hi), fun _ => h.statement⟩

end Bolt
