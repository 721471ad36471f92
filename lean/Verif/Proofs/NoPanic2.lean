import Verif.Proofs.NoPanic
import Verif.Proofs.Quiet2

/-! # When calls panic: closing, and the API calls -/

namespace Bolt

variable {σ : Type}

/-- The panic of a call on such rows, started in `w`. -/
def OnDetached (w : World σ) (r : Nat) : Panic → World σ → Prop := fun p w' =>
  p = .nilDeref ∧ w'.closed = w.closed ∧ Detached w r

/-- The panic of a call whose failure handling closed the connection. -/
def Abandoned : Panic → World σ → Prop := fun p w' => p = .nilDeref ∧ w'.closed = true

theorem Pan.run {α : Type} {x : M σ α} {w : World σ} {C : Panic → World σ → Prop} {Q : α → World σ → Prop}
    (h : Pan x w C Q) : Pan x w C fun a w' => Q a w' ∧ x w = .ok a w' := by
  unfold Pan at h ⊢
  split <;> simp_all

theorem pan_withConn {α : Type} {s : Nat} {k : M σ α} {w : World σ} {C : Panic → World σ → Prop} {Q : α → World σ → Prop}
    (h : (w.stmt s).conn = true) (hk : Pan k w C Q) : Pan (withConn s k) w C Q := by
  unfold Pan withConn; rw [if_pos h]; exact hk

theorem pan_noConn {α : Type} {s : Nat} {k : M σ α} {w : World σ} {C : Panic → World σ → Prop} {Q : α → World σ → Prop}
    (h : (w.stmt s).conn = false) (hk : C .nilDeref w) : Pan (withConn s k) w C Q := by
  unfold Pan withConn; rw [if_neg (by rw [h]; decide)]; exact hk

theorem numConsume_nonneg {n idx : Nat} (h : n = 0 ∨ idx < n) : ¬ numConsume n idx < 0 := by
  unfold numConsume
  split <;> omega

theorem Pan.congr {α : Type} {x y : M σ α} {w : World σ} {C : Panic → World σ → Prop} {Q : α → World σ → Prop}
    (h : x w = y w) (hy : Pan y w C Q) : Pan x w C Q := by
  unfold Pan at hy ⊢; rw [h]; exact hy

/-! ## Changes to single objects -/

theorem setRow_len (w : World σ) (r : Nat) (f : Rows → Rows) : (w.setRow r f).rows.length = w.rows.length := by
  simp [World.setRow]

theorem setStmt_len (w : World σ) (r : Nat) (f : Stmt → Stmt) : (w.setStmt r f).stmts.length = w.stmts.length := by
  simp [World.setStmt]

theorem setRow_keeps {γ : Type} (g : Rows → γ) (w : World σ) (r : Nat) (f : Rows → Rows) (hf : ∀ x, g (f x) = g x) (i : Nat) :
    g ((w.setRow r f).row i) = g (w.row i) := by
  rw [row_modify]; split
  · exact hf _
  · rfl

theorem setStmt_keeps {γ : Type} (g : Stmt → γ) (w : World σ) (r : Nat) (f : Stmt → Stmt) (hf : ∀ x, g (f x) = g x) (i : Nat) :
    g ((w.setStmt r f).stmt i) = g (w.stmt i) := by
  rw [stmt_modify]; split
  · exact hf _
  · rfl

theorem keep_setRow {w : World σ} (hw : Whole w) (r : Nat) (f : Rows → Rows) (hs : ∀ x, (f x).stmt = x.stmt)
    (hi : ∀ x, (f x).idx = x.idx) : Keep w (w.setRow r f) := by
  have es : ∀ i, ((w.setRow r f).row i).stmt = (w.row i).stmt := setRow_keeps Rows.stmt w r f hs
  have ei : ∀ i, ((w.setRow r f).row i).idx = (w.row i).idx := setRow_keeps Rows.idx w r f hi
  exact {
    whole := {
      tame := hw.tame
      conn := hw.conn
      cur := hw.cur
      srow := fun i r' h1 h2 => by rw [setRow_len, es]; exact hw.srow i r' h1 h2
      rstmt := fun r' h1 => by rw [setRow_len] at h1; rw [es]; exact hw.rstmt r' h1
      ridx := fun r' h1 => by rw [setRow_len] at h1; rw [es, ei]; exact hw.ridx r' h1
      tx := hw.tx }
    nst := Nat.le_refl _
    nrows := by rw [setRow_len]; exact Nat.le_refl _
    rst := fun i _ => es i
    cl := fun h => h
    st := .inl rfl
    cn := fun _ _ h => .inl h }

theorem keep_setStmt {w : World σ} (hw : Whole w) (s : Nat) (f : Stmt → Stmt) (hcl : ∀ x, (f x).closed = x.closed)
    (hcn : ∀ x, (f x).conn = x.conn) (hq : ∀ x, (f x).queries = x.queries)
    (hr : ∀ r, s < w.stmts.length → (f (w.stmt s)).rows = some r → r < w.rows.length ∧ (w.row r).stmt = s) :
    Keep w (w.setStmt s f) := by
  have el : ∀ i, ((w.setStmt s f).stmt i).closed = (w.stmt i).closed := setStmt_keeps Stmt.closed w s f hcl
  have en : ∀ i, ((w.setStmt s f).stmt i).conn = (w.stmt i).conn := setStmt_keeps Stmt.conn w s f hcn
  have eq : ∀ i, ((w.setStmt s f).stmt i).queries = (w.stmt i).queries := setStmt_keeps Stmt.queries w s f hq
  exact {
    whole := {
      tame := hw.tame
      conn := fun i h1 h2 => by rw [setStmt_len] at h1; rw [el] at h2; rw [en]; exact hw.conn i h1 h2
      cur := fun i h1 => by rw [setStmt_len, el]; exact hw.cur i h1
      srow := fun i r' h1 h2 => by
        rw [setStmt_len] at h1
        rw [stmt_modify] at h2
        split at h2
        · rename_i h3; rw [← h3.1] at h2 h1 ⊢; exact hr r' h1 h2
        · exact hw.srow i r' h1 h2
      rstmt := fun r' h1 => by rw [setStmt_len]; exact hw.rstmt r' h1
      ridx := fun r' h1 => by
        show ((w.setStmt s f).stmt (w.row r').stmt).queries.length = 0 ∨ (w.row r').idx < ((w.setStmt s f).stmt (w.row r').stmt).queries.length
        rw [eq]; exact hw.ridx r' h1
      tx := hw.tx }
    nst := by rw [setStmt_len]; exact Nat.le_refl _
    nrows := Nat.le_refl _
    rst := fun _ _ => rfl
    cl := fun h => h
    st := .inl rfl
    cn := fun i _ h => .inl (by rw [en]; exact h) }

theorem keep_rowsMark {w : World σ} (hw : Whole w) (r : Nat) :
    Keep w ((w.setRow r fun x => { x with closed := true }).setStmt (w.row r).stmt fun s => { s with rows := none }) :=
  have h := keep_setRow hw r (fun x => { x with closed := true }) (fun _ => rfl) (fun _ => rfl)
  h.tr (keep_setStmt h.whole _ _ (fun _ => rfl) (fun _ => rfl) (fun _ => rfl) (fun _ _ h => nomatch h))

theorem rowsMark_conn (w : World σ) (r i : Nat) :
    (((w.setRow r fun x => { x with closed := true }).setStmt (w.row r).stmt fun s => { s with rows := none }).stmt i).conn =
      (w.stmt i).conn := setStmt_keeps Stmt.conn _ _ _ (by intro x; rfl) i

theorem add_stmtMark {w : World σ} (hw : Whole w) (s : Nat) :
    Add w ({ w with statement := none }.setStmt s fun x => { x with closed := true, conn := false }) where
  whole := {
    tame := hw.tame
    conn := fun i h1 h2 => by
      rw [setStmt_len] at h1
      rw [stmt_modify] at h2 ⊢
      split at h2
      · cases h2
      · rename_i h3; rw [if_neg h3]; exact hw.conn i h1 h2
    cur := fun i h => nomatch h
    srow := fun i r' h1 h2 => by
      rw [setStmt_len] at h1
      rw [setStmt_keeps Stmt.rows _ _ (fun x => { x with closed := true, conn := false }) (fun _ => rfl) i] at h2
      exact hw.srow i r' h1 h2
    rstmt := fun r' h1 => by rw [setStmt_len]; exact hw.rstmt r' h1
    ridx := fun r' h1 => by
      rw [setStmt_keeps Stmt.queries _ _ (fun x => { x with closed := true, conn := false }) (fun _ => rfl) _]
      exact hw.ridx r' h1
    tx := hw.tx }
  nst := by rw [setStmt_len]; exact Nat.le_refl _
  nrows := Nat.le_refl _
  rst := fun _ _ => rfl
  cl := fun h => h

theorem stmt_append_add (w : World σ) (x : Stmt) (i : Nat) (hi : i < w.stmts.length) :
    ({ w with stmts := w.stmts ++ [x] } : World σ).stmt i = w.stmt i := by
  unfold World.stmt; simp only [List.getElem?_append_left hi]

theorem stmt_append_new (w : World σ) (x : Stmt) :
    ({ w with stmts := w.stmts ++ [x] } : World σ).stmt w.stmts.length = x := by
  unfold World.stmt; simp

theorem row_append_add (w : World σ) (x : Rows) (i : Nat) (hi : i < w.rows.length) :
    ({ w with rows := w.rows ++ [x] } : World σ).row i = w.row i := by
  unfold World.row; simp only [List.getElem?_append_left hi]

theorem row_append_new (w : World σ) (x : Rows) :
    ({ w with rows := w.rows ++ [x] } : World σ).row w.rows.length = x := by
  unfold World.row; simp

/-- `newStmt`. -/
theorem keep_newStmt {w : World σ} (hw : Whole w) (x : Stmt) (hx : x.conn = true) (hr : x.rows = none) :
    Keep w { w with stmts := w.stmts ++ [x] } where
  whole := {
    tame := hw.tame
    conn := fun i h1 h2 => by
      by_cases h : i < w.stmts.length
      · rw [stmt_append_add _ _ _ h] at h2 ⊢; exact hw.conn i h h2
      · have : i = w.stmts.length := by simp at h1; omega
        rw [this, stmt_append_new]; exact hx
    cur := fun i h => by
      have := hw.cur i h
      rw [stmt_append_add _ _ _ this.1]
      exact ⟨by simp only [List.length_append]; omega, this.2⟩
    srow := fun i r' h1 h2 => by
      by_cases h : i < w.stmts.length
      · rw [stmt_append_add _ _ _ h] at h2; exact hw.srow i r' h h2
      · have : i = w.stmts.length := by simp at h1; omega
        rw [this, stmt_append_new, hr] at h2; cases h2
    rstmt := fun r' h1 => by
      have := hw.rstmt r' h1
      show (w.row r').stmt < (w.stmts ++ [x]).length
      simp only [List.length_append]; omega
    ridx := fun r' h1 => by
      rw [show ({ w with stmts := w.stmts ++ [x] } : World σ).row r' = w.row r' from rfl, stmt_append_add _ _ _ (hw.rstmt r' h1)]
      exact hw.ridx r' h1
    tx := hw.tx }
  nst := by simp
  nrows := Nat.le_refl _
  rst := fun _ _ => rfl
  cl := fun h => h
  st := .inl rfl
  cn := fun i hi h => .inl (by rw [stmt_append_add _ _ _ hi]; exact h)

/-- `&boltRows{...}`, before the statement refers to it. -/
theorem keep_newRows {w : World σ} (hw : Whole w) (x : Rows) (hs : x.stmt < w.stmts.length)
    (hi : (w.stmt x.stmt).queries.length = 0 ∨ x.idx < (w.stmt x.stmt).queries.length) :
    Keep w { w with rows := w.rows ++ [x] } where
  whole := {
    tame := hw.tame
    conn := hw.conn
    cur := hw.cur
    srow := fun i r' h1 h2 => by
      have := hw.srow i r' h1 h2
      rw [row_append_add _ _ _ this.1]
      exact ⟨by simp only [List.length_append]; omega, this.2⟩
    rstmt := fun r' h1 => by
      by_cases h : r' < w.rows.length
      · rw [row_append_add _ _ _ h]; exact hw.rstmt r' h
      · have : r' = w.rows.length := by simp at h1; omega
        rw [this, row_append_new]; exact hs
    ridx := fun r' h1 => by
      by_cases h : r' < w.rows.length
      · rw [row_append_add _ _ _ h]; exact hw.ridx r' h
      · have : r' = w.rows.length := by simp at h1; omega
        rw [this, row_append_new]; exact hi
    tx := hw.tx }
  nst := Nat.le_refl _
  nrows := by simp
  rst := fun i hi => by rw [row_append_add _ _ _ hi]
  cl := fun h => h
  st := .inl rfl
  cn := fun _ _ h => .inl h

/-- The new rows object and the statement that refers to it. -/
theorem pan_openRows {w : World σ} (hw : Whole w) (x : Rows) (hs : x.stmt < w.stmts.length)
    (hi : (w.stmt x.stmt).queries.length = 0 ∨ x.idx < (w.stmt x.stmt).queries.length) {β : Type} (g : Nat → β) :
    Pan (do
      let r ← newRowsObj x
      M.modify fun w => w.setStmt x.stmt fun s => { s with rows := some r }
      M.pure (g r) : M σ β) w Never (fun a w' => Keep w w' ∧ a = g w.rows.length ∧ w.rows.length < w'.rows.length ∧
        (w'.row w.rows.length).stmt = x.stmt ∧ (∀ i, (w'.stmt i).conn = (w.stmt i).conn)) := by
  have h1 := keep_newRows hw x hs hi
  have h2 : Keep { w with rows := w.rows ++ [x] }
      (World.setStmt { w with rows := w.rows ++ [x] } x.stmt fun s => { s with rows := some w.rows.length }) := by
    refine keep_setStmt h1.whole _ _ (fun _ => rfl) (fun _ => rfl) (fun _ => rfl) ?_
    intro r _ hr
    have : w.rows.length = r := by injection hr
    rw [← this, row_append_new]
    exact ⟨by simp, rfl⟩
  refine ⟨h1.tr h2, rfl, ?_, ?_, fun i => ?_⟩
  · show w.rows.length < (w.rows ++ [x]).length
    simp
  · show (World.row { w with rows := w.rows ++ [x] } w.rows.length).stmt = x.stmt
    rw [row_append_new]
  · exact setStmt_keeps Stmt.conn { w with rows := w.rows ++ [x] } x.stmt (fun s => { s with rows := some w.rows.length }) (fun _ => rfl) i

/-! ## Closing -/

section
variable {P : Peer σ} (hP : P.Tame) {close : M σ (Option GoErr)} (hc : ∀ w, Whole w → Pan close w Never (fun _ => Keep w))
include hP hc

theorem pan_drain {w : World σ} (hw : Whole w) {r : Nat} (hr : r < w.rows.length)
    (hn : (w.stmt (w.row r).stmt).conn = true) : Pan (rowsDrain P close r) w Never (After id w) := by
  by_cases h1 : (!(w.row r).consumed) = true
  · have : Pan (do
        match ← withConn (w.row r).stmt (sendDiscardAllConsume P close) with
        | (_, some e) => M.pure (some (.wrap "An error occurred discarding messages on row close" (some e)))
        | (.success _, none) => M.pure none
        | (_, none) => M.pure (some (.new "Unrecognized response type discarding all rows: Value: %#v"))) w Never (After id w) := by
      refine (pan_withConn hn (pan_discardConsume hP hc hw)).bind fun a w1 h1 => ?_
      obtain ⟨v, e⟩ := a
      cases e with
      | some e => exact .pure (.err h1.1 nofun)
      | none => cases v <;> exact .pure (.of (h1.2 rfl))
    exact this.congr (by unfold rowsDrain; dsimp only; rw [if_pos h1]; rfl)
  · by_cases h2 : (!(w.row r).finished) = true
    · have : Pan (do
          let n := numConsume (w.stmt (w.row r).stmt).queries.length (w.row r).idx
          if n < 0 then withConn (w.row r).stmt (M.panic .negMake)
          else
            match ← withConn (w.row r).stmt (consumeAllMultiple P close n.toNat) with
            | some e => M.pure (some (.wrap "An error occurred clearing out unconsumed stream" (some e)))
            | none => M.pure none) w Never (After id w) := by
        dsimp only
        rw [if_neg (numConsume_nonneg (hw.ridx r hr))]
        refine (pan_withConn hn (pan_multiple hP hc _ hw)).bind fun a w1 h1 => ?_
        cases a with
        | some e => exact .pure (.err h1.1 nofun)
        | none => exact .pure (.of (h1.2 rfl))
      exact this.congr (by unfold rowsDrain; dsimp only; rw [if_neg h1, if_pos h2]; rfl)
    · exact Pan.congr (y := M.pure none) (by unfold rowsDrain; dsimp only; rw [if_neg h1, if_neg h2]; rfl) (.pure (.of ⟨hw, .refl w⟩))

/-- After closing rows: success leaves the connections of the statements. -/
def AfterRows (w : World σ) (a : Option GoErr) (w' : World σ) : Prop :=
  Keep w w' ∧ (a = none → ∀ i, (w'.stmt i).conn = (w.stmt i).conn)

theorem pan_rowsClose0 {w : World σ} (hw : Whole w) {r : Nat} (hr : r < w.rows.length)
    (hn : (w.stmt (w.row r).stmt).conn = true) : Pan (rowsClose0 P close r) w Never (AfterRows w) := by
  unfold rowsClose0
  refine .get ?_
  by_cases h : (w.row r).closed = true
  · rw [if_pos h]; exact .pure ⟨.refl hw, fun _ _ => rfl⟩
  · rw [if_neg h]
    refine (pan_drain hP hc hw hr hn).bind fun a w1 h1 => ?_
    cases a with
    | some e => exact .pure ⟨h1.1, nofun⟩
    | none =>
      refine .modify (.pure ⟨h1.1.tr (keep_rowsMark h1.1.whole r), fun _ i => ?_⟩)
      rw [rowsMark_conn, (h1.2 rfl).same.stmt]

/-- After closing a statement: a failure keeps. -/
def AfterClose (w : World σ) (a : Option GoErr) (w' : World σ) : Prop := Add w w' ∧ (a ≠ none → Keep w w')

omit hP hc in
theorem AfterClose.keep {w w' : World σ} {a : Option GoErr} (h : Keep w w') : AfterClose w a w' := ⟨h.toAdd, fun _ => h⟩

theorem pan_stmtMark {w : World σ} (hw : Whole w) {s : Nat} (hn : (w.stmt s).conn = true) :
    Pan (stmtMark s) w Never (fun _ => Add w) := by
  unfold Pan stmtMark; rw [if_pos hn]; exact add_stmtMark hw s

theorem pan_stmtClose {w : World σ} (hw : Whole w) {s : Nat} (hs : s < w.stmts.length) :
    Pan (stmtClose P close s) w Never (AfterClose w) := by
  unfold stmtClose
  refine .get ?_
  by_cases h : (w.stmt s).closed = true
  · rw [if_pos h]; exact .pure (.keep (.refl hw))
  · rw [if_neg h]
    have hn := hw.conn s hs (Bool.eq_false_iff.2 h)
    have hb : Pan (do
        match ← M.get fun w => (w.stmt s).rows with
        | none => M.pure none
        | some r =>
          if ← M.get fun w => (w.row r).closeStmt then M.pure none
          else rowsClose0 P close r : M σ (Option GoErr)) w Never (AfterRows w) := by
      refine .get ?_
      cases hr : (w.stmt s).rows with
      | none => exact .pure ⟨.refl hw, fun _ _ => rfl⟩
      | some r =>
        have h2 := hw.srow s r hs hr
        refine .get ?_
        by_cases h : (w.row r).closeStmt = true
        · rw [if_pos h]; exact .pure ⟨.refl hw, fun _ _ => rfl⟩
        · rw [if_neg h]; exact pan_rowsClose0 hP hc hw h2.1 (by rw [h2.2]; exact hn)
    refine hb.bind fun a w1 h1 => ?_
    cases a with
    | some e => exact .pure (.keep h1.1)
    | none =>
      refine (pan_stmtMark hP hc h1.1.whole (s := s) (by rw [h1.2 rfl]; exact hn)).bind fun _ w2 h2 => ?_
      exact .pure ⟨h1.1.toAdd.tr h2, fun h => (h rfl).elim⟩

/-- Closing the current statement, if there is one. -/
theorem pan_current {w : World σ} (hw : Whole w) : Pan (do
      match ← M.get fun w => w.statement with
      | none => M.pure none
      | some s => stmtClose P close s : M σ (Option GoErr)) w Never (AfterClose w) := by
  refine .get ?_
  cases h : w.statement with
  | none => exact .pure (.keep (.refl hw))
  | some s => exact pan_stmtClose hP hc hw (hw.cur s h).1

theorem pan_connClose {w : World σ} (hw : Whole w) : Pan (connClose P close) w Never (fun _ => Keep w) := by
  unfold connClose
  refine .get ?_
  by_cases h : w.closed = true
  · rw [if_pos h]; exact .pure (.refl hw)
  · rw [if_neg h]
    refine (pan_current hP hc hw).bind fun a w1 h1 => ?_
    cases a with
    | some e => exact .pure (h1.2 nofun)
    | none =>
      refine Pan.bind (R := fun a w' => a = none ∧ w' = w1) ?_ ?_
      · refine .get ?_
        rw [h1.1.whole.tx]
        exact .pure ⟨rfl, rfl⟩
      · rintro a w2 ⟨rfl, rfl⟩
        refine .modify (.get ?_)
        have hk : Keep w { w2 with
            closed := true
            connErr := w2.connErr || w2.sockCloseErr
            sink := { w2.sink with budget := some 0 }
            inbox := [] } :=
          { whole := { h1.1.whole with tame := nofun }
            nst := h1.1.nst
            nrows := h1.1.nrows
            rst := h1.1.rst
            cl := fun _ => rfl
            st := .inr rfl
            cn := fun _ _ _ => .inr rfl }
        split <;> exact .pure hk

end

theorem pan_closeN {P : Peer σ} (hP : P.Tame) (n : Nat) (w : World σ) (hw : Whole w) : Pan (closeN P n) w Never (fun _ => Keep w) := by
  induction n generalizing w with
  | zero => trivial
  | succ n ih => exact pan_connClose hP ih hw

section
variable {P : Peer σ} (hP : P.Tame) {close : M σ (Option GoErr)} (hc : ∀ w, Whole w → Pan close w Never (fun _ => Keep w))
include hP hc

theorem pan_rowsClose {w : World σ} (hw : Whole w) {r : Nat} (hr : r < w.rows.length) :
    Pan (rowsClose P close r) w (OnDetached w r) (fun _ => Add w) := by
  unfold rowsClose
  refine .get ?_
  by_cases h : (w.row r).closed = true
  · rw [if_pos h]; exact .pure (Keep.refl hw).toAdd
  · rw [if_neg h]
    refine Pan.bind (R := After id w) ?_ ?_
    · by_cases hn : (w.stmt (w.row r).stmt).conn = true
      · exact (pan_drain hP hc hw hr hn).never fun _ _ h => h
      · have hn := Bool.eq_false_iff.2 hn
        have hD : OnDetached w r .nilDeref w := ⟨rfl, rfl, Bool.eq_false_iff.2 h, hn⟩
        by_cases h1 : (!(w.row r).consumed) = true
        · have : Pan (do
              match ← withConn (w.row r).stmt (sendDiscardAllConsume P close) with
              | (_, some e) => M.pure (some (.wrap "An error occurred discarding messages on row close" (some e)))
              | (.success _, none) => M.pure none
              | (_, none) => M.pure (some (.new "Unrecognized response type discarding all rows: Value: %#v"))) w
              (OnDetached w r) (After id w) := Pan.bind (R := fun _ _ => False) (pan_noConn hn hD) (fun _ _ h => h.elim)
          exact this.congr (by unfold rowsDrain; dsimp only; rw [if_pos h1]; rfl)
        · by_cases h2 : (!(w.row r).finished) = true
          · have : Pan (do
                let n := numConsume (w.stmt (w.row r).stmt).queries.length (w.row r).idx
                if n < 0 then withConn (w.row r).stmt (M.panic .negMake)
                else
                  match ← withConn (w.row r).stmt (consumeAllMultiple P close n.toNat) with
                  | some e => M.pure (some (.wrap "An error occurred clearing out unconsumed stream" (some e)))
                  | none => M.pure none) w (OnDetached w r) (After id w) := by
              dsimp only
              split
              · exact pan_noConn hn hD
              · exact Pan.bind (R := fun _ _ => False) (pan_noConn hn hD) (fun _ _ h => h.elim)
            exact this.congr (by unfold rowsDrain; dsimp only; rw [if_neg h1, if_pos h2]; rfl)
          · exact Pan.congr (y := M.pure none) (by unfold rowsDrain; dsimp only; rw [if_neg h1, if_neg h2]; rfl) (.pure (.of ⟨hw, .refl w⟩))
    · intro a w1 h1
      cases a with
      | some e => exact .pure h1.1.toAdd
      | none =>
        have hm := keep_rowsMark h1.1.whole r
        refine .modify ?_
        refine .get ?_
        split
        · refine .get ?_
          refine (pan_stmtClose hP hc hm.whole ?_).never fun _ _ h => h1.1.toAdd.tr (hm.toAdd.tr h.1)
          rw [setStmt_len]
          show ((w1.setRow r fun x => { x with closed := true }).row r).stmt < w1.stmts.length
          rw [setRow_keeps Rows.stmt _ _ (fun x => { x with closed := true }) (fun _ => rfl)]
          exact h1.1.whole.rstmt r (Nat.lt_of_lt_of_le hr h1.1.nrows)
        · exact .pure (h1.1.toAdd.tr hm.toAdd)

theorem pan_txFinish {w : World σ} (hw : Whole w) (q : Str) (t : Nat) :
    Pan (txFinish P close q t) w Never (fun _ => Add w) := by
  unfold txFinish
  refine .get ?_
  by_cases h : w.txClosed t = true
  · rw [if_pos h]; exact .pure (Keep.refl hw).toAdd
  · rw [if_neg h]
    refine (pan_current hP hc hw).bind fun a w1 h1 => ?_
    cases a with
    | some e => exact .pure h1.1
    | none =>
      refine (pan_single hP hc q [] h1.1.whole).bind fun a w2 h2 => ?_
      obtain ⟨x, y, e⟩ := a
      have hk := h1.1.tr h2.1.toAdd
      cases e with
      | some e => exact .pure hk
      | none =>
        dsimp only
        split
        · exact .pure hk
        · split
          · exact .pure hk
          · refine .modify (.pure ?_)
            exact hk.tr { whole := { h2.1.whole with tx := rfl }, nst := Nat.le_refl _, nrows := Nat.le_refl _, rst := fun _ _ => rfl, cl := fun h => h }

/-! ## Calls -/

omit hP hc in
theorem pan_guardStmt {w : World σ} (s : Nat) :
    Pan (guardStmt s) w Never (fun a w' => w' = w ∧ (a = none → (w.stmt s).closed = false)) := by
  unfold Pan guardStmt
  by_cases h : (w.stmt s).closed = true
  · rw [if_pos h]; exact ⟨rfl, nofun⟩
  · rw [if_neg h]
    by_cases h2 : (w.stmt s).rows.isSome = true
    · rw [if_pos h2]; exact ⟨rfl, nofun⟩
    · rw [if_neg h2]; exact ⟨rfl, fun _ => Bool.eq_false_iff.2 h⟩

omit hP hc in
theorem pan_guardConn {w : World σ} : Pan (guardConn) w Never (fun _ w' => w' = w) := by
  unfold Pan guardConn
  by_cases h : w.statement.isSome = true
  · rw [if_pos h]
  · rw [if_neg h]
    by_cases h2 : w.closed = true
    · rw [if_pos h2]
    · rw [if_neg h2]

theorem pan_stmtExec {w : World σ} (hw : Whole w) {s : Nat} (hs : s < w.stmts.length) (kvs : KVs) :
    Pan (stmtExecNeo P close s kvs) w Never (fun _ => Keep w) := by
  unfold stmtExecNeo
  refine (pan_guardStmt s).bind ?_
  rintro a w1 ⟨rfl, h1⟩
  cases a with
  | some e => exact .pure (.refl hw)
  | none =>
    refine .get ?_
    refine (pan_withConn (hw.conn s hs (h1 rfl)) (pan_runPullAll hP hc _ kvs hw)).bind fun a w2 h2 => ?_
    obtain ⟨x, y, e⟩ := a
    cases e with
    | some e => exact .pure h2.1
    | none =>
      dsimp only
      split
      · exact .pure h2.1
      · split <;> exact .pure h2.1

omit hc in
theorem pan_sendAll (msg : String) : ∀ (l : List (Str × KVs)) {w : World σ}, Whole w → Pan (sendAll P msg l) w Never (fun _ => Step w)
  | [], _, hw => .pure ⟨hw, .refl _⟩
  | (q, ps) :: l, w, hw => by
    unfold sendAll
    refine (pan_runPull hP q ps hw).bind fun a w1 h1 => ?_
    cases a with
    | some e => exact .pure h1
    | none => exact (pan_sendAll msg l h1.whole).cons fun _ _ h => h1.tr h

theorem pan_collect (n : Nat) : ∀ {w : World σ}, Whole w → Pan (collect P close n) w Never (fun _ => Keep w) := by
  induction n with
  | zero => exact fun hw => .pure (.refl hw)
  | succ n ih =>
    intro w hw
    unfold collect
    refine (pan_consume hP hc hw).bind fun a w1 h1 => ?_
    obtain ⟨x, e⟩ := a
    cases e with
    | some e => exact .pure h1.1
    | none =>
      dsimp only
      split
      · exact .pure h1.1
      · refine (pan_consumeAll hP hc h1.1.whole).bind fun a w2 h2 => ?_
        have hk := h1.1.tr h2.1
        obtain ⟨x, y, e⟩ := a
        cases e with
        | some e => exact .pure hk
        | none =>
          cases y with
          | success md =>
            refine (ih h2.1.whole).bind fun a w3 h3 => ?_
            cases a <;> exact .pure (hk.tr h3)
          | _ => exact .pure hk

theorem pan_stmtExecPipe {w : World σ} (hw : Whole w) {s : Nat} (hs : s < w.stmts.length) (l : List KVs) :
    Pan (stmtExecPipeline P close s l) w Never (fun _ => Keep w) := by
  unfold stmtExecPipeline
  refine (pan_guardStmt s).bind ?_
  rintro a w1 ⟨rfl, h1⟩
  cases a with
  | some e => exact .pure (.refl hw)
  | none =>
    have hn := hw.conn s hs (h1 rfl)
    refine .get ?_
    split
    · exact .pure (.refl hw)
    · refine (pan_withConn hn (pan_sendAll hP _ _ hw)).bind fun a w2 h2 => ?_
      cases a with
      | some e => exact .pure h2.keep
      | none =>
        exact pan_withConn (by rw [h2.same.stmt]; exact hn) ((pan_collect hP hc _ h2.whole).cons fun _ _ h => h2.keep.tr h)

/-- A call that opened rows `r`: they are attached. -/
def Opened (w : World σ) (a : Except GoErr Nat) (w' : World σ) : Prop :=
  Keep w w' ∧ ∀ r, a = .ok r → r < w'.rows.length ∧ (w'.stmt (w'.row r).stmt).conn = true

omit hP hc in
theorem pan_opened {w0 w : World σ} (hk : Keep w0 w) (x : Rows) (hs : x.stmt < w.stmts.length)
    (hi : (w.stmt x.stmt).queries.length = 0 ∨ x.idx < (w.stmt x.stmt).queries.length) (hn : (w.stmt x.stmt).conn = true) :
    Pan (do
      let r ← newRowsObj x
      M.modify fun w => w.setStmt x.stmt fun s => { s with rows := some r }
      M.pure (Except.ok r) : M σ (Except GoErr Nat)) w Never (Opened w0) := by
  refine (pan_openRows hk.whole x hs hi Except.ok).cons ?_
  rintro a w' ⟨h1, h2, h3, h4, h5⟩
  refine ⟨hk.tr h1, fun r hr => ?_⟩
  rw [h2] at hr
  have : w.rows.length = r := by injection hr
  subst this
  exact ⟨h3, by rw [h4, h5]; exact hn⟩

theorem pan_stmtQuery {w : World σ} (hw : Whole w) {s : Nat} (hs : s < w.stmts.length) (kvs : KVs) :
    Pan (stmtQueryNeo P close s kvs) w Never (Opened w) := by
  unfold stmtQueryNeo
  refine (pan_guardStmt s).bind ?_
  rintro a w1 ⟨rfl, h1⟩
  cases a with
  | some e => exact .pure ⟨.refl hw, nofun⟩
  | none =>
    have hn := hw.conn s hs (h1 rfl)
    refine .get ?_
    refine (pan_withConn hn (pan_runConsume hP hc _ kvs hw)).bind fun a w2 h2 => ?_
    obtain ⟨v, e⟩ := a
    cases e with
    | some e => exact .pure ⟨h2.1, nofun⟩
    | none =>
      have hh := (h2.2 rfl).same
      cases v with
      | success md =>
        exact pan_opened h2.1 { md := md, stmt := s, closed := false, consumed := false, finished := false, idx := 0, closeStmt := false }
          (Nat.lt_of_lt_of_le hs h2.1.nst) (by show _ = 0 ∨ 0 < _; omega) (by show (w2.stmt s).conn = true; rw [hh.stmt]; exact hn)
      | _ => exact .pure ⟨h2.1, nofun⟩

theorem pan_stmtQueryPipe {w : World σ} (hw : Whole w) {s : Nat} (hs : s < w.stmts.length) (l : List KVs) :
    Pan (stmtQueryPipeline P close s l) w Never (Opened w) := by
  unfold stmtQueryPipeline
  refine (pan_guardStmt s).bind ?_
  rintro a w1 ⟨rfl, h1⟩
  cases a with
  | some e => exact .pure ⟨.refl hw, nofun⟩
  | none =>
    have hn := hw.conn s hs (h1 rfl)
    refine .get ?_
    split
    · exact .pure ⟨.refl hw, nofun⟩
    · refine (pan_withConn hn (pan_sendAll hP _ _ hw)).bind fun a w2 h2 => ?_
      cases a with
      | some e => exact .pure ⟨h2.keep, nofun⟩
      | none =>
        have hn2 : (w2.stmt s).conn = true := by rw [h2.same.stmt]; exact hn
        refine (pan_withConn hn2 (pan_consume hP hc h2.whole)).bind fun a w3 h3 => ?_
        have hk := h2.keep.tr h3.1
        obtain ⟨v, e⟩ := a
        cases e with
        | some e => exact .pure ⟨hk, nofun⟩
        | none =>
          have hh := (h3.2 rfl).same
          cases v with
          | success md =>
            exact pan_opened hk { md := md, stmt := s, closed := false, consumed := true, finished := false, idx := 0, closeStmt := false }
              (Nat.lt_of_lt_of_le hs hk.nst) (by show _ = 0 ∨ 0 < _; omega) (by show (w3.stmt s).conn = true; rw [hh.stmt]; exact hn2)
          | _ => exact .pure ⟨hk, nofun⟩

omit hP hc in
/-- `newStmt`, then `c.statement = stmt`. -/
theorem add_setStatement {w : World σ} (hw : Whole w) (x : Stmt) (hx : x.conn = true) (hr : x.rows = none) (hcl : x.closed = false) :
    Add w { w with stmts := w.stmts ++ [x], statement := some w.stmts.length } :=
  have h := keep_newStmt hw x hx hr
  have hcur : ∀ i, some w.stmts.length = some i → i < (w.stmts ++ [x]).length ∧
      (({ w with stmts := w.stmts ++ [x] } : World σ).stmt i).closed = false := by
    intro i hi
    have : w.stmts.length = i := by injection hi
    rw [← this, stmt_append_new]
    exact ⟨by simp, hcl⟩
  { whole := { h.whole with cur := hcur }
    nst := h.nst, nrows := h.nrows, rst := h.rst, cl := h.cl }

/-- The rows a direct query opens are attached. -/
def OpenedDirect (w : World σ) (a : Except GoErr Nat) (w' : World σ) : Prop :=
  Add w w' ∧ ∀ r, a = .ok r → r < w'.rows.length ∧ (w'.stmt (w'.row r).stmt).conn = true

theorem pan_queryNeo {w : World σ} (hw : Whole w) (q : Str) (kvs : KVs) :
    Pan (queryNeo P close q kvs) w Abandoned (OpenedDirect w) := by
  unfold queryNeo
  refine (pan_guardConn.never fun _ _ h => h).bind ?_
  rintro a w1 rfl
  cases a with
  | some e => exact .pure ⟨(Keep.refl hw).toAdd, nofun⟩
  | none =>
    let x : Stmt := { query := q, queries := [], conn := true, closed := false, rows := none }
    have hA := add_setStatement hw x rfl rfl rfl
    refine Pan.bind (R := fun a w' => a = w1.stmts.length ∧ w' = { w1 with stmts := w1.stmts ++ [x] }) ⟨rfl, rfl⟩ ?_
    rintro s w2 ⟨rfl, rfl⟩
    refine .modify ?_
    refine ((pan_runPullConsume hP hc q kvs hA.whole).never fun _ _ h => h).bind fun a w3 h3 => ?_
    have hcl : ∀ e, Pan (do
        let _ ← queryNeo.stmtCloseCurrent P close
        M.pure (Except.error e) : M σ (Except GoErr Nat)) w3 Abandoned (OpenedDirect w1) := by
      intro e
      refine Pan.bind (R := fun _ => Add w3) ?_ (fun _ w4 h4 => .pure ⟨hA.tr (h3.1.toAdd.tr h4), nofun⟩)
      unfold queryNeo.stmtCloseCurrent
      refine .get ?_
      cases hs : w3.statement with
      | some s => exact (pan_stmtClose hP hc h3.1.whole (h3.1.whole.cur s hs).1).never fun _ _ h => h.1
      | none =>
        refine ⟨rfl, ?_⟩
        rcases h3.1.st with h | h
        · rw [hs] at h; cases h
        · exact h
    obtain ⟨v, e⟩ := a
    cases e with
    | some e => exact hcl e
    | none =>
      cases v with
      | success md =>
        have hh := (h3.2 rfl).same
        have hst : w3.stmt w1.stmts.length = x := by
          rw [hh.stmt]
          exact stmt_append_new w1 x
        have := pan_opened h3.1 { md := md, stmt := w1.stmts.length, closed := false, consumed := true, finished := false, idx := 0, closeStmt := true }
          (by show w1.stmts.length < w3.stmts.length; rw [hh.stmts]; simp) (by show _ = 0 ∨ 0 < _; omega) (by show (w3.stmt w1.stmts.length).conn = true; rw [hst])
        exact this.never fun a w4 h4 => ⟨hA.tr h4.1.toAdd, h4.2⟩
      | _ => exact hcl _

theorem pan_nextNeo {w : World σ} (hw : Whole w) {r : Nat} (hr : r < w.rows.length) :
    Pan (nextNeo P close r) w (OnDetached w r) (fun a w' => Keep w w' ∧ (a.2.2 = none → (w'.stmt (w'.row r).stmt).conn = true)) := by
  unfold nextNeo
  refine .get ?_
  by_cases h : (w.row r).closed = true
  · rw [if_pos h]; exact .pure ⟨.refl hw, nofun⟩
  · rw [if_neg h]
    by_cases hn : (w.stmt (w.row r).stmt).conn = true
    · have hfin : ∀ {w1 : World σ}, Whole w1 → Keep w1 (w1.setRow r fun x => { x with finished := true }) :=
        fun h => keep_setRow h r _ (fun _ => rfl) (fun _ => rfl)
      have hpull : Pan (do
          if !(w.row r).consumed then
            M.modify fun w => w.setRow r fun x => { x with consumed := true }
            match ← withConn (w.row r).stmt (sendPullAll P) with
            | some e =>
              M.modify fun w => w.setRow r fun x => { x with finished := true }
              M.pure (some e)
            | none => M.pure none
          else M.pure none : M σ (Option GoErr)) w (OnDetached w r)
          (fun _ w' => Keep w w' ∧ w'.stmts = w.stmts) := by
        split
        · have hk := keep_setRow hw r (fun x => { x with consumed := true }) (fun _ => rfl) (fun _ => rfl)
          refine .modify ?_
          refine (pan_withConn (w := w.setRow r fun x => { x with consumed := true }) hn ((pan_pullAll hP hk.whole).never fun _ _ h => h)).bind fun a w1 h1 => ?_
          cases a with
          | some e => exact .modify (.pure ⟨hk.tr (h1.keep.tr (hfin h1.whole)), h1.same.stmts⟩)
          | none => exact .pure ⟨hk.tr h1.keep, h1.same.stmts⟩
        · exact .pure ⟨.refl hw, rfl⟩
      refine hpull.bind ?_
      rintro a w1 ⟨h1, h1s⟩
      cases a with
      | some e => exact .pure ⟨h1, nofun⟩
      | none =>
        have hn1 : (w1.stmt (w.row r).stmt).conn = true := by unfold World.stmt at hn ⊢; rw [h1s]; exact hn
        refine (pan_withConn hn1 ((pan_consume hP hc h1.whole).never fun _ _ h => h)).bind fun a w2 h2 => ?_
        have hk := h1.tr h2.1
        obtain ⟨v, e⟩ := a
        cases e with
        | some e => exact .pure ⟨hk, nofun⟩
        | none =>
          cases v with
          | success md => exact .modify (.pure ⟨hk.tr (hfin h2.1.whole), nofun⟩)
          | record fs =>
            refine .pure ⟨hk, fun _ => ?_⟩
            rw [hk.rst r hr, (h2.2 rfl).same.stmt]; exact hn1
          | _ => exact .pure ⟨hk, nofun⟩
    · have hn := Bool.eq_false_iff.2 hn
      have hD : ∀ w', w'.closed = w.closed → OnDetached w r .nilDeref w' := fun w' hw' => ⟨rfl, hw', Bool.eq_false_iff.2 h, hn⟩
      refine Pan.bind (R := fun a w' => a = none ∧ w' = w) ?_ ?_
      · split
        · refine .modify ?_
          exact Pan.bind (R := fun _ _ => False) (pan_noConn hn (hD _ rfl)) (fun _ _ h => h.elim)
        · exact .pure ⟨rfl, rfl⟩
      · rintro a w1 ⟨rfl, rfl⟩
        exact Pan.bind (R := fun _ _ => False) (pan_noConn hn (hD _ rfl)) (fun _ _ h => h.elim)

theorem pan_allLoop (r f : Nat) : ∀ (out : List (List Val)) {w : World σ}, Whole w → r < w.rows.length →
    Pan (allLoop P close r f out) w (OnDetached w r) (fun _ => Keep w) := by
  induction f with
  | zero => exact fun _ _ _ _ => trivial
  | succ f ih =>
    intro out w hw hr
    unfold allLoop
    refine (pan_nextNeo hP hc hw hr).bind fun a w1 h1 => ?_
    obtain ⟨row, md, e⟩ := a
    cases e with
    | some e =>
      cases row <;> (dsimp only; split <;> exact .pure h1.1)
    | none =>
      cases row with
      | none => exact .pure h1.1
      | some row =>
        refine (ih _ h1.1.whole (Nat.lt_of_lt_of_le hr h1.1.nrows)).mono ?_ (fun _ _ h => h1.1.tr h)
        rintro p w' ⟨_, _, _, h⟩
        rw [h1.2 rfl] at h
        cases h

theorem pan_rowsAll {w : World σ} (hw : Whole w) {r : Nat} (hr : r < w.rows.length) :
    Pan (rowsAll P close r) w (OnDetached w r) (fun _ => Keep w) := by
  unfold Pan rowsAll
  exact pan_allLoop hP hc r _ [] hw hr

theorem pan_queryNeoAll {w : World σ} (hw : Whole w) (q : Str) (kvs : KVs) :
    Pan (queryNeoAll P close q kvs) w Abandoned (fun _ => Add w) := by
  unfold queryNeoAll
  refine (pan_queryNeo hP hc hw q kvs).bind fun a w1 h1 => ?_
  cases a with
  | error e => exact .pure h1.1
  | ok r =>
    obtain ⟨hr, hn⟩ := h1.2 r rfl
    refine Pan.bind (R := fun _ => Keep w1) ((pan_rowsAll hP hc h1.1.whole hr).mono ?_ fun _ _ h => h) ?_
    · rintro p w' ⟨_, _, _, h⟩
      rw [hn] at h; cases h
    · intro a w2 h2
      refine .get ?_
      refine Pan.bind (R := fun _ => Add w2) ((pan_rowsClose hP hc h2.whole (Nat.lt_of_lt_of_le hr h2.nrows)).mono ?_ fun _ _ h => h) ?_
      · rintro p w' ⟨hp, hcl, _, h⟩
        refine ⟨hp, ?_⟩
        rw [hcl]
        rw [h2.rst r hr] at h
        rcases h2.cn _ (h1.1.whole.rstmt r hr) hn with h' | h'
        · rw [h] at h'; cases h'
        · exact h'
      · exact fun _ w3 h3 => .pure (h1.1.tr (h2.toAdd.tr h3))

theorem pan_queryPipeline {w : World σ} (hw : Whole w) (qs : List Str) (l : List KVs) :
    Pan (queryPipeline P close qs l) w Never (fun _ => Add w) := by
  unfold queryPipeline
  refine (pan_guardConn.never fun _ _ h => h).bind ?_
  rintro a w1 rfl
  cases a with
  | some e => exact .pure (Keep.refl hw).toAdd
  | none =>
    let x : Stmt := { query := [], queries := qs, conn := true, closed := false, rows := none }
    have hA := add_setStatement hw x rfl rfl rfl
    refine Pan.bind (R := fun a w' => a = w1.stmts.length ∧ w' = { w1 with stmts := w1.stmts ++ [x] }) ⟨rfl, rfl⟩ ?_
    rintro s w2 ⟨rfl, rfl⟩
    refine .modify ?_
    refine (pan_stmtQueryPipe hP hc hA.whole (by simp) l).bind fun a w3 h3 => ?_
    cases a with
    | error e => exact .pure (hA.tr h3.1.toAdd)
    | ok r => exact .modify (.pure (hA.tr (h3.1.toAdd.tr (keep_setRow h3.1.whole r (fun x => { x with closeStmt := true }) (fun _ => rfl) (fun _ => rfl)).toAdd)))

theorem pan_nextPipeline {w : World σ} (hw : Whole w) {r : Nat} (hr : r < w.rows.length) :
    Pan (nextPipeline P close r) w (OnDetached w r) (fun _ => Add w) := by
  unfold nextPipeline
  refine .get ?_
  by_cases h : (w.row r).closed = true
  · rw [if_pos h]; exact .pure (Keep.refl hw).toAdd
  · rw [if_neg h]
    by_cases hn : (w.stmt (w.row r).stmt).conn = true
    · refine (pan_withConn hn ((pan_consume hP hc hw).never fun _ _ h => h)).bind fun a w1 h1 => ?_
      obtain ⟨v, e⟩ := a
      cases e with
      | some e => exact .pure h1.1.toAdd
      | none =>
        have hh1 := (h1.2 rfl).same
        cases v with
        | success md =>
          refine .get ?_
          split
          · exact .modify (.pure (h1.1.tr (keep_setRow h1.1.whole r (fun x => { x with finished := true }) (fun _ => rfl) (fun _ => rfl))).toAdd)
          · rename_i hne
            have hn1 : (w1.stmt (w.row r).stmt).conn = true := by rw [hh1.stmt]; exact hn
            refine (pan_withConn hn1 (((pan_consume hP hc h1.1.whole).run).never fun _ _ h => h)).bind fun a w2 h2 => ?_
            obtain ⟨h2, hrun⟩ := h2
            have hk := h1.1.tr h2.1
            have hdr : Same w1 w2 → ∀ v, Pan (pipeHeader (w.row r) v) w2 (OnDetached w r) (fun _ => Add w) := fun hh2 v => by
              unfold pipeHeader
              split
              · next md =>
                have := pan_openRows hk.whole { md := md, stmt := (w.row r).stmt, closed := false, consumed := true, finished := false, idx := (w.row r).idx + 1, closeStmt := (w.row r).closeStmt }
                  (Nat.lt_of_lt_of_le (hw.rstmt r hr) hk.nst)
                  (by
                    show (w2.stmt (w.row r).stmt).queries.length = 0 ∨ (w.row r).idx + 1 < (w2.stmt (w.row r).stmt).queries.length
                    have hi := hw.ridx r hr
                    rw [hh1.stmt] at hne
                    rw [hh2.stmt, hh1.stmt]
                    omega) (fun r' => (⟨none, some md, some r', none⟩ : PipeRes))
                exact this.never fun _ _ h => hk.toAdd.tr h.1.toAdd
              · exact .pure hk.toAdd
            obtain ⟨v, e⟩ := a
            cases e with
            | some e =>
              dsimp only
              split
              · next he =>
                obtain ⟨_, -, -, rfl⟩ := consume_eof_run hrun he
                exact hdr ⟨rfl, rfl, rfl, rfl⟩ v
              · exact .pure hk.toAdd
            | none => exact hdr (h2.2 rfl).same v
        | _ => exact .pure h1.1.toAdd
    · have hn := Bool.eq_false_iff.2 hn
      exact Pan.bind (R := fun _ _ => False) (pan_noConn hn ⟨rfl, rfl, Bool.eq_false_iff.2 h, hn⟩) (fun _ _ h => h.elim)

theorem pan_execNeo {w : World σ} (hw : Whole w) (q : Str) (kvs : KVs) :
    Pan (execNeo P close q kvs) w Never (fun _ => Add w) := by
  unfold execNeo
  refine (pan_guardConn.never fun _ _ h => h).bind ?_
  rintro a w1 rfl
  cases a with
  | some e => exact .pure (Keep.refl hw).toAdd
  | none =>
    let x : Stmt := { query := q, queries := [], conn := true, closed := false, rows := none }
    have hA := keep_newStmt hw x rfl rfl
    refine Pan.bind (R := fun a w' => a = w1.stmts.length ∧ w' = { w1 with stmts := w1.stmts ++ [x] }) ⟨rfl, rfl⟩ ?_
    rintro s w2 ⟨rfl, rfl⟩
    refine (pan_stmtExec hP hc hA.whole (by simp) kvs).bind fun a w3 h3 => ?_
    refine (pan_stmtClose hP hc h3.whole (Nat.lt_of_lt_of_le (by simp) h3.nst)).bind fun _ w4 h4 => ?_
    exact .pure (hA.toAdd.tr (h3.toAdd.tr h4.1))

theorem pan_execPipeline {w : World σ} (hw : Whole w) (qs : List Str) (l : List KVs) :
    Pan (execPipeline P close qs l) w Never (fun _ => Add w) := by
  unfold execPipeline
  refine (pan_guardConn.never fun _ _ h => h).bind ?_
  rintro a w1 rfl
  cases a with
  | some e => exact .pure (Keep.refl hw).toAdd
  | none =>
    let x : Stmt := { query := [], queries := qs, conn := true, closed := false, rows := none }
    have hA := keep_newStmt hw x rfl rfl
    refine Pan.bind (R := fun a w' => a = w1.stmts.length ∧ w' = { w1 with stmts := w1.stmts ++ [x] }) ⟨rfl, rfl⟩ ?_
    rintro s w2 ⟨rfl, rfl⟩
    refine (pan_stmtExecPipe hP hc hA.whole (by simp) l).bind fun a w3 h3 => ?_
    refine (pan_stmtClose hP hc h3.whole (Nat.lt_of_lt_of_le (by simp) h3.nst)).bind fun _ w4 h4 => ?_
    exact .pure (hA.toAdd.tr (h3.toAdd.tr h4.1))

theorem pan_begin {w : World σ} (hw : Whole w) : Pan (begin_ P close) w Never (fun _ => Add w) := by
  unfold begin_
  refine .get ?_
  split
  · exact .pure (Keep.refl hw).toAdd
  · refine .get ?_
    split
    · exact .pure (Keep.refl hw).toAdd
    · refine .get ?_
      split
      · exact .pure (Keep.refl hw).toAdd
      · refine (pan_single hP hc qBegin [] hw).bind fun a w2 h2 => ?_
        obtain ⟨x, y, e⟩ := a
        cases e with
        | some e => exact .pure h2.1.toAdd
        | none =>
          dsimp only
          split
          · exact .pure h2.1.toAdd
          · split
            · exact .pure h2.1.toAdd
            · exact h2.1.toAdd.tr { whole := { h2.1.whole with }, nst := Nat.le_refl _, nrows := Nat.le_refl _, rst := fun _ _ => rfl, cl := fun h => h }

omit hP hc in
theorem pan_prepare {w : World σ} (hw : Whole w) (q : Str) (qs : List Str) : Pan (prepare q qs) w Never (fun _ => Add w) := by
  unfold prepare
  refine (pan_guardConn.never fun _ _ h => h).bind ?_
  rintro a w1 rfl
  cases a with
  | some e => exact .pure (Keep.refl hw).toAdd
  | none => exact add_setStatement hw { query := q, queries := qs, conn := true, closed := false, rows := none } rfl rfl rfl

/-- The panics that remain: of a direct query whose failure handling closed the connection, and of a call on rows
whose statement was closed under them. -/
def Op.Panics (w : World σ) : Op → Panic → World σ → Prop
  | .query .. | .queryAll .. => Abandoned
  | .next r | .all r | .nextPipe r | .closeRows r => OnDetached w r
  | _ => Never

omit hP hc in
theorem Pan.map {α β : Type} {x : M σ α} {f : α → β} {w : World σ} {C : Panic → World σ → Prop} {Q : World σ → Prop}
    (h : Pan x w C (fun _ => Q)) : Pan (do M.pure (f (← x))) w C (fun _ => Q) := h.bind fun _ _ h => .pure h

theorem pan_op {w : World σ} (hw : Whole w) (op : Op) (he : op.Exists w) : Pan (op.run P close) w (op.Panics w) (fun _ => Add w) := by
  cases op with
  | exec q kvs => exact (pan_execNeo hP hc hw q kvs).map
  | query q kvs => exact ((pan_queryNeo hP hc hw q kvs).cons fun _ _ h => h.1).map
  | queryAll q kvs =>
    refine (pan_queryNeoAll hP hc hw q kvs).bind fun a _ h => ?_
    cases a <;> exact .pure h
  | execPipe qs l => exact (pan_execPipeline hP hc hw qs l).map
  | queryPipe qs l => exact (pan_queryPipeline hP hc hw qs l).map
  | prepare q => exact (pan_prepare hw q []).map
  | preparePipe qs => exact (pan_prepare hw [] qs).map
  | begin => exact (pan_begin hP hc hw).map
  | stExec s kvs => exact ((pan_stmtExec hP hc hw he kvs).cons fun _ _ h => h.toAdd).map
  | stQuery s kvs => exact ((pan_stmtQuery hP hc hw he kvs).cons fun _ _ h => h.1.toAdd).map
  | stExecPipe s l => exact ((pan_stmtExecPipe hP hc hw he l).cons fun _ _ h => h.toAdd).map
  | stQueryPipe s l => exact ((pan_stmtQueryPipe hP hc hw he l).cons fun _ _ h => h.1.toAdd).map
  | next r => exact ((pan_nextNeo hP hc hw he).cons fun _ _ h => h.1.toAdd).map
  | all r => exact ((pan_rowsAll hP hc hw he).cons fun _ _ h => h.toAdd).map
  | nextPipe r => exact (pan_nextPipeline hP hc hw he).map
  | closeRows r => exact pan_rowsClose hP hc hw he
  | closeStmt s => exact (pan_stmtClose hP hc hw he).cons fun _ _ h => h.1
  | commit t => exact pan_txFinish hP hc hw qCommit t
  | rollback t => exact pan_txFinish hP hc hw qRollback t
  | close => exact (pan_connClose hP hc hw).cons fun _ _ h => h.toAdd
  | setChunkSize n =>
    exact .modify (.pure { whole := { hw with }, nst := Nat.le_refl _, nrows := Nat.le_refl _, rst := fun _ _ => rfl, cl := fun h => h })

end

theorem Whole.new {w : World σ} (h : NewConn w) (ht : ∀ i ∈ w.inbox, i.Tame) : Whole w where
  tame := ht
  conn i hi := by rw [h.stmts] at hi; cases hi
  cur i hi := by rw [h.statement] at hi; cases hi
  srow i r hi := by rw [h.stmts] at hi; cases hi
  rstmt r hi := by rw [h.rows] at hi; cases hi
  ridx r hi := by rw [h.rows] at hi; cases hi
  tx := h.transaction

theorem Whole.reach {P : Peer σ} (hP : P.Tame) {n : Nat} {w0 w : World σ} (h0 : Whole w0) (h : Reach P n w0 w) : Whole w := by
  induction h with
  | refl => exact h0
  | step _ he hr ih =>
    have := pan_op hP (pan_closeN hP n) ih _ he
    unfold Pan at this
    rw [hr] at this
    exact this.whole

end Bolt
