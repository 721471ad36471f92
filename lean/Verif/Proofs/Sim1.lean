import Verif.Proofs.Pipeline3

/-! The driver simulates the abstract session: relation, and calls on the connection and on statements. -/

namespace Bolt
open PackStream

variable {δ : Type} (D : DB δ)
variable {ce : Bool}

/-! ### Relation -/

def StaleS {σ : Type} (w : World σ) (h : Handles) : Prop := ∀ i, h.s = some i → ∃ x, w.stmts[i]? = some x ∧ x.closed = true
def StaleR {σ : Type} (w : World σ) (h : Handles) : Prop := ∀ i, h.r = some i → ∃ x, w.rows[i]? = some x ∧ x.closed = true

/-- The latest transaction is open or not. -/
def TxOk {σ : Type} (w : World σ) (h : Handles) (tx : Bool) : Prop :=
  if tx then ∃ t, h.t = some t ∧ w.txs[t]? = some false else ∀ t, h.t = some t → w.txs[t]? = some true

/-- Open rows `r` of statement `i`. -/
structure Hold {σ : Type} (w : World σ) (h : Handles) (p : Prep) (dr : Bool) (i r : Nat) : Prop where
  row : h.r = some r
  handle : if dr then StaleS w h else h.s = some i
  current : w.statement = some i
  stmt : w.stmts[i]? = some ⟨p.query, p.queries, true, false, some r⟩

/-- What the world looks like for each abstract state. -/
def Body (w : World (Srv δ)) (h : Handles) (d : δ) : Open → Prop
  | .idle => Live w d .ready ∧ w.inbox = [] ∧ w.statement = none ∧ StaleS w h ∧ StaleR w h
  | .leaked => Live w d .ready ∧ w.inbox = [] ∧ StaleS w h ∧ StaleR w h ∧ ∃ (i : Nat) (p : Prep),
      w.statement = some i ∧ w.stmts[i]? = some ⟨p.query, p.queries, true, false, none⟩
  | .stmt p => Live w d .ready ∧ w.inbox = [] ∧ StaleR w h ∧ ∃ i,
      h.s = some i ∧ w.statement = some i ∧ w.stmts[i]? = some ⟨p.query, p.queries, true, false, none⟩
  | .fresh p hd rs e => Live w d (.streaming rs e) ∧ w.inbox = [] ∧ p.queries = [] ∧ ∃ i r,
      Hold w h p false i r ∧ w.rows[r]? = some (stmtRow hd i)
  | .reading p dr hd rs e more n => Live w d (restMode e more) ∧ w.inbox = restItems rs e more n ∧ AfterOk e more n ∧
      ∃ i r idx, Hold w h p dr i r ∧
        w.rows[r]? = some { md := hd, stmt := i, closed := false, consumed := true, finished := false, idx := idx, closeStmt := dr } ∧
        (p.queries = [] → n = 0 ∧ more = []) ∧ (p.queries ≠ [] → idx + (n + 1) = p.queries.length)
  | .ended p dr => Live w d .ready ∧ w.inbox = [] ∧ ∃ i r x, Hold w h p dr i r ∧
      w.rows[r]? = some x ∧ x.stmt = i ∧ x.closed = false ∧ x.consumed = true ∧ x.finished = true ∧ x.closeStmt = dr
  | .dead p dr => Live w d .ready ∧ w.inbox = [] ∧ ∃ i r x, Hold w h p dr i r ∧
      w.rows[r]? = some x ∧ x.stmt = i ∧ x.closed = false ∧ x.closeStmt = dr
  | .closed dirty => w.closed = true ∧ w.statement = none ∧ StaleS w h ∧ (dirty = false → StaleR w h)

/-- The world represents the abstract session; `ce` says whether `connErr` is set. -/
structure RepE (ce : Bool) (w : World (Srv δ)) (h : Handles) (s : Sess δ) : Prop where
  cs : w.chunkSize = s.cs ∧ 0 < s.cs ∧ s.cs ≤ 65535
  trans : w.transaction = none
  sock : w.sockCloseErr = false
  err : w.connErr = ce
  tx : TxOk w h s.tx
  body : Body w h s.db s.opn

/-! ### What calls leave alone -/

def KeepS (l l' : List Stmt) : Prop := ∀ (i : Nat) (x : Stmt), l[i]? = some x → x.closed = true → ∃ y, l'[i]? = some y ∧ y.closed = true
def KeepR (l l' : List Rows) : Prop := ∀ (i : Nat) (x : Rows), l[i]? = some x → x.closed = true → ∃ y, l'[i]? = some y ∧ y.closed = true

theorem KeepS.refl (l : List Stmt) : KeepS l l := fun _ x h1 h2 => ⟨x, h1, h2⟩
theorem KeepR.refl (l : List Rows) : KeepR l l := fun _ x h1 h2 => ⟨x, h1, h2⟩

theorem KeepS.append (l m : List Stmt) : KeepS l (l ++ m) := fun i x h1 h2 =>
  ⟨x, by rw [List.getElem?_append_left (by have := List.getElem?_eq_some_iff.mp h1; obtain ⟨h, _⟩ := this; exact h)]; exact h1, h2⟩
theorem KeepR.append (l m : List Rows) : KeepR l (l ++ m) := fun i x h1 h2 =>
  ⟨x, by rw [List.getElem?_append_left (by have := List.getElem?_eq_some_iff.mp h1; obtain ⟨h, _⟩ := this; exact h)]; exact h1, h2⟩

theorem KeepS.modify (l : List Stmt) (k : Nat) (f : Stmt → Stmt) (hf : ∀ x, x.closed = true → (f x).closed = true) :
    KeepS l (l.modify k f) := fun i x h1 h2 => by
  by_cases hk : k = i
  · subst hk; exact ⟨f x, by simp [h1], hf x h2⟩
  · exact ⟨x, by simp [hk, h1], h2⟩
theorem KeepR.modify (l : List Rows) (k : Nat) (f : Rows → Rows) (hf : ∀ x, x.closed = true → (f x).closed = true) :
    KeepR l (l.modify k f) := fun i x h1 h2 => by
  by_cases hk : k = i
  · subst hk; exact ⟨f x, by simp [h1], hf x h2⟩
  · exact ⟨x, by simp [hk, h1], h2⟩

theorem KeepS.trans {a b c : List Stmt} (h : KeepS a b) (h' : KeepS b c) : KeepS a c := fun i x h1 h2 => by
  obtain ⟨y, h3, h4⟩ := h i x h1 h2; exact h' i y h3 h4
theorem KeepR.trans {a b c : List Rows} (h : KeepR a b) (h' : KeepR b c) : KeepR a c := fun i x h1 h2 => by
  obtain ⟨y, h3, h4⟩ := h i x h1 h2; exact h' i y h3 h4

/-- Closed objects stay closed; transactions and settings are unchanged. -/
structure Grows {σ : Type} (w w' : World σ) : Prop where
  cs : w'.chunkSize = w.chunkSize
  trans : w'.transaction = w.transaction
  sock : w'.sockCloseErr = w.sockCloseErr
  err : w'.connErr = w.connErr
  txs : w'.txs = w.txs
  stmts : KeepS w.stmts w'.stmts
  rows : KeepR w.rows w'.rows

theorem Grows.net {σ : Type} (w : World σ) (k : Sink) (s : σ) (i : List Item) (l : List Event) : Grows w (w.net k s i l) :=
  ⟨rfl, rfl, rfl, rfl, rfl, .refl _, .refl _⟩

theorem Grows.trans' {σ : Type} {a b c : World σ} (h : Grows a b) (h' : Grows b c) : Grows a c :=
  ⟨h'.cs.trans h.cs, h'.trans.trans h.trans, h'.sock.trans h.sock, h'.err.trans h.err, h'.txs.trans h.txs, h.stmts.trans h'.stmts, h.rows.trans h'.rows⟩

theorem Grows.rowsDone {σ : Type} (w : World σ) (r : Nat) : Grows w (w.rowsDone r) :=
  ⟨rfl, rfl, rfl, rfl, rfl, .modify _ _ _ (fun _ h => h), .modify _ _ _ (fun _ _ => rfl)⟩

theorem Grows.stmtDone {σ : Type} (w : World σ) (s : Nat) : Grows w (w.stmtDone s) :=
  ⟨rfl, rfl, rfl, rfl, rfl, .modify _ _ _ (fun _ _ => rfl), .refl _⟩

theorem Grows.setRow {σ : Type} (w : World σ) (r : Nat) {f : Rows → Rows} (hf : ∀ x, x.closed = true → (f x).closed = true) :
    Grows w (w.setRow r f) :=
  ⟨rfl, rfl, rfl, rfl, rfl, .refl _, .modify _ _ _ hf⟩

theorem StaleS.grows {σ : Type} {w w' : World σ} {h : Handles} (hs : StaleS w h) (hg : Grows w w') : StaleS w' h := fun i hi => by
  obtain ⟨x, h1, h2⟩ := hs i hi; exact hg.stmts i x h1 h2
theorem StaleR.grows {σ : Type} {w w' : World σ} {h : Handles} (hs : StaleR w h) (hg : Grows w w') : StaleR w' h := fun i hi => by
  obtain ⟨x, h1, h2⟩ := hs i hi; exact hg.rows i x h1 h2

theorem RepE.next {w w' : World (Srv δ)} {h h' : Handles} {s s' : Sess δ} (hr : RepE ce w h s) (hg : Grows w w')
    (hb : Body w' h' s'.db s'.opn) (ht : h'.t = h.t := by rfl) (htx : s'.tx = s.tx := by rfl) (hcs : s'.cs = s.cs := by rfl) :
    RepE ce w' h' s' :=
  ⟨⟨hg.cs.trans (hr.cs.1.trans hcs.symm), by rw [hcs]; exact hr.cs.2⟩, hg.trans.trans hr.trans, hg.sock.trans hr.sock, hg.err.trans hr.err,
    by have := hr.tx; unfold TxOk at *; rw [ht, hg.txs, htx]; exact this, hb⟩

/-! ### Errors -/

theorem res_failure {e : GoErr} {md : KVs} (h : e.innerMost = .failure md) : e.res = .failure md := by
  unfold GoErr.res; rw [h]

theorem res_query (md : KVs) : (queryErr md).res = .failure md := res_failure rfl

/-! ### Guards -/

theorem RepE.guardConn {w : World (Srv δ)} {h : Handles} {s : Sess δ} (hr : RepE ce w h s) (hne : s.opn ≠ .idle) :
    ∃ e, Bolt.guardConn w = .ok (some e) w ∧ e.res = .localError := by
  have hb := hr.body
  have case1 : (∃ i, w.statement = some i) → ∃ e, Bolt.guardConn w = .ok (some e) w ∧ e.res = .localError := by
    rintro ⟨i, hi⟩
    exact ⟨.new "An open statement already exists", by simp [Bolt.guardConn, hi], rfl⟩
  rcases s with ⟨d, o, tx, cs⟩
  cases o with
  | idle => exact absurd rfl hne
  | leaked => obtain ⟨_, _, _, _, i, p, h1, _⟩ := hb; exact case1 ⟨i, h1⟩
  | stmt p => obtain ⟨_, _, _, i, _, h1, _⟩ := hb; exact case1 ⟨i, h1⟩
  | fresh p hd rs e => obtain ⟨_, _, _, i, r, h1, _⟩ := hb; exact case1 ⟨i, h1.current⟩
  | reading p dr hd rs e more n => obtain ⟨_, _, _, i, r, _, h1, _⟩ := hb; exact case1 ⟨i, h1.current⟩
  | ended p dr => obtain ⟨_, _, i, r, _, h1, _⟩ := hb; exact case1 ⟨i, h1.current⟩
  | dead p dr => obtain ⟨_, _, i, r, _, h1, _⟩ := hb; exact case1 ⟨i, h1.current⟩
  | closed dirty =>
    obtain ⟨h1, h2, _⟩ := hb
    exact ⟨.new "Connection already closed", by simp [Bolt.guardConn, h1, h2], rfl⟩

theorem RepE.guardStmt {w : World (Srv δ)} {h : Handles} {s : Sess δ} (hr : RepE ce w h s) (hne : ∀ p, s.opn ≠ .stmt p) {i : Nat}
    (hi : h.s = some i) : ∃ e, Bolt.guardStmt i w = .ok (some e) w ∧ e.res = .localError := by
  have hb := hr.body
  have case1 : StaleS w h → ∃ e, Bolt.guardStmt i w = .ok (some e) w ∧ e.res = .localError := by
    intro hs
    obtain ⟨x, h1, h2⟩ := hs i hi
    exact ⟨.new "Neo4j Bolt statement already closed", by simp [Bolt.guardStmt, stmt_of h1, h2], rfl⟩
  have case2 : ∀ p dr j r, Hold w h p dr j r → ∃ e, Bolt.guardStmt i w = .ok (some e) w ∧ e.res = .localError := by
    intro p dr j r hh
    cases dr with
    | true => exact case1 hh.handle
    | false =>
      have := hh.handle
      simp only [Bool.false_eq_true, if_false, hi] at this
      obtain rfl : i = j := by simpa using this
      exact ⟨.new "Another query is already open", by simp [Bolt.guardStmt, stmt_of hh.stmt], rfl⟩
  rcases s with ⟨d, o, tx, cs⟩
  cases o with
  | idle => obtain ⟨_, _, _, h1, _⟩ := hb; exact case1 h1
  | leaked => obtain ⟨_, _, h1, _⟩ := hb; exact case1 h1
  | stmt p => exact absurd rfl (hne p)
  | fresh p hd rs e => obtain ⟨_, _, _, i, r, h1, _⟩ := hb; exact case2 _ _ _ _ h1
  | reading p dr hd rs e more n => obtain ⟨_, _, _, i, r, _, h1, _⟩ := hb; exact case2 _ _ _ _ h1
  | ended p dr => obtain ⟨_, _, i, r, _, h1, _⟩ := hb; exact case2 _ _ _ _ h1
  | dead p dr => obtain ⟨_, _, i, r, _, h1, _⟩ := hb; exact case2 _ _ _ _ h1
  | closed dirty => obtain ⟨_, _, h1, _⟩ := hb; exact case1 h1

end Bolt
