import Verif.Proofs.Pipeline
import Verif.Spec.Clients

/-! `QueryPipeline`, `NextPipeline` and closing the rows of a pipeline. -/

namespace Bolt
open PackStream

/-- The rows object `r` of query `idx` of the pipeline statement `s` is open and has been requested. -/
structure PipeAt {σ : Type} (w : World σ) (r s idx : Nat) (md : KVs) (q0 : Str) (qs : List Str) (direct : Bool) : Prop where
  row : w.rows[r]? = some { md := md, stmt := s, closed := false, consumed := true, finished := false, idx := idx, closeStmt := direct }
  stmt : w.stmts[s]? = some { query := q0, queries := qs, conn := true, closed := false, rows := some r }

section
variable {σ : Type} (P : Peer σ) (close : M σ (Option GoErr))

theorem PipeAt.net {w : World σ} {r s idx : Nat} {md : KVs} {q0 : Str} {qs : List Str} {dr : Bool} (h : PipeAt w r s idx md q0 qs dr)
    (k : Sink) (x : σ) (i : List Item) (l : List Event) : PipeAt (w.net k x i l) r s idx md q0 qs dr := ⟨h.row, h.stmt⟩

theorem nextPipeline_record {w : World σ} {r s idx : Nat} {md : KVs} {q0 : Str} {qs : List Str} {dr : Bool}
    (h : PipeAt w r s idx md q0 qs dr) {fs : List Val} {t : List Item} (hi : w.inbox = .val (.record fs) :: t) :
    nextPipeline P close r w = .ok ⟨some fs, none, none, none⟩ (w.net w.sink w.srv t (w.log ++ [.recv (.val (.record fs))])) := by
  have h4 := (withConn_ok (k := consume P close) (s := s) (by rw [stmt_of h.stmt])).trans (consume_val P close hi (by simp))
  unfold nextPipeline
  simp only [get_bind, row_of h.row, Bool.false_eq_true, if_false]
  rw [mbind_ok h4]
  rfl

theorem nextPipeline_err {w w' : World σ} {r s idx : Nat} {md : KVs} {q0 : Str} {qs : List Str} {dr : Bool} {v : Val} {e : GoErr}
    (h : PipeAt w r s idx md q0 qs dr) (h4 : consume P close w = .ok (v, some e) w') :
    nextPipeline P close r w = .ok ⟨none, none, none, some e⟩ w' := by
  have h4 := (withConn_ok (k := consume P close) (s := s) (by rw [stmt_of h.stmt])).trans h4
  unfold nextPipeline
  simp only [get_bind, row_of h.row, Bool.false_eq_true, if_false]
  rw [mbind_ok h4]
  rfl

theorem nextPipeline_last {w : World σ} {r s idx : Nat} {md : KVs} {q0 : Str} {qs : List Str} {dr : Bool}
    (h : PipeAt w r s idx md q0 qs dr) {sm : KVs} {t : List Item} (hi : w.inbox = .val (.success sm) :: t)
    (hl : idx + 1 = qs.length) :
    nextPipeline P close r w = .ok ⟨none, none, none, none⟩
      ((w.net w.sink w.srv t (w.log ++ [.recv (.val (.success sm))])).setRow r fun x => { x with finished := true }) := by
  have h4 := (withConn_ok (k := consume P close) (s := s) (by rw [stmt_of h.stmt])).trans (consume_val P close hi (by simp))
  unfold nextPipeline
  simp only [get_bind, row_of h.row, Bool.false_eq_true, if_false]
  rw [mbind_ok h4]
  simp only [get_bind, net_stmt, stmt_of h.stmt, hl, if_true]
  rfl

/-- The next rows object. -/
def nextRow (md : KVs) (s idx : Nat) (dr : Bool) : Rows :=
  { md := md, stmt := s, closed := false, consumed := true, finished := false, idx := idx + 1, closeStmt := dr }

theorem nextPipeline_switch {w : World σ} {r s idx : Nat} {md : KVs} {q0 : Str} {qs : List Str} {dr : Bool}
    (h : PipeAt w r s idx md q0 qs dr) {sm hd : KVs} {t : List Item}
    (hi : w.inbox = .val (.success sm) :: .val (.success hd) :: t) (hl : idx + 1 ≠ qs.length) :
    nextPipeline P close r w = .ok ⟨none, some hd, some w.rows.length, none⟩
      { w.net w.sink w.srv t (w.log ++ [.recv (.val (.success sm)), .recv (.val (.success hd))]) with
        rows := w.rows ++ [nextRow hd s idx dr]
        stmts := w.stmts.modify s fun x => { x with rows := some w.rows.length } } := by
  have h4 := (withConn_ok (k := consume P close) (s := s) (by rw [stmt_of h.stmt])).trans (consume_val P close hi (by simp))
  have h5 := (withConn_ok (k := consume P close) (s := s) (w := w.net w.sink w.srv (.val (.success hd) :: t)
    (w.log ++ [.recv (.val (.success sm))])) (by rw [net_stmt, stmt_of h.stmt])).trans
    (consume_val P close (v := .success hd) (t := t) rfl (by simp))
  unfold nextPipeline
  simp only [get_bind, row_of h.row, Bool.false_eq_true, if_false]
  rw [mbind_ok h4]
  simp only [get_bind, net_stmt, stmt_of h.stmt, if_neg hl]
  rw [mbind_ok h5]
  simp [pipeHeader, newRowsObj, mbind_run, World.setStmt, World.net, nextRow]

theorem pipeAt_switch {w : World σ} {r s idx : Nat} {md hd : KVs} {q0 : Str} {qs : List Str} {dr : Bool}
    (h : PipeAt w r s idx md q0 qs dr) (w' : World σ) (h1 : w'.rows = w.rows ++ [nextRow hd s idx dr])
    (h2 : w'.stmts = w.stmts.modify s fun x => { x with rows := some w.rows.length }) :
    PipeAt w' w.rows.length s (idx + 1) hd q0 qs dr := by
  refine ⟨by rw [h1]; simp [nextRow], ?_⟩
  rw [h2]
  simp [h.stmt]

/-- Walking over records. -/
theorem walk_records {r s idx : Nat} {md : KVs} {q0 : Str} {qs : List Str} {dr : Bool} (rs : List (List Val)) (n : Nat) (t : List Item) :
    ∀ w : World σ, PipeAt w r s idx md q0 qs dr → w.inbox = (rs.map Val.record).map Item.val ++ t →
    ∀ steps e r' w', walk P close n r (w.net w.sink w.srv t (w.log ++ gotRecords rs)) = .ok (steps, e, r') w' →
      walk P close (rs.length + n) r w = .ok (rs.map .row ++ steps, e, r') w' := by
  induction rs with
  | nil =>
    intro w _ hi steps e r' w' hw
    simp only [List.map_nil, List.nil_append] at hi
    simp only [gotRecords, List.map_nil, List.append_nil, ← hi] at hw
    simpa [World.net] using hw
  | cons fs rs ih =>
    intro w h hi steps e r' w' hw
    have h1 := nextPipeline_record P close h (fs := fs) (t := (rs.map Val.record).map Item.val ++ t) (by simpa using hi)
    have h2 := ih (w.net w.sink w.srv ((rs.map Val.record).map Item.val ++ t) (w.log ++ [Event.recv (Item.val (Val.record fs))]))
      (h.net _ _ _ _) rfl steps e r' w' (by simpa [gotRecords] using hw)
    rw [show (fs :: rs).length + n = (rs.length + n) + 1 by simp; omega, walk, mbind_ok h1]
    simp only []
    rw [mbind_ok h2]
    simp

/-- Walking over all the answers of a pipeline. -/
theorem walk_answers {s : Nat} {q0 : Str} {qs : List Str} {dr : Bool} (t : List Item) (as : List Answer) :
    ∀ (a : Answer) (w : World σ) (r idx : Nat) (md : KVs), PipeAt w r s idx md q0 qs dr → idx + (as.length + 1) = qs.length →
    w.inbox = (a.records.map Val.record ++ Val.success a.summary ::
      (as.map fun b : Answer => Val.success b.header :: (b.records.map Val.record ++ [Val.success b.summary])).flatten).map Item.val ++ t →
    ∃ r' l w', walk P close (stepsOf (a :: as)).length r w = .ok (stepsOf (a :: as), none, r')
      ((w'.net w.sink w.srv t (w.log ++ l)).setRow r' fun x => { x with finished := true }) ∧
      w'.net w.sink w.srv w.inbox w.log = { w with rows := w'.rows, stmts := w'.stmts } ∧
      PipeAt w' r' s (qs.length - 1) (as.getLast?.elim md fun b => b.header) q0 qs dr ∧
      w'.stmts = w.stmts.modify s (fun x => { x with rows := some r' }) ∧
      (∃ new, w'.rows = w.rows ++ new) := by
  induction as with
  | nil =>
    intro a w r idx md h hl hi
    simp only [List.map_nil, List.flatten_nil] at hi
    have h1 := nextPipeline_last P close (h.net w.sink w.srv (.val (.success a.summary) :: t) (w.log ++ gotRecords a.records))
      (sm := a.summary) (t := t) rfl (by simpa using hl)
    have h2 : walk P close 1 r (w.net w.sink w.srv (.val (.success a.summary) :: t) (w.log ++ gotRecords a.records)) =
        .ok ([.done], none, r) ((w.net w.sink w.srv t (w.log ++ (gotRecords a.records ++ [.recv (.val (.success a.summary))]))).setRow r
          fun x => { x with finished := true }) := by
      rw [walk, mbind_ok h1]
      simp
    have h3 := walk_records P close a.records 1 (.val (.success a.summary) :: t) w h (by rw [hi]; simp) _ _ _ _ h2
    refine ⟨r, gotRecords a.records ++ [.recv (.val (.success a.summary))], w, ?_, rfl, ?_, ?_, ⟨[], by simp⟩⟩
    · simpa [stepsOf] using h3
    · have : qs.length - 1 = idx := by simp at hl; omega
      rw [this]; exact h
    · refine List.ext_getElem? fun i => ?_
      by_cases hi : i = s
      · subst hi; simp [h.stmt]
      · simp [Ne.symm hi]
  | cons b as ih =>
    intro a w r idx md h hl hi
    simp only [List.length_cons] at hl
    let t2 : List Item := (b.records.map Val.record ++ Val.success b.summary ::
      (as.map fun b : Answer => Val.success b.header :: (b.records.map Val.record ++ [Val.success b.summary])).flatten).map Item.val ++ t
    let w0 := w.net w.sink w.srv (.val (.success a.summary) :: .val (.success b.header) :: t2) (w.log ++ gotRecords a.records)
    have h1 := nextPipeline_switch P close (w := w0) (h.net w.sink w.srv _ _) (sm := a.summary) (hd := b.header) (t := t2) rfl (by omega)
    let w1 : World σ := { w0.net w0.sink w0.srv t2 (w0.log ++ [.recv (.val (.success a.summary)), .recv (.val (.success b.header))]) with
        rows := w0.rows ++ [nextRow b.header s idx dr]
        stmts := w0.stmts.modify s fun x => { x with rows := some w0.rows.length } }
    have h2 : PipeAt w1 w.rows.length s (idx + 1) b.header q0 qs dr := pipeAt_switch h w1 rfl rfl
    obtain ⟨r', l, w', h3, h4, h5, h6, h7⟩ := ih b w1 w.rows.length (idx + 1) b.header h2 (by omega) rfl
    have h8 : walk P close ((stepsOf (b :: as)).length + 1) r w0 =
        .ok (.next b.header b.header :: stepsOf (b :: as), none, r')
          ((w'.net w1.sink w1.srv t (w1.log ++ l)).setRow r' fun x => { x with finished := true }) := by
      rw [walk, mbind_ok h1]
      simp only [get_bind]
      have e : w1.row w0.rows.length = nextRow b.header s idx dr := row_of h2.row
      refine (mbind_ok h3).trans ?_
      show Out.ok (PStep.next _ (w1.row w0.rows.length).md :: _, _, _) _ = _
      rw [e]
      rfl
    have h9 := walk_records P close a.records ((stepsOf (b :: as)).length + 1)
      (.val (.success a.summary) :: .val (.success b.header) :: t2) w h (by rw [hi]; simp [t2]) _ _ _ _ h8
    obtain ⟨new, h7⟩ := h7
    refine ⟨r', gotRecords a.records ++ [.recv (.val (.success a.summary)), .recv (.val (.success b.header))] ++ l, w', ?_, ?_, ?_, ?_,
      ⟨nextRow b.header s idx dr :: new, by rw [h7]; simp [w1, w0]⟩⟩
    · rw [show (stepsOf (a :: b :: as)).length = a.records.length + ((stepsOf (b :: as)).length + 1) by
        simp [stepsOf], h9]
      simp [stepsOf, w1, w0]
    · have := congrArg (fun x : World σ => x.net w.sink w.srv w.inbox w.log) h4
      simpa [w1, w0, World.net] using this
    · cases as with
      | nil => simpa using h5
      | cons c as => simpa [List.getLast?_cons] using h5
    · rw [h6]
      refine List.ext_getElem? fun i => ?_
      by_cases hi : i = s
      · subst hi; simp [w1, w0, h.stmt]
      · simp [w1, w0, Ne.symm hi]

end

end Bolt
