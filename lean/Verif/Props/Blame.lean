import Verif.Proofs.Blame
import Verif.Props.Session5

/-!
# C81: `driver.ErrBadConn`

doc.go:91-93 promises that an error of the database connection surfaces as `driver.ErrBadConn`, possibly wrapped.
-/

namespace Bolt

variable {σ : Type} {P : Peer σ} {n : Nat} {w0 w w1 : World σ}

/-- C81: any peer, any calls before, any call but QueryNeoAll: when reading or writing the socket fails during the call,
it returns an error whose innermost error is `driver.ErrBadConn` — unless the server refused RESET, in which case the
session is closed and it is that failure that is reported. -/
theorem c81_surfaces_partial (h0 : NewConn w0) (hr : Reach P n w0 w) {op : Op} (hq : ∀ q kvs, op ≠ .queryAll q kvs) {e : Option GoErr}
    (hrun : op.run P (closeN P n) w = .ok e w1) : ∃ l, w1.log = w.log ++ l ∧ (NetErr l → (∃ x, e = some x ∧ x.isBadConn = true) ∨ RefusedReset l) := by
  obtain ⟨l, h1, h2⟩ := Blame.blames_op (P := P) (n := n) (op := op) (hr.keeps h0.tidy).1.sound
  rw [hrun] at h1
  refine ⟨l, h1, fun hb => ?_⟩
  rcases (h2 e w1 hrun).1 (.inr hb) with h | h | h
  · cases e with
    | none => exact h.elim
    | some x => exact .inl ⟨x, rfl, h⟩
  · exact .inr h
  · cases op with
    | queryAll q kvs => exact (hq q kvs rfl).elim
    | _ => cases h

/-- C81, the other direction, for every call: an error whose innermost error is `driver.ErrBadConn` is only returned when
reading or writing the socket failed during the call, when the server answered ACK_FAILURE or RESET with something else
than SUCCESS, FAILURE or IGNORED, or when the call is Close and closing the socket fails. -/
theorem c81_only (h0 : NewConn w0) (hr : Reach P n w0 w) {op : Op} {x : GoErr} (hx : x.isBadConn = true)
    (hrun : op.run P (closeN P n) w = .ok (some x) w1) :
    ∃ l, w1.log = w.log ++ l ∧ (NetErr l ∨ StrangeAnswer l ∨ (op = .close ∧ w1.sockCloseErr = true)) := by
  obtain ⟨l, h1, h2⟩ := Blame.blames_op (P := P) (n := n) (op := op) (hr.keeps h0.tidy).1.sound
  rw [hrun] at h1
  exact ⟨l, h1, ((h2 _ w1 hrun).2 hx).resolve_left id⟩

/-- A statement whose answer never comes: the read fails, and the error is `driver.ErrBadConn` in a wrapper. -/
theorem c81_case : ∃ x w1, Op.run script (closeN script 1) (.exec [65] []) (scriptConn [[], [.ioerr]]) = .ok (some x) w1 ∧ x.isBadConn = true ∧
    ∃ l, w1.log = (scriptConn [[], [.ioerr]]).log ++ l ∧ NetErr l := by
  obtain ⟨a, w1, h1, h2⟩ := Out.of_test (o := Op.run script (closeN script 1) (.exec [65] []) (scriptConn [[], [.ioerr]]))
    (p := fun a w => (match a with | some x => x.isBadConn | none => false) && w.log.any Event.netErr) (by decide +kernel)
  obtain ⟨h3, h4⟩ := Bool.and_eq_true_iff.1 h2
  cases a with
  | none => cases h3
  | some x =>
    obtain ⟨y, hy, hb⟩ := List.any_eq_true.1 h4
    exact ⟨x, w1, h1, h3, w1.log, rfl, y, hy, hb⟩

/-- C81 is false when it is the server that closes the connection: the innermost error is then `io.EOF`, which
`boltConn.Read` passes on (conn.go:333-336). -/
theorem c81_false : ∃ x w1, Op.run script (closeN script 1) (.exec [65] []) (scriptConn []) = .ok (some x) w1 ∧ x.isBadConn = false ∧ x.innerMost = .eof := by
  obtain ⟨a, w1, h1, h2⟩ := Out.of_test (o := Op.run script (closeN script 1) (.exec [65] []) (scriptConn []))
    (p := fun a _ => match a with | some x => x.innerMost.isEOF | none => false) (by decide +kernel)
  cases a with
  | none => cases h2
  | some x =>
    have h3 : x.innerMost = .eof := by
      simp only at h2
      cases h : x.innerMost <;> rw [h] at h2 <;> first | rfl | cases h2
    exact ⟨x, w1, h1, by simp [GoErr.isBadConn, h3], h3⟩

/-- The server fails a query whose rows are being read, and refuses ACK_FAILURE and RESET; then the network fails. -/
def refusing : List (List Item) := [[.val (.success [])], [.val (.failure [])], [.val (.failure [])], [.val (.failure []), .ioerr]]

theorem netErr_of {w w1 : World σ} {e : Option GoErr} {op : Op} (hs : Sound w) (h : op.run P (closeN P n) w = .ok e w1) (hb : (w1.log.drop w.log.length).any Event.netErr = true) :
    ∃ l, w1.log = w.log ++ l ∧ NetErr l := by
  obtain ⟨l, hl, -⟩ := Blame.blames_op (P := P) (n := n) (op := op) hs
  rw [h] at hl
  change w1.log = _ at hl
  rw [hl, List.drop_left] at hb
  obtain ⟨y, hy, hb⟩ := List.any_eq_true.1 hb
  exact ⟨l, hl, y, hy, hb⟩

/-- The exception made by `c81_surfaces_partial` is needed: closing the session, which follows a refused RESET, reads the
rest of the open rows; when that fails the error is dropped (conn.go:460-464). -/
theorem c81_reset_false : ∃ w x w1, Reach script 1 (scriptConn refusing) w ∧ Op.run script (closeN script 1) (.next 0) w = .ok (some x) w1 ∧ x.isBadConn = false ∧
    ∃ l, w1.log = w.log ++ l ∧ NetErr l := by
  obtain ⟨a, w, h1, h2⟩ := Out.of_test (o := Op.run script (closeN script 1) (.prepare [65]) (scriptConn refusing))
    (p := fun _ w => decide (0 < w.stmts.length) && (Op.run script (closeN script 1) (.stQuery 0 []) w).test fun _ w =>
      (Op.run script (closeN script 1) (.next 0) w).test fun a w1 =>
      (match a with | some x => !x.isBadConn | none => false) && (w1.log.drop w.log.length).any Event.netErr) (by decide +kernel)
  obtain ⟨h3, h4⟩ := Bool.and_eq_true_iff.1 h2
  obtain ⟨b, w1, h5, h6⟩ := Out.of_test h4
  obtain ⟨c, w2, h7, h8⟩ := Out.of_test h6
  obtain ⟨h9, h10⟩ := Bool.and_eq_true_iff.1 h8
  have hr : Reach script 1 (scriptConn refusing) w1 := .step (op := .stQuery 0 []) (.step (op := .prepare [65]) (.refl _) trivial h1) (show 0 < w.stmts.length from of_decide_eq_true h3) h5
  cases c with
  | none => cases h9
  | some x => exact ⟨w1, x, w2, hr, h7, by simpa using h9, netErr_of (hr.keeps (NewConn.tidy ⟨rfl, rfl, rfl, rfl, rfl, rfl⟩)).1.sound h7 h10⟩

/-- SUCCESS to RUN; a message that does not decode; then the network fails. -/
def garbled : List (List Item) := [[.val (.success [])], [.bad (.new "Unrecognized marker") false, .ioerr]]

/-- So is that of QueryNeoAll: it drops the error of closing its rows (conn.go:766). -/
theorem c81_queryAll_false : ∃ x w1, Op.run script (closeN script 1) (.queryAll [65] []) (scriptConn garbled) = .ok (some x) w1 ∧ x.isBadConn = false ∧
    ∃ l, w1.log = (scriptConn garbled).log ++ l ∧ NetErr l ∧ ¬ RefusedReset l := by
  obtain ⟨a, w1, h1, h2⟩ := Out.of_test (o := Op.run script (closeN script 1) (.queryAll [65] []) (scriptConn garbled))
    (p := fun a w => (match a with | some x => !x.isBadConn | none => false) && (w.log.any Event.netErr && w.log.all fun | .recv (.val (.failure _)) => false | _ => true)) (by decide +kernel)
  obtain ⟨h3, h4⟩ := Bool.and_eq_true_iff.1 h2
  obtain ⟨h5, h6⟩ := Bool.and_eq_true_iff.1 h4
  cases a with
  | none => cases h3
  | some x =>
    refine ⟨x, w1, h1, by simpa using h3, w1.log, rfl, ?_, ?_⟩
    · obtain ⟨y, hy, hb⟩ := List.any_eq_true.1 h5
      exact ⟨y, hy, hb⟩
    · rintro ⟨l1, ig, md, l2, hl, -⟩
      have := List.all_eq_true.1 h6 (.recv (.val (.failure md))) (by rw [hl]; simp)
      cases this

end Bolt
