import Verif.Proofs.OnlyThen
import Verif.Props.Failures

/-!
# A connection on which a failure cannot be cleared is closed (C88)

It is, unless rows of a prepared statement are open: then closing fails, and the connection stays open although the error
says `CLOSING SESSION!`. In no other case does a call close the connection.
-/

namespace Bolt
variable {σ : Type} {P : Peer σ}

/-- C88, any peer, any state reached by API calls in which no rows of a prepared statement are open, any call: if during the
call the server does not let the driver clear a failure, the connection is closed when the call is over, whether it returns or
panics. -/
theorem c88_closed_partial {n : Nat} {w0 w : World σ} (h0 : NewConn w0) (hr : Reach P (n + 1) w0 w) (hh : ¬ w.HoldsRows) (op : Op) :
    ∃ l, (op.run P (closeN P (n + 1)) w).world.log = w.log ++ l ∧ (Hopeless l → (op.run P (closeN P (n + 1)) w).world.closed = true) := by
  obtain ⟨ht, hl⟩ := hr.keeps h0.tidy
  have hf : w.Well := .inl ⟨hl.trans h0.transaction, fun s e => by
    obtain ⟨h1, h2⟩ := ht.sound.alive s e
    refine ⟨h1, h2, fun r e' => ?_⟩
    cases hc : (w.row r).closeStmt with
    | true => rfl
    | false => exact (hh ⟨s, r, e, e', hc⟩).elim⟩
  obtain ⟨l, h1, _, _, h2, _⟩ := last_op (shuts_closeN n) op w hf
  exact ⟨l, h1, fun h => h2 (h.hits _)⟩

/-- C88, the other direction, any peer, any state, any call but `Close`: the connection is closed afterwards only if it was
before, or if the server did not let the driver clear a failure. -/
theorem c88_only (n : Nat) (op : Op) (hn : op ≠ .close) (w : World σ) :
    ∃ l, (op.run P (closeN P n) w).world.log = w.log ++ l ∧ ((op.run P (closeN P n) w).world.closed = true → w.closed = true ∨ Hopeless l) :=
  only_op (does_closeN n) op hn w

/-! ## Cases -/

/-- RESET answered with FAILURE. -/
theorem hopeless_of_tags {l : List Event} {a b : List Nat} (h : l.map Event.tag = a ++ 4 :: 12 :: b) : Hopeless l := by
  have h4 : ∀ e : Event, e.tag = 4 → e = .send .reset none := by
    intro e he
    cases e with
    | send v o => cases v <;> cases o <;> first | rfl | cases he
    | recv i =>
      cases i with
      | val v => cases v <;> cases he
      | _ => cases he
  have h12 : ∀ e : Event, e.tag = 12 → ∃ md, e = .recv (.val (.failure md)) := by
    intro e he
    cases e with
    | send v o => cases v <;> cases o <;> cases he
    | recv i =>
      cases i with
      | val v => cases v <;> first | exact ⟨_, rfl⟩ | cases he
      | _ => cases he
  obtain ⟨l1, l2, rfl, _, h2⟩ := List.map_eq_append_iff.1 h
  obtain ⟨e, l3, rfl, he, h3⟩ := List.map_eq_cons_iff.1 h2
  obtain ⟨e', l4, rfl, he', _⟩ := List.map_eq_cons_iff.1 h3
  obtain rfl := h4 e he
  obtain ⟨md, rfl⟩ := h12 e' he'
  exact .reset (ig := []) nofun ⟨nofun, nofun⟩

/-- A test of the state after a call. -/
theorem Out.world_test {α : Type} {o : Out σ α} {p : α → World σ → Bool} (h : o.test p = true) : ∃ a, o = .ok a o.world ∧ p a o.world = true := by
  obtain ⟨a, w, rfl, h2⟩ := Out.of_test h
  exact ⟨a, rfl, h2⟩

/-- A server that refuses a query, ACK_FAILURE and RESET, and hangs up. -/
def denying : List (List Item) := [[.val (.failure [])], [.val .ignored], [.val (.failure [])], [.val (.failure [])]]

/-- C88 applies to it: Exec on a new connection. -/
example : ∃ e w l, (Op.exec [65] []).run script (closeN script 1) (scriptConn denying) = .ok (some e) w ∧ w.log = (scriptConn denying).log ++ l ∧
    Hopeless l ∧ w.closed = true := by
  obtain ⟨a, h1, h2⟩ := Out.world_test (o := (Op.exec [65] []).run script (closeN script 1) (scriptConn denying))
    (p := fun a w => a.isSome && w.log.map Event.tag == [1, 2, 12, 3, 13, 12, 4, 12]) (by decide +kernel)
  rw [Bool.and_eq_true] at h2
  obtain ⟨l, h3, h4⟩ := c88_closed_partial (P := script) (n := 0) (w0 := scriptConn denying) ⟨rfl, rfl, rfl, rfl, rfl, rfl⟩ (.refl _)
    (fun ⟨s, r, h, _⟩ => by cases h) (.exec [65] [])
  have h5 : Hopeless l := by
    refine hopeless_of_tags (a := [1, 2, 12, 3, 13, 12]) (b := []) ?_
    have : l = ((Op.exec [65] []).run script (closeN script 1) (scriptConn denying)).world.log := h3.symm
    rw [this]
    simpa using h2.2
  obtain ⟨e, rfl⟩ := Option.isSome_iff_exists.1 h2.1
  exact ⟨e, _, l, h1, h3, h5, h4 h5⟩

/-- The same, but the query is that of a prepared statement and succeeds; fetching its rows fails. -/
def denyingRows : List (List Item) := [[.val (.success [])], [.val (.failure [])], [.val (.failure [])], [.val (.failure [])]]

/-- A statement prepared on a connection to it, -/
def ref1 : Out (List (List Item)) (Option GoErr) := (Op.prepare [65]).run script (closeN script 1) (scriptConn denyingRows)
/-- its rows, -/
def ref2 : Out (List (List Item)) (Option GoErr) := (Op.stQuery 0 []).run script (closeN script 1) ref1.world
/-- and `Next`. -/
def ref3 : Out (List (List Item)) (Option GoErr) := (Op.next 0).run script (closeN script 1) ref2.world

/-- C88 is false when rows of a prepared statement are open: `Next` gets FAILURE, acknowledging it is refused, so is RESET; the
error says `CLOSING SESSION!`; but closing needs the rows emptied first, which fails, and so the connection remains open. Nor
can it be closed by calling `Close` again. -/
theorem c88_false : ∃ (w w' w'' : World (List (List Item))) (md : KVs) (e' : GoErr) (l : List Event), NewConn (scriptConn denyingRows) ∧ Reach script 1 (scriptConn denyingRows) w ∧
    w.closed = false ∧ (Op.next 0).run script (closeN script 1) w = .ok (some (.wrap "Error resetting session. CLOSING SESSION!" (some (.failure md)))) w' ∧
    w'.log = w.log ++ l ∧ Hopeless l ∧ w'.closed = false ∧ Op.close.run script (closeN script 1) w' = .ok (some e') w'' ∧ w''.closed = false := by
  obtain ⟨a1, h1, _⟩ := Out.world_test (o := ref1) (p := fun _ _ => true) (by decide +kernel)
  obtain ⟨a2, h2, h2'⟩ := Out.world_test (o := ref2) (p := fun _ w => !w.closed) (by decide +kernel)
  obtain ⟨a3, h3, h3'⟩ := Out.world_test (o := ref3) (p := fun a w => !w.closed &&
    (match a with | some (.wrap m (some (.failure _))) => m == "Error resetting session. CLOSING SESSION!" | _ => false)) (by decide +kernel)
  obtain ⟨a4, h4, h4'⟩ := Out.world_test (o := Op.close.run script (closeN script 1) ref3.world) (p := fun a w => a.isSome && !w.closed) (by decide +kernel)
  rw [Bool.and_eq_true] at h3' h4'
  have hr : Reach script 1 (scriptConn denyingRows) ref2.world :=
    .step (op := .stQuery 0 []) (.step (op := .prepare [65]) (.refl _) trivial h1) (show 0 < ref1.world.stmts.length by decide +kernel) h2
  obtain ⟨l, h5, _⟩ := c88_only (P := script) 1 (.next 0) nofun ref2.world
  have h6 : Hopeless l := by
    refine hopeless_of_tags (a := [2, 12, 3, 12]) (b := [0]) ?_
    have h7 : ref3.world.log.drop ref2.world.log.length = l := by
      have : ref3.world.log = ref2.world.log ++ l := h5
      rw [this, List.drop_left]
    rw [← h7]
    have : ((ref3.world.log.drop ref2.world.log.length).map Event.tag == [2, 12, 3, 12, 4, 12, 0]) = true := by decide +kernel
    simpa using this
  obtain ⟨e4, rfl⟩ := Option.isSome_iff_exists.1 h4'.1
  obtain ⟨h8, h9⟩ := h3'
  split at h9
  · rename_i m md
    obtain rfl := eq_of_beq h9
    exact ⟨_, _, _, md, e4, l, ⟨rfl, rfl, rfl, rfl, rfl, rfl⟩, hr, by simpa using h2', h3, h5, h6, by simpa using h8, h4, by simpa using h4'.2⟩
  · cases h9

/-- `c88_only` applies: the connection of the first case was open before and is closed afterwards. -/
example : ∃ l, Hopeless l ∧ ((Op.exec [65] []).run script (closeN script 1) (scriptConn denying)).world.log = (scriptConn denying).log ++ l := by
  obtain ⟨l, h1, h2⟩ := c88_only (P := script) 1 (.exec [65] []) nofun (scriptConn denying)
  refine ⟨l, (h2 ?_).resolve_left nofun, h1⟩
  decide +kernel

end Bolt
