import Verif.Proofs.Tenant
import Verif.Props.Session1

/-!
# A pooled connection is clean for its next user (C69)

C69 is false for rows of a direct query and for transactions. What holds: nothing is open on the driver's side, against any
peer; and the users see what they should when each has read or closed their rows.
-/

namespace Bolt
open PackStream

/-- C69, any peer, any calls on any objects by any number of users: the connection the next user gets has no open
statement and no transaction, and every statement handed out before is closed. -/
theorem c69_clean {σ : Type} {P : Peer σ} {n : Nat} {w0 w w1 w2 : World σ} (h0 : NewConn w0) (hr : PoolReach P n w0 w)
    (hc : pooledClose P (pooledN P n) w = .ok none w1) (hh : handOver w1 = some w2) :
    w2.statement = none ∧ w2.transaction = none ∧ w2.closed = false ∧ ∀ s, s < w2.stmts.length → (w2.stmt s).closed = true := by
  obtain ⟨t, _⟩ := hr.keeps h0.tidy
  obtain ⟨t1, l1⟩ := (PoolReach.close hr hc).keeps h0.tidy
  unfold handOver at hh
  split at hh
  · cases hh
  · next hne =>
    simp only [Option.some.injEq] at hh
    subst hh
    simp only [Bool.or_eq_true, not_or, Bool.not_eq_true] at hne
    have hst : w1.statement = none := by
      cases hcl : w.closed with
      | true =>
        rw [pooledClose_def (inner_pooledN n), hcl, if_pos rfl] at hc
        cases hc
        rw [hne.2] at hcl
        cases hcl
      | false => exact pooledClose_none (inner_pooledN n) t.sound hcl hc
    refine ⟨hst, l1.trans h0.transaction, hne.2, fun s hs => (t1.one s hs).resolve_right ?_⟩
    rw [hst]
    simp

example : ∃ w w1 w2 : World Unit, PoolReach yes 1 yesConn w ∧ w.statement = some 0 ∧ pooledClose yes (pooledN yes 1) w = .ok none w1 ∧ handOver w1 = some w2 ∧
    w2.statement = none ∧ (w2.stmt 0).closed = true := by
  have h0 : NewConn yesConn := ⟨rfl, rfl, rfl, rfl, rfl, rfl⟩
  have hr := (PoolReach.refl (P := yes) (n := 1) yesConn).call (op := .prepare [65]) trivial (by simp) rfl
  refine ⟨_, _, _, hr, rfl, rfl, rfl, ?_⟩
  have h := c69_clean h0 hr rfl rfl
  exact ⟨h.1, h.2.2.2 0 (Nat.le_of_ble_eq_true rfl)⟩

/-- C69 on a honest server, any database, any number of users with any deliverable calls: each user gets what a new
connection would give, as long as each leaves nothing open but what `Close` can close (`Sess.release`). Missing: rows of
a direct query and transactions left open, for which it is false. -/
theorem c69_users_partial {δ : Type} {D : DB δ} (close : M (Srv δ) (Option GoErr)) {d : δ} {cs : Nat} (h0 : 0 < cs) (h1 : cs ≤ 65535)
    {us : List (List (Call KVs))} {out : List (List Res)} (h : Tenancy D d cs us out) : users D.peer close us (freshConn d cs) = out :=
  tenancy_users close us (rep_fresh d h0 h1) h

example (close : M (Srv Nat) (Option GoErr)) :
    users demo.peer close [[.prepare [65], .stQuery [], .next], [.exec [82, 82] []], [.exec [67] []]] (freshConn 0 4096) =
      [[.done, .rows [([104], .int .int64 0)], .row [.int .int8 1]], [.failure [([114], .int .int64 1)]], [.summary []]] := by
  have hs : ∀ q : Str, q.length ≤ 60000 → Sendable 4096 (.run q []) := demo_sendable
  refine c69_users_partial close (by decide) (by decide) ?_
  refine ⟨[.done, .rows [([104], .int .int64 0)], .row [.int .int8 1]],
    ⟨1, .reading ⟨[65], []⟩ false [([104], .int .int64 0)] [[.int .int8 2]] (.summary [([115], .int .int64 0)]) [] 0, false, 4096⟩, ⟨1, .idle, false, 4096⟩, _, ?_, rfl, rfl, ?_⟩
  · refine ⟨⟨⟨_, .prepare⟩, trivial⟩, fun m hm => ?_⟩
    cases hm
    refine ⟨_, _, _, rfl, rfl, ⟨⟨_, .stQuery (ps := []) rfl⟩, hs _ (by decide)⟩, fun m hm => ?_⟩
    cases hm with
    | stQuery h =>
      cases h
      refine ⟨_, _, _, rfl, rfl, ⟨⟨_, .next⟩, trivial⟩, fun m hm => ?_⟩
      cases hm
      exact ⟨_, _, _, rfl, rfl, rfl, rfl⟩
  · refine ⟨[.failure [([114], .int .int64 1)]], ⟨2, .idle, false, 4096⟩, ⟨2, .idle, false, 4096⟩, _, ?_, rfl, rfl, ?_⟩
    · refine ⟨⟨⟨_, .exec (ps := []) rfl⟩, hs _ (by decide)⟩, fun m hm => ?_⟩
      cases hm with
      | exec h => cases h; exact ⟨_, _, _, rfl, rfl, rfl, rfl⟩
    · refine ⟨[.summary []], ⟨3, .idle, false, 4096⟩, ⟨3, .idle, false, 4096⟩, [], ?_, rfl, rfl, rfl⟩
      refine ⟨⟨⟨_, .exec (ps := []) rfl⟩, hs _ (by decide)⟩, fun m hm => ?_⟩
      cases hm with
      | exec h => cases h; exact ⟨_, _, _, rfl, rfl, rfl, rfl⟩

/-- C69 is false for rows: the first user runs a pipeline and closes the connection without closing the rows, which
succeeds. The second user's query, which the database refuses whatever its state, is reported as a success. -/
theorem c69_false_rows (close : M (Srv Nat) (Option GoErr)) :
    (∀ d, (demo.exec d [82, 82] []).2.succeeds = false) ∧
    users demo.peer close [[.queryPipe [([67], []), ([67], [])]], [.exec [82, 82] []]] (freshConn 0 4096) = [[.rows []], [.summary []]] := by
  refine ⟨fun d => rfl, ?_⟩
  have hma : MeansAll [([67], []), ([67], [])] [([67], []), ([67], [])] := ⟨[], [([67], [])], rfl, ⟨[], [], rfl, rfl, rfl⟩, rfl⟩
  have hsend : ∀ x ∈ [(([67] : Str), ([] : KVs)), ([67], [])], Sendable 4096 (.run x.1 x.2) := by
    intro x hx
    simp at hx
    subst hx
    exact demo_sendable _ (by decide)
  have hg : Yields demo ⟨0, .idle, false, 4096⟩ [.queryPipe [([67], []), ([67], [])]] [.rows []]
      ⟨2, .reading ⟨[], [[67], [67]]⟩ true [] [] (.summary []) [.answer [] [] (.summary [])] 1, false, 4096⟩ := by
    refine ⟨⟨⟨_, .queryPipe (m := [([67], []), ([67], [])]) hma⟩, hsend⟩, fun m hm => ?_⟩
    cases hm with
    | queryPipe h =>
      obtain ⟨ps, r, h1, ⟨ps', r', h2, h3, rfl⟩, rfl⟩ := h
      cases h1; cases h2; cases h3
      exact ⟨_, _, _, rfl, rfl, rfl, rfl⟩
  obtain ⟨w1, h1, e1, r1⟩ := gives_run (D := demo) close _ (rep_fresh 0 (by decide) (by decide)) hg
  obtain ⟨hl, hin, _, i, r, idx, hh, hrow, _⟩ := r1.body
  have hcc := closeCurrent_direct demo close hh.current hh.stmt rfl rfl rfl (by rw [row_of hrow])
  have e2 : pooledClose demo.peer close w1 = .ok none (w1.stmtDone i) := by
    have e : pooledClose demo.peer close w1 = (if w1.closed then M.pure none else closeCurrent demo.peer close >>= fun err => match err with
      | some e => M.pure (some e)
      | none => rollbackCurrent demo.peer close >>= fun err => match err with
        | some e => M.pure (some (.wrap "Error rolling back transaction when closing connection" (some e)))
        | none => M.pure none : M _ (Option GoErr)) w1 := by
      simp only [pooledClose, get_bind]
      rfl
    rw [e, hl.closed, if_neg (by simp), mbind_ok hcc]
    have : rollbackCurrent demo.peer close (w1.stmtDone i) = .ok none (w1.stmtDone i) := by
      simp only [rollbackCurrent, get_bind]
      rw [show (w1.stmtDone i).transaction = none from r1.trans]
      rfl
    simp only []
    rw [mbind_ok this]
    rfl
  have e3 : handOver (w1.stmtDone i) = some (w1.stmtDone i) := by
    have := r1.err
    simp only [handOver]
    rw [show (w1.stmtDone i).connErr = false from this, show (w1.stmtDone i).closed = false from hl.closed]
    rfl
  obtain ⟨w2, e4, _⟩ := exec_unread (D := demo) close (w := w1.stmtDone i) ⟨hl.closed, hl.srv, hl.budget, hl.cs⟩ rfl (q := [82, 82]) (by decide)
    (a := []) (b := []) (tl := [.val (.success [])]) hin
  have e5 : runCalls demo.peer close .none [.exec [82, 82] []] (w1.stmtDone i) = .ok ([.summary []], .none) w2 :=
    runCalls_cons (rs := []) ((mbind_ok e4).trans rfl) rfl
  simp only [users]
  rw [show runCalls demo.peer close .none [.queryPipe [([67], []), ([67], [])]] (freshConn 0 4096) = _ from e1]
  simp only [e2, e3, e5]
  cases h6 : pooledClose demo.peer close w2 with
  | panic p w3 => rfl
  | deep w3 => rfl
  | ok a w3 =>
    cases a with
    | some e => rfl
    | none => cases h7 : handOver w3 <;> simp [h7]

/-- C69 is false for transactions: the first user begins one and closes the connection, which succeeds. The query of the
second user runs in that transaction. On a connection of its own it does not. -/
theorem c69_false_transaction (close : M (Srv Bool) (Option GoErr)) :
    users txdb.peer close [[.begin], [.exec [67] []]] (freshConn false 4096) = [[.done], [.summary [([116, 120], .bool true)]]] ∧
    users txdb.peer close [[.exec [67] []]] (freshConn false 4096) = [[.summary [([116, 120], .bool false)]]] := by
  have hex : ∀ d, Tenancy txdb d 4096 [[.exec [67] []]] [[.summary [([116, 120], .bool d)]]] := by
    intro d
    refine ⟨_, ⟨d, .idle, false, 4096⟩, _, [], ?_, rfl, rfl, rfl⟩
    refine ⟨⟨⟨_, .exec (ps := []) rfl⟩, demo_sendable _ (by decide)⟩, fun m hm => ?_⟩
    cases hm with
    | exec h => cases h; exact ⟨_, _, _, by simp [Sess.step, txdb]; rfl, rfl, rfl, rfl⟩
  refine ⟨?_, c69_users_partial close (by decide) (by decide) (hex false)⟩
  refine c69_users_partial close (by decide) (by decide) ⟨[.done], ⟨true, .idle, true, 4096⟩, ⟨true, .idle, true, 4096⟩, _, ?_, rfl, rfl, hex true⟩
  refine ⟨⟨⟨_, .begin⟩, by simp⟩, fun m hm => ?_⟩
  cases hm
  exact ⟨_, _, _, rfl, rfl, rfl, rfl⟩

end Bolt
