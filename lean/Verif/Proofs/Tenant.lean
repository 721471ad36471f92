import Verif.Spec.Tenant
import Verif.Proofs.Direct
import Verif.Proofs.Safety2

/-! Users of a pooled connection follow the abstract sessions. -/

namespace Bolt
open PackStream

variable {δ : Type} {D : DB δ} (close : M (Srv δ) (Option GoErr)) {ce : Bool}

theorem gives_run : ∀ (cs : List (Call KVs)) {w : World (Srv δ)} {h : Handles} {s s' : Sess δ} {rs : List Res}, RepE ce w h s → Yields D s cs rs s' →
    ∃ w' h', runCalls D.peer close h cs w = .ok (rs, h') w' ∧ RepE ce w' h' s'
  | [], w, h, s, s', rs, hr, hg => by
    obtain ⟨rfl, rfl⟩ := hg
    exact ⟨w, h, rfl, hr⟩
  | c :: cs, w, h, s, s', rs, hr, hg => by
    obtain ⟨hd, hg⟩ := hg
    obtain ⟨m, hm, h1⟩ := simulatesE (D := D) close hr hd
    obtain ⟨s1, r, rs', h2, rfl, h3⟩ := hg m hm
    obtain ⟨w1, h', h4, h5⟩ := h1 s1 r h2
    obtain ⟨w2, h'', h6, h7⟩ := gives_run cs h5 h3
    exact ⟨w2, h'', runCalls_cons h4 h6, h7⟩

theorem pooledClose_release {w : World (Srv δ)} {h : Handles} {s s' : Sess δ} (hr : RepE ce w h s) (hs : s.release = some (s', none)) :
    ∃ w', pooledClose D.peer close w = .ok none w' ∧ RepE ce w' h s' ∧ s'.opn = .idle ∧ s'.tx = s.tx := by
  obtain ⟨w', res, h1, _, h3, h4⟩ := closeOpen_release (D := D) close hr hs
  obtain rfl := h3.mpr rfl
  have hi := (release_tx hs).2.2.2 rfl
  have hc : w.closed = false := by
    rcases s with ⟨d, o, tx, cs⟩
    have hb := hr.body
    cases o with
    | idle => exact hb.1.closed
    | leaked => exact hb.1.closed
    | stmt p => exact hb.1.closed
    | fresh p hd rs e => exact hb.1.closed
    | reading p dr hd rs e more n => exact hb.1.closed
    | ended p dr => exact hb.1.closed
    | dead p dr => exact hb.1.closed
    | closed dirty => simp [Sess.release] at hs
  refine ⟨w', ?_, h4, hi, (release_tx hs).1⟩
  have run : pooledClose D.peer close w = (do
        match ← closeOpen close D.peer with
        | some e => M.pure (some e)
        | none =>
          let err ← (do
            match ← M.get fun w => w.transaction with
            | none => M.pure none
            | some t => txFinish D.peer close qRollback t)
          match err with
          | some e => M.pure (some (.wrap "Error rolling back transaction when closing connection" (some e)))
          | none => M.pure none : M (Srv δ) (Option GoErr)) w := by
    simp only [pooledClose, get_bind, hc, Bool.false_eq_true, if_false]
    rfl
  rw [run, mbind_ok h1]
  simp [h4.trans, mbind_run]

theorem handOver_rep {w : World (Srv δ)} {h : Handles} {s : Sess δ} (hr : RepE false w h s) (ho : s.opn = .idle) :
    handOver w = some w ∧ RepE false w .none ⟨s.db, .idle, false, s.cs⟩ := by
  have hb := hr.body
  rw [ho] at hb
  have hi : Idle w s.db := idle_of_body hr.trans hb
  refine ⟨?_, ?_⟩
  · simp [handOver, hr.err, hb.1.closed]
  · have := hi.rep hr.sock
    unfold Rep at this
    rw [hr.err, hr.cs.1] at this
    exact this

theorem tenancy_users : ∀ (us : List (List (Call KVs))) {w : World (Srv δ)} {d : δ} {cs : Nat} {out : List (List Res)},
    RepE false w .none ⟨d, .idle, false, cs⟩ → Tenancy D d cs us out → users D.peer close us w = out
  | [], w, d, cs, out, _, ht => ht.symm
  | u :: us, w, d, cs, out, hr, ht => by
    obtain ⟨rs, s, s', out', hg, hs, rfl, ht⟩ := ht
    obtain ⟨w1, h1, e1, r1⟩ := gives_run (D := D) close u hr hg
    obtain ⟨w2, e2, r2, hi, _⟩ := pooledClose_release (D := D) close r1 hs
    obtain ⟨e3, r3⟩ := handOver_rep r2 hi
    simp only [users, e1, e2, e3]
    rw [tenancy_users us r3 ht]

section
variable {σ : Type} {P : Peer σ} {cl : M σ (Option GoErr)} (hc : ∀ w, Inner cl w)
include hc

theorem pooledClose_def (w : World σ) : pooledClose P cl w =
    (if w.closed then M.pure none else closeCurrent P cl >>= fun err => match err with
      | some e => M.pure (some e)
      | none => rollbackCurrent P cl >>= fun err => match err with
        | some e => M.pure (some (.wrap "Error rolling back transaction when closing connection" (some e)))
        | none => M.pure none : M σ (Option GoErr)) w := by
  simp only [pooledClose, get_bind]
  rfl

theorem inner_pooledClose (w : World σ) : Inner (pooledClose P cl) w := by
  intro hs
  rw [pooledClose_def hc]
  refine (?_ : Inner _ _) hs
  split
  · exact Inner.pure _ _
  · refine Inner.bind (inner_closeCurrent hc w) fun a w1 h1 => ?_
    cases a with
    | some e => exact Inner.pure _ _
    | none =>
      refine Inner.bind (inner_rollbackCurrent hc w1) fun a w2 h2 => ?_
      cases a <;> exact Inner.pure _ _

omit hc in
theorem inner_pooledN (n : Nat) : ∀ w : World σ, Inner (pooledN P n) w := by
  induction n with
  | zero => intro w; exact .of (Int.refl w)
  | succ n ih => exact fun w => inner_pooledClose ih w

/-- After a `Close` that returned nil nothing is open. -/
theorem pooledClose_none {w w' : World σ} (hs : Sound w) (hcl : w.closed = false) (h : pooledClose P cl w = .ok none w') : w'.statement = none := by
  rw [pooledClose_def hc, hcl, if_neg (by simp), mbind_run] at h
  cases h1 : closeCurrent P cl w with
  | panic p w1 => rw [h1] at h; cases h
  | deep w1 => rw [h1] at h; cases h
  | ok a w1 =>
    rw [h1] at h
    cases a with
    | some e => cases h
    | none =>
      have n1 := closeCurrent_ok hs h1
      simp only [mbind_run] at h
      cases h2 : rollbackCurrent P cl w1 with
      | panic p w1 => rw [h2] at h; cases h
      | deep w1 => rw [h2] at h; cases h
      | ok a w2 =>
        rw [h2] at h
        have n2 := ((inner_rollbackCurrent hc w1).int ((inner_closeCurrent hc w).int hs h1 |>.sound hs) h2).none n1
        cases a with
        | some e => cases h
        | none => cases h; exact n2

omit hc in
theorem PoolReach.keeps {n : Nat} {w w' : World σ} (h : PoolReach P n w w') (ht : Tidy w) : Tidy w' ∧ Later w w' := by
  induction h with
  | refl => exact ⟨ht, Later.refl _⟩
  | call _ ho _ hr ih =>
    obtain ⟨t1, l1⟩ := ih
    have k := keeps_op (P := P) (close := pooledN P n) (inner_pooledN n) t1 ho
    have l2 := k.1
    rw [hr] at l2
    exact ⟨(k.2 _ _ hr).1, l1.tr l2⟩
  | close _ hr ih =>
    obtain ⟨t1, l1⟩ := ih
    have k := (inner_pooledClose (P := P) (inner_pooledN (P := P) n) _).keeps t1
    have l2 := k.1
    rw [hr] at l2
    exact ⟨(k.2 _ _ hr).1, l1.tr l2⟩

end

/-- `ExecNeo` when two successes wait unread: they are taken for the answers. -/
theorem exec_unread {d : δ} {m : Mode} {w : World (Srv δ)} (h : Live w d m) (hn : w.statement = none) {q : Str} (hq : q.length ≤ 60000) {a b : KVs} {tl : List Item}
    (hi : w.inbox = .val (.success a) :: .val (.success b) :: tl) :
    ∃ w', execNeo D.peer close q [] w = .ok (.ok b) w' ∧ w'.srv.mode = (D.handle2 d m (.run q []) .pullAll).2.1 := by
  let w1 : World (Srv δ) := { w with stmts := w.stmts ++ [{ query := q, queries := [], conn := true, closed := false, rows := none }] }
  have e : w1.stmt w.stmts.length = { query := q, queries := [], conn := true, closed := false, rows := none } := stmt_append w _
  have hl : Live w1 d m := ⟨h.closed, h.srv, h.budget, h.cs⟩
  obtain ⟨ps, bs, h1, h2, h3⟩ := sendRunPullAll_ok D hl (q := q) (kvs := []) (tiny_sendable h.cs.1 h.cs.2 (tiny_run hq))
  cases h1
  have h4 : ∃ l, sendRunPullAllConsumeAll D.peer close q [] w1 = .ok (.success a, .success b, none)
        (w1.net ⟨w.sink.out ++ bs, none⟩ ⟨(D.handle2 d m (.run q []) .pullAll).1, (D.handle2 d m (.run q []) .pullAll).2.1, []⟩
          (tl ++ (D.handle2 d m (.run q []) .pullAll).2.2.map .val) l) := by
    refine ⟨((w.log ++ [.send (.run q []) none, .send .pullAll none]) ++ [.recv (.val (.success a))]) ++ [] ++ [.recv (.val (.success b))], ?_⟩
    unfold sendRunPullAllConsumeAll
    rw [mbind_ok h3]
    refine (mbind_ok (consume_val D.peer close (t := .val (.success b) :: (tl ++ (D.handle2 d m (.run q []) .pullAll).2.2.map .val))
      (by show w.inbox ++ _ = _; rw [hi]; rfl) (by simp))).trans ?_
    refine (mbind_ok (consumeAll_success D.peer close (vs := []) (md := b) (t := tl ++ (D.handle2 d m (.run q []) .pullAll).2.2.map .val) rfl (by simp))).trans rfl
  obtain ⟨l, h4⟩ := h4
  have h5 : stmtExecNeo D.peer close w.stmts.length [] w1 = .ok (.ok b)
        (w1.net ⟨w.sink.out ++ bs, none⟩ ⟨(D.handle2 d m (.run q []) .pullAll).1, (D.handle2 d m (.run q []) .pullAll).2.1, []⟩
          (tl ++ (D.handle2 d m (.run q []) .pullAll).2.2.map .val) l) := by
    have hg : guardStmt w.stmts.length w1 = .ok none w1 := by simp [guardStmt, e]
    unfold stmtExecNeo
    rw [mbind_ok hg]
    simp only [get_bind]
    rw [mbind_ok ((withConn_ok (by rw [e])).trans (by rw [e]; exact h4))]
    rfl
  have hg : guardConn w = .ok none w := by simp [guardConn, hn, h.closed]
  refine ⟨(w1.net ⟨w.sink.out ++ bs, none⟩ ⟨(D.handle2 d m (.run q []) .pullAll).1, (D.handle2 d m (.run q []) .pullAll).2.1, []⟩
          (tl ++ (D.handle2 d m (.run q []) .pullAll).2.2.map .val) l).stmtDone w.stmts.length, ?_, rfl⟩
  · unfold execNeo
    rw [mbind_ok hg]
    simp only []
    rw [mbind_ok (show newStmt q [] w = .ok w.stmts.length w1 from rfl), mbind_ok h5,
      mbind_ok (stmtClose_norows D.peer close (s := w.stmts.length) (by simp [e]) (by simp [e]) (by simp [e]))]
    rfl

end Bolt
