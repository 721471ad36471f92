import Verif.Proofs.Sim2

/-! The driver simulates the abstract session: reading rows. -/

namespace Bolt
open PackStream

variable {δ : Type} {D : DB δ} (close : M (Srv δ) (Option GoErr)) {w : World (Srv δ)} {h : Handles} {s : Sess δ}
variable {ce : Bool}

/-! ### The open rows -/

theorem cursor_closed {d : δ} {o : Open} (hb : Body w h d o) (hc : o.cursor = .closed) : StaleR w h := by
  cases o with
  | idle => exact hb.2.2.2.2
  | leaked => exact hb.2.2.2.1
  | stmt p => exact hb.2.2.1
  | fresh p hd rs e => simp only [Open.cursor] at hc; split at hc <;> exact absurd hc (by simp)
  | reading p dr hd rs e more n => simp only [Open.cursor] at hc; split at hc <;> exact absurd hc (by simp)
  | ended p dr => exact absurd hc (by simp [Open.cursor])
  | dead p dr => exact absurd hc (by simp [Open.cursor])
  | closed dirty =>
    cases dirty with
    | true => exact absurd hc (by simp [Open.cursor])
    | false => exact hb.2.2.2 rfl

theorem StaleR.row {σ : Type} {w : World σ} {h : Handles} (hs : StaleR w h) {r : Nat} (hr : h.r = some r) : (w.row r).closed = true := by
  obtain ⟨x, h1, h2⟩ := hs r hr
  rw [row_of h1]; exact h2

theorem StaleS.stmt {σ : Type} {w : World σ} {h : Handles} (hs : StaleS w h) {i : Nat} (hr : h.s = some i) : (w.stmt i).closed = true := by
  obtain ⟨x, h1, h2⟩ := hs i hr
  rw [stmt_of h1]; exact h2

/-- Rows of a single query, requested. -/
theorem cursor_at (D : DB δ) {d : δ} {o : Open} (hb : Body w h d o) {p : Prep} {dr : Bool} {hd : KVs} {rs : List (List Val)} {e : Ending}
    (hc : o.cursor = .at p dr hd rs e) :
    p.queries = [] ∧ ∃ w2 r f, h.r = some r ∧ Grows w w2 ∧ Body w2 h d (.reading p dr hd rs e [] 0) ∧
      nextNeo D.peer close r w = nextNeo D.peer close r w2 ∧
      rowsAll D.peer close r w = allLoop D.peer close r (rs.length + (f + 1)) [] w2 := by
  cases o with
  | idle => exact absurd hc (by simp [Open.cursor])
  | leaked => exact absurd hc (by simp [Open.cursor])
  | stmt p => exact absurd hc (by simp [Open.cursor])
  | ended p dr => exact absurd hc (by simp [Open.cursor])
  | dead p dr => exact absurd hc (by simp [Open.cursor])
  | closed dirty => simp only [Open.cursor] at hc; split at hc <;> exact absurd hc (by simp)
  | fresh p' hd' rs' e' =>
    simp only [Open.cursor] at hc
    by_cases hq : p'.queries = []
    case neg => simp [hq] at hc
    rw [if_pos hq] at hc
    simp only [Cursor.at.injEq] at hc
    obtain ⟨rfl, rfl, rfl, rfl, rfl⟩ := hc
    obtain ⟨h1, h2, h3, i, r, h4, h5⟩ := hb
    obtain ⟨b, _, f, w2, rfl, h6, h7⟩ := rowsAll_pull D close h1 h5 rfl rfl (by rw [show (stmtRow hd' i).stmt = i from rfl, stmt_of h4.stmt])
    have hh : D.handle d (.streaming rs' e') .pullAll = (d, e'.reply.1, rs'.map Val.record ++ e'.reply.2) := rfl
    rw [hh] at h6 h7
    have hlen : e'.reply.2.length = 1 := by cases e' <;> rfl
    refine ⟨hq, _, r, 2 + f, h4.row, ?_, ?_, h6, ?_⟩
    · exact ⟨rfl, rfl, rfl, rfl, rfl, .refl _, .modify _ _ _ (fun _ h => h)⟩
    · refine ⟨⟨h1.closed, by rw [restMode_single]; rfl, rfl, h1.cs⟩, ?_, afterOk_single e', i, r, 0, ⟨h4.row, h4.handle, h4.current, h4.stmt⟩,
        ?_, fun _ => ⟨rfl, rfl⟩, fun hn => absurd hq hn⟩
      · rw [restItems_single, net_inbox, h2]; rfl
      · have := row_setRow (f := fun x => { x with consumed := true }) h5
        simpa [stmtRow] using this
    · rw [h7]
      congr 1
      simp only [net_inbox, h2, List.nil_append, List.length_map, List.length_append, hlen]
      omega
  | reading p' dr' hd' rs' e' more n =>
    simp only [Open.cursor] at hc
    by_cases hq : p'.queries = []
    case neg => simp [hq] at hc
    rw [if_pos hq] at hc
    simp only [Cursor.at.injEq] at hc
    obtain ⟨rfl, rfl, rfl, rfl, rfl⟩ := hc
    obtain ⟨h1, h2, h3, i, r, idx, h4, h5, h6, h7⟩ := hb
    obtain ⟨rfl, rfl⟩ := h6 hq
    have hlen : e'.reply.2.length = 1 := by cases e' <;> rfl
    obtain ⟨f, hf⟩ := rowsAll_fuel D close r w
    refine ⟨hq, w, r, f + 2, h4.row, ⟨rfl, rfl, rfl, rfl, rfl, .refl _, .refl _⟩, ⟨h1, h2, h3, i, r, idx, h4, h5, h6, h7⟩, rfl, ?_⟩
    rw [hf]
    congr 1
    simp only [h2, restItems_single, List.length_map, List.length_append, hlen]
    omega

theorem sim_next (hr : RepE ce w h s) : SimulatesE D ce close .next w h s := by
  refine ⟨.next, .next, ?_⟩
  intro s' r hs
  rcases s with ⟨d, o, tx, cs⟩
  simp only [Sess.step] at hs
  cases hc : o.cursor with
  | closed =>
    simp only [hc, Option.some.injEq, Prod.mk.injEq] at hs
    obtain ⟨rfl, rfl⟩ := hs
    refine ⟨w, h, ?_, hr⟩
    cases hh : h.r with
    | none => simp only [Call.run, hh]; rfl
    | some r =>
      simp only [Call.run, hh]
      rw [mbind_ok (nextNeo_closed D.peer close ((cursor_closed hr.body hc).row hh))]
      rfl
  | undefined => simp [hc] at hs
  | «at» p dr hd rs e =>
    obtain ⟨hq, w2, ro, f, h1, hg, h2, h3, _⟩ := cursor_at close D hr.body hc
    have hrun : Call.run D.peer close h .next w = (do M.pure (nextRes (← nextNeo D.peer close ro), h)) w2 := by
      simp only [Call.run, h1]
      rw [mbind_run, mbind_run, h3]
    rw [hrun]
    obtain ⟨h4, h5, h6, i, r', idx, h7, h8, h9, h10⟩ := h2
    obtain rfl : r' = ro := by have := h7.row; rw [h1] at this; exact (Option.some.inj this).symm
    have hrow := row_of h8
    have hconn : (w2.stmt (w2.row r').stmt).conn = true := by rw [hrow]; exact congrArg Stmt.conn (stmt_of h7.stmt)
    cases rs with
    | cons fs rs =>
      simp only [hc, Option.some.injEq, Prod.mk.injEq] at hs
      obtain ⟨rfl, rfl⟩ := hs
      have h11 := nextNeo_record D.peer close (w := w2) (r := r') (fs := fs) (t := restItems rs e [] 0) (by rw [hrow]) (by rw [hrow]) hconn (by rw [h5]; rfl)
      refine ⟨_, h, mbind_ok h11, hr.next (hg.trans' (Grows.net _ _ _ _ _)) ?_⟩
      exact ⟨⟨h4.closed, h4.srv, h4.budget, h4.cs⟩, rfl, h6, i, r', idx, ⟨h1, h7.handle, h7.current, h7.stmt⟩, h8, h9, h10⟩
    | nil =>
      cases e with
      | summary md =>
        simp only [hc, Option.some.injEq, Prod.mk.injEq] at hs
        obtain ⟨rfl, rfl⟩ := hs
        have h11 := nextNeo_end D.peer close (w := w2) (r := r') (md := md) (t := []) (by rw [hrow]) (by rw [hrow]) hconn (by rw [h5]; rfl)
        refine ⟨_, h, mbind_ok h11, hr.next ((hg.trans' (Grows.net w2 _ _ _ _)).trans' (Grows.setRow _ _ (fun _ h => h))) ?_⟩
        exact ⟨⟨h4.closed, h4.srv, h4.budget, h4.cs⟩, rfl, i, r', _, ⟨h1, h7.handle, h7.current, h7.stmt⟩, row_setRow (w := w2.net _ _ _ _) h8, rfl, rfl, rfl, rfl, rfl⟩
      | broken md =>
        simp only [hc, Option.some.injEq, Prod.mk.injEq] at hs
        obtain ⟨rfl, rfl⟩ := hs
        obtain ⟨b, l, _, h11⟩ := h4.consume_failure D close (md := md) (n := 0) (by rw [h5]; rfl)
        have h12 := nextNeo_err D.peer close (w := w2) (r := r') (by rw [hrow]) (by rw [hrow]) hconn h11
        refine ⟨_, h, (mbind_ok h12).trans rfl, hr.next (hg.trans' (Grows.net _ _ _ _ _)) ?_⟩
        exact ⟨⟨h4.closed, rfl, rfl, h4.cs⟩, rfl, i, r', _, ⟨h1, h7.handle, h7.current, h7.stmt⟩, h8, rfl, rfl, rfl⟩

theorem sim_all (hr : RepE ce w h s) : SimulatesE D ce close .all w h s := by
  refine ⟨.all, .all, ?_⟩
  intro s' r hs
  rcases s with ⟨d, o, tx, cs⟩
  simp only [Sess.step] at hs
  cases hc : o.cursor with
  | closed =>
    simp only [hc, Option.some.injEq, Prod.mk.injEq] at hs
    obtain ⟨rfl, rfl⟩ := hs
    refine ⟨w, h, ?_, hr⟩
    cases hh : h.r with
    | none => simp only [Call.run, hh]; rfl
    | some r =>
      obtain ⟨f, hf⟩ := rowsAll_fuel D close r w
      simp only [Call.run, hh, mbind_run, hf, allLoop, nextNeo_closed D.peer close ((cursor_closed hr.body hc).row hh)]
      rfl
  | undefined => simp [hc] at hs
  | «at» p dr hd rs e =>
    obtain ⟨hq, w2, ro, f, h1, hg, h2, _, h3⟩ := cursor_at close D hr.body hc
    have hrun : Call.run D.peer close h .all w = (do M.pure (allRes (← allLoop D.peer close ro (rs.length + (f + 1)) []), h)) w2 := by
      simp only [Call.run, h1]
      rw [mbind_run, mbind_run, h3]
    rw [hrun]
    obtain ⟨h4, h5, h6, i, r', idx, h7, h8, h9, h10⟩ := h2
    obtain rfl : r' = ro := by have := h7.row; rw [h1] at this; exact (Option.some.inj this).symm
    have hrow := row_of h8
    have hconn : (w2.stmt (w2.row r').stmt).conn = true := by rw [hrow]; exact congrArg Stmt.conn (stmt_of h7.stmt)
    cases e with
    | summary md =>
      simp only [hc, Option.some.injEq, Prod.mk.injEq] at hs
      obtain ⟨rfl, rfl⟩ := hs
      obtain ⟨l, h11⟩ := allLoop_summary D close (w := w2) (r := r') (rs := rs) (md := md) (by rw [hrow]) (by rw [hrow]) hconn (by rw [h5, restItems_single]; rfl) f
      refine ⟨_, h, mbind_ok h11, hr.next ((hg.trans' (Grows.net w2 _ _ _ _)).trans' (Grows.setRow _ _ (fun _ h => h))) ?_⟩
      exact ⟨⟨h4.closed, h4.srv, h4.budget, h4.cs⟩, rfl, i, r', _, ⟨h1, h7.handle, h7.current, h7.stmt⟩, row_setRow (w := w2.net _ _ _ _) h8, rfl, rfl, rfl, rfl, rfl⟩
    | broken md =>
      simp only [hc, Option.some.injEq, Prod.mk.injEq] at hs
      obtain ⟨rfl, rfl⟩ := hs
      obtain ⟨b, l, _, h11⟩ := allLoop_broken D close h4 (r := r') (rs := rs) (md := md) (by rw [hrow]) (by rw [hrow]) hconn (by rw [h5, restItems_single]; rfl) f
      refine ⟨_, h, (mbind_ok h11).trans rfl, hr.next (hg.trans' (Grows.net _ _ _ _ _)) ?_⟩
      exact ⟨⟨h4.closed, rfl, rfl, h4.cs⟩, rfl, i, r', _, ⟨h1, h7.handle, h7.current, h7.stmt⟩, h8, rfl, rfl, rfl⟩

/-! ### Pipelines -/

/-- The next query of the pipeline failed. -/
theorem nextPipeline_switch_err {σ : Type} (P : Peer σ) (close : M σ (Option GoErr)) {w w' : World σ} {r s idx : Nat} {md : KVs} {q0 : Str} {qs : List Str} {dr : Bool}
    (h : PipeAt w r s idx md q0 qs dr) {sm : KVs} {t : List Item} {v : Val} {e : GoErr}
    (hi : w.inbox = .val (.success sm) :: t) (hl : idx + 1 ≠ qs.length) (he : e.isEOF = false)
    (h5 : consume P close (w.net w.sink w.srv t (w.log ++ [.recv (.val (.success sm))])) = .ok (v, some e) w') :
    nextPipeline P close r w =
      .ok ⟨none, none, none, some (.wrap "An error occurred getting next set of rows from pipeline command: %#v" (some e))⟩ w' := by
  have h4 := (withConn_ok (k := consume P close) (s := s) (by rw [stmt_of h.stmt])).trans (consume_val P close hi (by simp))
  have h6 := (withConn_ok (k := consume P close) (s := s) (w := w.net w.sink w.srv t
    (w.log ++ [.recv (.val (.success sm))])) (by rw [net_stmt, stmt_of h.stmt])).trans h5
  unfold nextPipeline
  simp only [get_bind, row_of h.row, Bool.false_eq_true, if_false]
  rw [mbind_ok h4]
  simp only [get_bind, net_stmt, stmt_of h.stmt, if_neg hl]
  rw [mbind_ok h6]
  simp [he]

theorem nextPipeline_closed {σ : Type} (P : Peer σ) (close : M σ (Option GoErr)) {w : World σ} {r : Nat} (h1 : (w.row r).closed = true) :
    nextPipeline P close r w = .ok ⟨none, none, none, some (.new "Rows are already closed")⟩ w := by
  simp [nextPipeline, h1]

theorem afterOk_next {h : KVs} {rs : List (List Val)} {e : Ending} {more : List Outcome} {n : Nat} (hm : MoreOk (.answer h rs e :: more) n) :
    AfterOk e more (n - 1) ∧ 0 < n := by
  cases e with
  | broken md => exact ⟨hm.1, hm.2⟩
  | summary md => exact ⟨hm.2, hm.1⟩

theorem replies_next {h : KVs} {rs : List (List Val)} {e : Ending} {more : List Outcome} {n : Nat} (hm : MoreOk (.answer h rs e :: more) n) :
    (replies (.answer h rs e :: more) n).map Item.val = .val (.success h) :: restItems rs e more (n - 1) := by
  cases e with
  | broken md => obtain ⟨rfl, _⟩ := hm; simp [replies, restItems, Ending.reply]
  | summary md => simp [replies, restItems, Ending.reply]

theorem restMode_next {sm h : KVs} {rs : List (List Val)} {e : Ending} {more : List Outcome} :
    restMode (.summary sm) (.answer h rs e :: more) = restMode e more := by
  cases e <;> simp [restMode, restFails, List.findSome?, Outcome.failure?]

/-- A call of `NextPipeline` on open rows. -/
theorem nextPipe_run {r : Nat} (hh : h.r = some r) {x : PipeRes} {w' : World (Srv δ)} (h1 : nextPipeline D.peer close r w = .ok x w') :
    Call.run D.peer close h .nextPipe w = gotPipe h x w' := by
  simp only [Call.run, hh]
  rw [mbind_ok h1]

theorem gotPipe_next {r : Nat} {md md' : KVs} (hm : (w.row r).md = md') :
    gotPipe h ⟨none, some md, some r, none⟩ w = .ok (.next md md', { h with r := some r }) w := by
  simp [gotPipe, hm]

theorem sim_nextPipe (hr : RepE ce w h s) : SimulatesE D ce close .nextPipe w h s := by
  refine ⟨.nextPipe, .nextPipe, ?_⟩
  intro s' r hs
  rcases s with ⟨d, o, tx, cs⟩
  have stale : StaleR w h → Call.run D.peer close h .nextPipe w = .ok (.localError, h) w := by
    intro hst
    cases hh : h.r with
    | none => simp only [Call.run, hh]; rfl
    | some r => exact (nextPipe_run close hh (nextPipeline_closed D.peer close (hst.row hh))).trans rfl
  have hb := hr.body
  cases o with
  | idle => simp only [Sess.step, Option.some.injEq, Prod.mk.injEq] at hs; obtain ⟨rfl, rfl⟩ := hs; exact ⟨w, h, stale (cursor_closed hb rfl), hr⟩
  | leaked => simp only [Sess.step, Option.some.injEq, Prod.mk.injEq] at hs; obtain ⟨rfl, rfl⟩ := hs; exact ⟨w, h, stale (cursor_closed hb rfl), hr⟩
  | stmt p => simp only [Sess.step, Option.some.injEq, Prod.mk.injEq] at hs; obtain ⟨rfl, rfl⟩ := hs; exact ⟨w, h, stale (cursor_closed hb rfl), hr⟩
  | fresh p hd rs e => simp [Sess.step] at hs
  | ended p dr => simp [Sess.step] at hs
  | dead p dr => simp [Sess.step] at hs
  | closed dirty =>
    cases dirty with
    | true => simp [Sess.step] at hs
    | false =>
      simp only [Sess.step, Bool.false_eq_true, if_false, Option.some.injEq, Prod.mk.injEq] at hs
      obtain ⟨rfl, rfl⟩ := hs
      exact ⟨w, h, stale (hb.2.2.2 rfl), hr⟩
  | reading p dr hd rs e more n =>
    obtain ⟨h4, h5, h6, i, r', idx, h7, h8, h9, h10⟩ := hb
    by_cases hq : p.queries = []
    · simp [Sess.step, hq] at hs
    have hidx := h10 hq
    have hp : PipeAt w r' i idx hd p.query p.queries dr := ⟨h8, h7.stmt⟩
    have run := fun {x w'} => @nextPipe_run δ D close w h r' h7.row x w'
    simp only [Sess.step, if_neg hq] at hs
    cases rs with
    | cons fs rs =>
      simp only [Option.some.injEq, Prod.mk.injEq] at hs
      obtain ⟨rfl, rfl⟩ := hs
      refine ⟨_, h, (run (nextPipeline_record D.peer close hp (t := restItems rs e more n) (by rw [h5]; rfl))).trans rfl, hr.next (Grows.net _ _ _ _ _) ?_⟩
      exact ⟨⟨h4.closed, h4.srv, h4.budget, h4.cs⟩, rfl, h6, i, r', idx, ⟨h7.row, h7.handle, h7.current, h7.stmt⟩, h8, h9, h10⟩
    | nil =>
      cases e with
      | broken md =>
        simp only [Option.some.injEq, Prod.mk.injEq] at hs
        obtain ⟨rfl, rfl⟩ := hs
        simp only [AfterOk] at h6
        subst h6
        obtain ⟨b, l, _, h11⟩ := h4.consume_failure D close (md := md) (n := 2 * n) (by rw [h5]; simp [restItems, replies, Ending.reply])
        refine ⟨_, h, (run (nextPipeline_err D.peer close hp h11)).trans rfl, hr.next (Grows.net _ _ _ _ _) ?_⟩
        exact ⟨⟨h4.closed, rfl, rfl, h4.cs⟩, rfl, i, r', _, ⟨h7.row, h7.handle, h7.current, h7.stmt⟩, h8, rfl, rfl, rfl⟩
      | summary sm =>
        simp only [AfterOk] at h6
        cases more with
        | nil =>
          simp only [Option.some.injEq, Prod.mk.injEq] at hs
          obtain ⟨rfl, rfl⟩ := hs
          simp only [MoreOk] at h6
          subst h6
          refine ⟨_, h, (run (nextPipeline_last D.peer close hp (sm := sm) (t := []) (by rw [h5]; rfl) hidx)).trans rfl,
            hr.next ((Grows.net w _ _ _ _).trans' (Grows.setRow _ _ (fun _ h => h))) ?_⟩
          exact ⟨⟨h4.closed, h4.srv, h4.budget, h4.cs⟩, rfl, i, r', _, ⟨h7.row, h7.handle, h7.current, h7.stmt⟩,
            row_setRow (w := w.net _ _ _ _) h8, rfl, rfl, rfl, rfl, rfl⟩
        | cons o more =>
          cases o with
          | refused md =>
            simp only [Option.some.injEq, Prod.mk.injEq] at hs
            obtain ⟨rfl, rfl⟩ := hs
            obtain ⟨rfl, hn⟩ := h6
            have hl : Live (w.net w.sink w.srv ((replies [.refused md] n).map .val) (w.log ++ [.recv (.val (.success sm))])) d .failed :=
              ⟨h4.closed, h4.srv, h4.budget, h4.cs⟩
            obtain ⟨b, l, _, h11⟩ := hl.consume_failure D close (md := md) (n := 2 * n - 1) (by simp [replies])
            refine ⟨_, h, (run (nextPipeline_switch_err D.peer close hp (by rw [h5]; rfl) (by omega) rfl h11)).trans rfl,
              hr.next ((Grows.net w _ _ _ _).trans' (Grows.net _ _ _ _ _)) ?_⟩
            exact ⟨⟨h4.closed, rfl, rfl, h4.cs⟩, rfl, i, r', _, ⟨h7.row, h7.handle, h7.current, h7.stmt⟩, h8, rfl, rfl, rfl⟩
          | answer hd' rs' e' =>
            simp only [Option.some.injEq, Prod.mk.injEq] at hs
            obtain ⟨rfl, rfl⟩ := hs
            obtain ⟨h11, h12⟩ := afterOk_next h6
            have h13 : w.inbox = .val (.success sm) :: .val (.success hd') :: restItems rs' e' more (n - 1) := by
              rw [h5, ← replies_next h6]; rfl
            have h14 := nextPipeline_switch D.peer close hp h13 (by omega)
            refine ⟨_, { h with r := some w.rows.length }, (run h14).trans (gotPipe_next (md' := hd') ?_), ?_⟩
            · simp [World.row, nextRow]
            · refine hr.next ⟨rfl, rfl, rfl, rfl, rfl, .modify _ _ _ (fun _ h => h), .append _ _⟩ ?_
              rw [restMode_next] at h4
              refine ⟨⟨h4.closed, h4.srv, h4.budget, h4.cs⟩, rfl, h11, i, w.rows.length, idx + 1, ⟨rfl, ?_, h7.current, ?_⟩, ?_, fun hn => absurd hn hq, fun _ => by omega⟩
              · cases dr with
                | true =>
                  have := h7.handle
                  simp only [if_true] at this ⊢
                  intro j hj
                  obtain ⟨x, hx1, hx2⟩ := this j hj
                  exact KeepS.modify w.stmts i (fun x => { x with rows := some w.rows.length }) (fun _ h => h) j x hx1 hx2
                | false => exact h7.handle
              · simp [h7.stmt]
              · simp [nextRow]

end Bolt
