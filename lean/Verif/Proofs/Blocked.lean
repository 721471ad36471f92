import Verif.Proofs.Direct
import Verif.Proofs.QueryAll

/-! Calls that wait for a message that does not come, and calls that end a transaction. -/

namespace Bolt
open PackStream

variable {δ : Type} {D : DB δ} {close : M (Srv δ) (Option GoErr)} {w : World (Srv δ)} {h : Handles} {d : δ} {tx : Bool} {cs : Nat}

/-- Reading all the records. -/
theorem ran_records {p : Prep} (hq : p.queries = []) {dr : Bool} {hd : KVs} {e : Ending} : ∀ (rs : List (List Val)) {w : World (Srv δ)} {h : Handles},
    Rep w h ⟨d, .reading p dr hd rs e [] 0, tx, cs⟩ →
    Ran D close w h (List.replicate rs.length .next) (rs.map Res.row) ⟨d, .reading p dr hd [] e [] 0, tx, cs⟩ := by
  intro rs
  induction rs with
  | nil => exact fun hr => .nil hr
  | cons r rs ih =>
    intro w h hr
    exact .step (m := .next) hr deliv_next (fun m' h => by cases h; rfl) (s1 := ⟨d, .reading p dr hd rs e [] 0, tx, cs⟩) (by simp [Sess.step, Open.cursor, hq]) fun hr' => ih hr'

/-- A direct query and all its records. -/
theorem ran_query_records (hr : Rep w h ⟨d, .idle, tx, cs⟩) {q : Str} {kvs : KVs} (hs : Sendable cs (.run q kvs)) :
    ∃ ps, MeansKVs kvs ps ∧ ∀ hd rs e, (D.exec d q ps).2 = .answer hd rs e →
      Ran D close w h (.query q kvs :: List.replicate rs.length .next) (.rows hd :: rs.map Res.row)
        ⟨(D.exec d q ps).1, .reading ⟨q, []⟩ true hd [] e [] 0, tx, cs⟩ := by
  obtain ⟨ps0, hps0⟩ := sendable_means hs
  obtain ⟨m, h1, h2⟩ := simulates (D := D) (c := .query q kvs) close hr ⟨⟨_, .query hps0⟩, hs⟩
  cases h1 with
  | query h1 =>
  rename_i ps
  refine ⟨ps, h1, fun hd rs e ha => ?_⟩
  rcases hx : D.exec d q ps with ⟨d1, o1⟩
  rw [hx] at ha
  simp only at ha
  subst ha
  obtain ⟨w1, h1', e1, hr1⟩ := h2 ⟨d1, .reading ⟨q, []⟩ true hd rs e [] 0, tx, cs⟩ (.rows hd) (by simp [Sess.step, hx])
  obtain ⟨w2, h3, e2, hr2⟩ := ran_records (D := D) (close := close) (p := ⟨q, []⟩) rfl rs hr1
  exact ⟨w2, h3, runCalls_cons e1 e2, hr2⟩

/-- Reading past the end waits. -/
theorem next_ended {p : Prep} {dr : Bool} (hr : Rep w h ⟨d, .ended p dr, tx, cs⟩) :
    runCalls D.peer close h [.next] w = .ok ([.localError], h) w.timedOut := by
  obtain ⟨hl, hi, i, r, x, hh, hx, h1, h2, h3, h4, h5⟩ := hr.body
  have e := row_of hx
  have hc := nextNeo_err D.peer close (w := w) (r := r) (by rw [e]; exact h2) (by rw [e]; exact h3) (by rw [e, h1, stmt_of hh.stmt])
    (consume_blocked D close hl (by simp) hi)
  refine runCalls_cons (rs := []) (h1 := h) (w1 := w.timedOut) ?_ rfl
  unfold Call.run
  simp only [hh.row]
  exact (mbind_ok hc).trans rfl

/-- Closing rows that met a failure waits. -/
theorem close_failed {p : Prep} (hq : p.queries = []) {dr : Bool} {hd md : KVs} (hr : Rep w h ⟨d, .reading p dr hd [] (.broken md) [] 0, tx, cs⟩) :
    ∃ w', runCalls D.peer close h [.next, .closeRows] w = .ok ([.failure md, .localError], h) w' ∧ w'.connErr = true ∧ w'.srv = ⟨d, .ready, []⟩ ∧
      w'.statement.isSome = true ∧ w'.closed = false := by
  obtain ⟨hl, hi, _, i, r, idx, hh, hrow, h1, _⟩ := hr.body
  obtain ⟨b, l, _, hc⟩ := hl.consume_failure D close (md := md) (n := 0) hi
  have e := row_of hrow
  have hn := nextNeo_err D.peer close (w := w) (r := r) (by rw [e]) (by rw [e]) (by rw [e, stmt_of hh.stmt]) hc
  let w1 := w.net ⟨w.sink.out ++ b, none⟩ ⟨d, .ready, []⟩ [] (w.log ++ l)
  have hl1 : Live w1 d .ready := hl.net _ _ _
  have hb := consumeAll_blocked D close hl1 (by simp) rfl
  refine ⟨w1.timedOut, ?_, rfl, rfl, by show w.statement.isSome = true; rw [hh.current]; rfl, hl.closed⟩
  refine runCalls_cons (r := .failure md) (rs := [.localError]) (h1 := h) (w1 := w1) ?_ (runCalls_cons (r := .localError) (rs := []) (h1 := h) (w1 := w1.timedOut) ?_ rfl)
  · unfold Call.run
    simp only [hh.row]
    exact (mbind_ok hn).trans rfl
  · unfold Call.run
    simp only [hh.row]
    have e1 : w1.row r = w.row r := rfl
    have e2 : w1.stmt i = w.stmt i := rfl
    have hd1 : rowsDrain D.peer close r w1 = .ok (some (.wrap "An error occurred clearing out unconsumed stream" (some (readErr .badConn)))) w1.timedOut := by
      unfold rowsDrain
      simp only [e1, e]
      have e3 : numConsume (w1.stmt i).queries.length idx = 1 := by rw [e2, stmt_of hh.stmt]; simp [numConsume, hq]
      simp only [e3]
      have hb2 : consumeAllMultiple D.peer close 1 w1 = .ok (some (readErr .badConn)) w1.timedOut := (mbind_ok hb).trans rfl
      have hb3 : withConn i (consumeAllMultiple D.peer close 1) w1 = .ok (some (readErr .badConn)) w1.timedOut := by
        rw [withConn_ok (by rw [e2, stmt_of hh.stmt])]; exact hb2
      exact (mbind_ok hb3).trans rfl
    have hcl : rowsClose D.peer close r w1 = .ok (some (.wrap "An error occurred clearing out unconsumed stream" (some (readErr .badConn)))) w1.timedOut := by
      unfold rowsClose
      refine (mbind_ok (x := M.get fun w => (w.row r).closed) (a := false) (w' := w1) ?_).trans ?_
      · show Out.ok (w1.row r).closed w1 = _; rw [e1, e]
      · exact (mbind_ok hd1).trans rfl
    exact (mbind_ok hcl).trans rfl

/-- COMMIT or ROLLBACK reading its own answer. -/
theorem finish_quiet {w1 : World (Srv δ)} {q : Str} (hq : q.length ≤ 60000) {t : Nat} (ht : w.txClosed t = false)
    (hc : closeCurrent D.peer close w = .ok none w1) (hl : Live w1 d .ready) (hi : w1.inbox = []) (hst : w1.statement = none) (htr : w1.transaction = none)
    (hquiet : (D.exec d q []).2.isQuiet = true) :
    ∃ res w', txFinish D.peer close q t w = .ok res w' ∧ errRes res = (D.exec d q []).2.cmdRes ∧ Idle w' (D.exec d q []).1 := by
  have hqu : (D.exec d q []).2.quiet := by
    cases ho : (D.exec d q []).2 with
    | refused md => trivial
    | answer hd rs e => rw [ho] at hquiet; simpa [Outcome.quiet, Outcome.isQuiet] using hquiet
  obtain ⟨b, l, h1, run, pull, err, h2, h3⟩ := runSingle_ok D close hl hi hq hqu
  have idle : ∀ tr txs, tr = none → Idle { w1.net ⟨w1.sink.out ++ b, none⟩ ⟨(D.exec d q []).1, .ready, []⟩ [] (w1.log ++ l) with transaction := tr, txs := txs } (D.exec d q []).1 :=
    fun tr txs htr => ⟨⟨hl.closed, rfl, rfl, rfl⟩, hst, htr, hl.cs⟩
  have fails : ∀ md, err = some (queryErr md) → txFinish D.peer close q t w =
      .ok (some (.wrap "An error occurred finishing transaction" (some (queryErr md)))) (w1.net ⟨w1.sink.out ++ b, none⟩ ⟨(D.exec d q []).1, .ready, []⟩ [] (w1.log ++ l)) := by
    intro md he
    subst he
    unfold txFinish
    show (if w.txClosed t = true then _ else _ : M (Srv δ) (Option GoErr)) w = _
    rw [if_neg (by rw [ht]; simp)]
    show (closeCurrent D.peer close >>= _) w = _
    rw [mbind_ok hc]
    show (sendRunPullAllConsumeSingle D.peer close q [] >>= _) w1 = _
    rw [mbind_ok h2]
    rfl
  cases ho : (D.exec d q []).2 with
  | refused md =>
    rw [ho] at h3
    exact ⟨_, _, fails md h3, rfl, idle w1.transaction w1.txs htr⟩
  | answer hd rs e =>
    cases e with
    | broken md =>
      rw [ho] at h3
      exact ⟨_, _, fails md h3, rfl, idle w1.transaction w1.txs htr⟩
    | summary md =>
      rw [ho] at h3
      obtain ⟨rfl, rfl, rfl⟩ := h3
      exact ⟨none, _, txFinish_run D close ht hc h2, rfl, idle none _ rfl⟩

/-- The call of `Finish`. -/
theorem finish_call {c : Call KVs} {q : Str} (hf : Finish c q) {t : Nat} (ht : h.t = some t) {res : Option GoErr} {w' : World (Srv δ)}
    (h1 : txFinish D.peer close q t w = .ok res w') : runCalls D.peer close h [c] w = .ok ([errRes res], h) w' := by
  refine runCalls_cons (rs := []) (h1 := h) (w1 := w') ?_ rfl
  cases hf <;> unfold Call.run <;> simp only [ht] <;> exact (mbind_ok h1).trans rfl

theorem Finish.short {c : Call KVs} {q : Str} (hf : Finish c q) : q.length ≤ 60000 := by cases hf <;> decide

/-- Ending a transaction, the rows of a direct query read to the end. -/
theorem finish_ended {p : Prep} (hr : Rep w h ⟨d, .ended p true, true, cs⟩) {c : Call KVs} {q : Str} (hf : Finish c q) (hquiet : (D.exec d q []).2.isQuiet = true) :
    ∃ w', runCalls D.peer close h [c] w = .ok ([(D.exec d q []).2.cmdRes], h) w' ∧ Idle w' (D.exec d q []).1 := by
  obtain ⟨hl, hi, i, r, x, hh, hx, h1, h2, h3, h4, h5⟩ := hr.body
  obtain ⟨t, ht, htx⟩ := hr.tx
  obtain ⟨res, w', e1, e2, e3⟩ := finish_quiet (D := D) (close := close) (w := w) (w1 := w.stmtDone i) (d := d) hf.short (t := t) (by simp [World.txClosed, htx])
    (closeCurrent_direct D close hh.current hh.stmt rfl rfl rfl (by rw [row_of hx]; exact h5)) ⟨hl.closed, hl.srv, hl.budget, hl.cs⟩ hi rfl hr.trans hquiet
  exact ⟨w', by rw [← e2]; exact finish_call hf ht e1, e3⟩

/-- Ending a transaction in a state whose rows can be drained. -/
theorem finish_drained {o : Open} {p : Prep} (hr : Rep w h ⟨d, o, true, cs⟩) (ho : o.drained = some (p, false, none)) {c : Call KVs} {q : Str} (hf : Finish c q)
    (hquiet : (D.exec d q []).2.isQuiet = true) :
    ∃ w' h', runCalls D.peer close h [c] w = .ok ([(D.exec d q []).2.cmdRes], h') w' ∧ Idle w' (D.exec d q []).1 := by
  have hrel : (⟨d, o, true, cs⟩ : Sess δ).release = some (⟨d, .idle, true, cs⟩, none) := by
    cases o <;> simp only [Open.drained] at ho <;> first | (cases ho; done) | skip
    all_goals simp_all [Sess.release]
  have hcmd : ∃ s', (⟨d, .idle, true, cs⟩ : Sess δ).command D q false = some (s', (D.exec d q []).2.cmdRes) ∧ s'.opn = .idle ∧ s'.db = (D.exec d q []).1 := by
    unfold Sess.command
    rcases hx : D.exec d q [] with ⟨d1, o1⟩
    rw [hx] at hquiet
    cases o1 with
    | refused md => exact ⟨_, rfl, rfl, rfl⟩
    | answer hd rs e =>
      have : rs = [] := by simpa [Outcome.isQuiet] using hquiet
      subst this
      cases e <;> exact ⟨_, rfl, rfl, rfl⟩
  obtain ⟨s', h1, h2, h3⟩ := hcmd
  have hfin : (⟨d, o, true, cs⟩ : Sess δ).finish D q = some (s', (D.exec d q []).2.cmdRes) := by
    unfold Sess.finish
    simp [hrel, h1]
  rcases finish_ok (D := D) close hr hf.short hfin with ⟨h4, h5, h6⟩ | ⟨t, res, w', h4, h5, h6, h7⟩
  · obtain ⟨t, ht, _⟩ := hr.tx
    rw [h4] at ht; cases ht
  · refine ⟨w', h, by rw [← h6]; exact finish_call hf h4 h5, ?_⟩
    obtain ⟨db, opn, tx', cs'⟩ := s'
    simp only at h2 h3
    subst h2 h3
    exact h7.rep.idle

/-- BEGIN. -/
theorem ran_begin (hr : Rep w h ⟨d, .idle, tx, cs⟩) {bh bm : KVs} (hb : (D.exec d qBegin []).2 = .answer bh [] (.summary bm)) :
    Ran D close w h [.begin] [.done] ⟨(D.exec d qBegin []).1, .idle, true, cs⟩ := by
  refine .step (m := .begin) hr ⟨⟨_, .begin⟩, by simp⟩ (fun _ h => by cases h; rfl) (s1 := ⟨(D.exec d qBegin []).1, .idle, true, cs⟩) ?_ fun hr => .nil hr
  rcases hx : D.exec d qBegin [] with ⟨d1, o⟩
  rw [hx] at hb
  simp only at hb
  subst hb
  simp only [qBegin] at hx
  simp [Sess.step, Sess.command, hx]

/-- A prepared query and `k` calls of `NextNeo`. -/
theorem ran_stQuery {q : Str} (hr : Rep w h ⟨d, .stmt ⟨q, []⟩, tx, cs⟩) {kvs : KVs} (hs : Sendable cs (.run q kvs)) :
    ∃ ps, MeansKVs kvs ps ∧ ∀ hd rs md k, (D.exec d q ps).2 = .answer hd rs (.summary md) → k ≤ rs.length + 1 →
      ∃ o', Ran D close w h (.stQuery kvs :: List.replicate k .next) (.rows hd :: (rs.map Res.row ++ [Res.eof md]).take k)
        ⟨(D.exec d q ps).1, o', tx, cs⟩ ∧ o'.drained = some (⟨q, []⟩, false, none) := by
  obtain ⟨ps0, hps0⟩ := sendable_means hs
  obtain ⟨m, h1, h2⟩ := simulates (D := D) (c := .stQuery kvs) close hr ⟨⟨_, .stQuery hps0⟩, hs⟩
  cases h1 with
  | stQuery h1 =>
  rename_i ps
  refine ⟨ps, h1, fun hd rs md k ha hk => ?_⟩
  rcases hx : D.exec d q ps with ⟨d1, o1⟩
  rw [hx] at ha
  simp only at ha
  subst ha
  obtain ⟨w1, h1', e1, hr1⟩ := h2 ⟨d1, .fresh ⟨q, []⟩ hd rs (.summary md), tx, cs⟩ (.rows hd) (by simp [Sess.step, hx])
  obtain ⟨o', ⟨w2, h3, e2, hr2⟩, h4⟩ := ran_next (D := D) (close := close) ⟨q, []⟩ false hd md k rs hr1 (by simp [Open.cursor]) (by simp [Open.drained, restFails]) hk
  exact ⟨o', ⟨w2, h3, runCalls_cons e1 e2, hr2⟩, h4⟩

end Bolt
