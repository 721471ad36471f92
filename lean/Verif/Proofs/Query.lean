import Verif.Proofs.Calls

/-! Queries, rows and closing on a session in step. -/

namespace Bolt
open PackStream

section
variable {σ : Type}

/-- The row object of a direct query. -/
def directRow (md : KVs) (s : Nat) : Rows :=
  { md := md, stmt := s, closed := false, consumed := true, finished := false, idx := 0, closeStmt := true }

/-- The row object of a prepared statement's query. -/
def stmtRow (md : KVs) (s : Nat) : Rows :=
  { md := md, stmt := s, closed := false, consumed := false, finished := false, idx := 0, closeStmt := false }

theorem stmt_of {w : World σ} {s : Nat} {x : Stmt} (h : w.stmts[s]? = some x) : w.stmt s = x := by
  simp [World.stmt, h]
theorem row_of {w : World σ} {r : Nat} {x : Rows} (h : w.rows[r]? = some x) : w.row r = x := by
  simp [World.row, h]

/-! ### NextNeo -/

/-- One record. -/
theorem nextNeo_record (P : Peer σ) (close : M σ (Option GoErr)) {w : World σ} {r : Nat} {fs : List Val} {t : List Item}
    (h1 : (w.row r).closed = false) (h2 : (w.row r).consumed = true) (h3 : (w.stmt (w.row r).stmt).conn = true)
    (hi : w.inbox = .val (.record fs) :: t) :
    nextNeo P close r w = .ok (some fs, none, none) (w.net w.sink w.srv t (w.log ++ [.recv (.val (.record fs))])) := by
  have h4 := (withConn_ok (k := consume P close) h3).trans (consume_val P close hi (by simp))
  unfold nextNeo
  simp only [get_bind, h1, h2, Bool.false_eq_true, Bool.not_true, if_false, pure_bind']
  rw [mbind_ok h4]
  rfl

/-- The end of the records. -/
theorem nextNeo_end (P : Peer σ) (close : M σ (Option GoErr)) {w : World σ} {r : Nat} {md : KVs} {t : List Item}
    (h1 : (w.row r).closed = false) (h2 : (w.row r).consumed = true) (h3 : (w.stmt (w.row r).stmt).conn = true)
    (hi : w.inbox = .val (.success md) :: t) :
    nextNeo P close r w = .ok (none, some md, some .eof)
      ((w.net w.sink w.srv t (w.log ++ [.recv (.val (.success md))])).setRow r fun x => { x with finished := true }) := by
  have h4 := (withConn_ok (k := consume P close) h3).trans (consume_val P close hi (by simp))
  unfold nextNeo
  simp only [get_bind, h1, h2, Bool.false_eq_true, Bool.not_true, if_false, pure_bind']
  rw [mbind_ok h4]
  rfl

/-- Any error of `consume`. -/
theorem nextNeo_err (P : Peer σ) (close : M σ (Option GoErr)) {w w' : World σ} {r : Nat} {v : Val} {e : GoErr}
    (h1 : (w.row r).closed = false) (h2 : (w.row r).consumed = true) (h3 : (w.stmt (w.row r).stmt).conn = true)
    (h4 : consume P close w = .ok (v, some e) w') :
    nextNeo P close r w = .ok (none, none, some e) w' := by
  have h4 := (withConn_ok (k := consume P close) h3).trans h4
  unfold nextNeo
  simp only [get_bind, h1, h2, Bool.false_eq_true, Bool.not_true, if_false, pure_bind']
  rw [mbind_ok h4]
  rfl

theorem nextNeo_closed (P : Peer σ) (close : M σ (Option GoErr)) {w : World σ} {r : Nat} (h1 : (w.row r).closed = true) :
    nextNeo P close r w = .ok (none, none, some (.new "Rows are already closed")) w := by
  unfold nextNeo
  simp only [get_bind, h1, if_true]
  rfl

theorem row_setRow {w : World σ} {r : Nat} {f : Rows → Rows} {x : Rows} (h : w.rows[r]? = some x) :
    (w.setRow r f).rows[r]? = some (f x) := by
  simp [World.setRow, h]

theorem stmt_setRow {w : World σ} {r s : Nat} {f : Rows → Rows} : (w.setRow r f).stmt s = w.stmt s := rfl

end

variable {δ : Type} (D : DB δ)

/-- The first call on rows of a prepared statement sends PULL_ALL and continues as if that had been done
before. -/
theorem nextNeo_pull (close : M (Srv δ) (Option GoErr)) {w : World (Srv δ)} {d : δ} {m : Mode} (h : Live w d m) {r : Nat}
    {x : Rows} (hr : w.rows[r]? = some x) (h1 : x.closed = false) (h2 : x.consumed = false)
    (h3 : (w.stmt x.stmt).conn = true) :
    ∃ b, Carries .pullAll b ∧ nextNeo D.peer close r w = nextNeo D.peer close r
      ((w.setRow r fun x => { x with consumed := true }).net ⟨w.sink.out ++ b, none⟩
        ⟨(D.handle d m .pullAll).1, (D.handle d m .pullAll).2.1, []⟩
        (w.inbox ++ (D.handle d m .pullAll).2.2.map .val) (w.log ++ [.send .pullAll none])) := by
  have hl : Live (w.setRow r fun x => { x with consumed := true }) d m := ⟨h.closed, h.srv, h.budget, h.cs⟩
  obtain ⟨b, h4, h5⟩ := sendPullAll_ok D hl
  refine ⟨b, h4, ?_⟩
  have e := row_of hr
  have e2 : ∀ (k : Sink) (s : Srv δ) (i : List Item) (l : List Event),
      ((w.setRow r fun x => { x with consumed := true }).net k s i l).row r = { x with consumed := true } := by
    intro k s i l
    exact row_of (row_setRow (w := w) hr)
  have h6 := (withConn_ok (k := sendPullAll D.peer) (w := w.setRow r fun x => { x with consumed := true }) (s := x.stmt) h3).trans h5
  conv => lhs; unfold nextNeo
  simp only [get_bind, e, h1, h2, Bool.false_eq_true, Bool.not_false, if_false, if_true, mbind_run, modify_run, pure_run,
    get_run, h6]
  unfold nextNeo
  simp only [get_bind, e2, h1, Bool.false_eq_true, Bool.not_true, if_false, mbind_run, pure_run, get_run]
  rfl

/-- The records as received. -/
def gotRecords (rs : List (List Val)) : List Event := rs.map fun fs => Event.recv (Item.val (Val.record fs))

/-- `All`, over the loop. -/
theorem allLoop_records (close : M (Srv δ) (Option GoErr)) (r : Nat) (rs : List (List Val)) (f : Nat) (t : List Item) :
    ∀ (w : World (Srv δ)) (out : List (List Val)),
    (w.row r).closed = false → (w.row r).consumed = true → (w.stmt (w.row r).stmt).conn = true →
    w.inbox = (rs.map Val.record).map Item.val ++ t →
    allLoop D.peer close r (rs.length + f) out w = allLoop D.peer close r f (out ++ rs)
      (w.net w.sink w.srv t (w.log ++ gotRecords rs)) := by
  induction rs with
  | nil =>
    intro w out _ _ _ hi
    simp only [List.map_nil, List.nil_append] at hi
    simp [← hi, World.net, gotRecords]
  | cons fs rs ih =>
    intro w out h1 h2 h3 hi
    have h4 := nextNeo_record D.peer close h1 h2 h3 (t := (rs.map Val.record).map Item.val ++ t) (by simpa using hi)
    rw [show (fs :: rs).length + f = (rs.length + f) + 1 by simp; omega, allLoop, mbind_ok h4]
    simp only []
    rw [ih (w.net w.sink w.srv ((rs.map Val.record).map Item.val ++ t) (w.log ++ [Event.recv (Item.val (Val.record fs))])) (out ++ [fs]) h1 h2 h3 rfl]
    simp [gotRecords]

/-- Enough fuel for `All`. -/
theorem rowsAll_fuel (close : M (Srv δ) (Option GoErr)) (r : Nat) (w : World (Srv δ)) :
    ∃ f, rowsAll D.peer close r w = allLoop D.peer close r (w.inbox.length + f + 2) [] w := by
  exact ⟨_, rfl⟩

theorem allLoop_summary (close : M (Srv δ) (Option GoErr)) {w : World (Srv δ)} {r : Nat} {rs : List (List Val)} {md : KVs}
    (h1 : (w.row r).closed = false) (h2 : (w.row r).consumed = true) (h3 : (w.stmt (w.row r).stmt).conn = true)
    (hi : w.inbox = (rs.map Val.record ++ [Val.success md]).map Item.val) (f : Nat) :
    ∃ l, allLoop D.peer close r (rs.length + (f + 1)) [] w = .ok (rs, some md, none)
      ((w.net w.sink w.srv [] (w.log ++ l)).setRow r fun x => { x with finished := true }) := by
  have h4 := allLoop_records D close r rs (f + 1) [.val (.success md)] w [] h1 h2 h3 (by rw [hi]; simp)
  refine ⟨(gotRecords rs) ++ [.recv (.val (.success md))], ?_⟩
  rw [h4, allLoop]
  rw [mbind_ok (nextNeo_end D.peer close (w := w.net w.sink w.srv [.val (.success md)]
    (w.log ++ gotRecords rs)) (md := md) (t := []) h1 h2 h3 rfl)]
  simp [GoErr.isEOF]

theorem allLoop_broken (close : M (Srv δ) (Option GoErr)) {w : World (Srv δ)} {d : δ} (h : Live w d .failed) {r : Nat}
    {rs : List (List Val)} {md : KVs}
    (h1 : (w.row r).closed = false) (h2 : (w.row r).consumed = true) (h3 : (w.stmt (w.row r).stmt).conn = true)
    (hi : w.inbox = (rs.map Val.record ++ [Val.failure md]).map Item.val) (f : Nat) :
    ∃ b l, Carries .ackFailure b ∧ allLoop D.peer close r (rs.length + (f + 1)) [] w = .ok (rs, none, some (queryErr md))
      (w.net ⟨w.sink.out ++ b, none⟩ ⟨d, .ready, []⟩ [] (w.log ++ l)) := by
  have h4 := allLoop_records D close r rs (f + 1) [.val (.failure md)] w [] h1 h2 h3 (by rw [hi]; simp)
  have hl : Live (w.net w.sink w.srv [.val (.failure md)] (w.log ++ gotRecords rs)) d .failed :=
    ⟨h.closed, h.srv, h.budget, h.cs⟩
  obtain ⟨b, l, h5, h6⟩ := hl.consume_failure D close (md := md) (n := 0) rfl
  refine ⟨b, (gotRecords rs) ++ l, h5, ?_⟩
  rw [h4, allLoop]
  rw [mbind_ok (nextNeo_err D.peer close (w := w.net w.sink w.srv [.val (.failure md)]
    (w.log ++ gotRecords rs)) h1 h2 h3 h6)]
  simp [GoErr.isEOF, queryErr]

/-- `All` on rows already requested, up to the summary. -/
theorem rowsAll_summary (close : M (Srv δ) (Option GoErr)) {w : World (Srv δ)} {r : Nat} {rs : List (List Val)} {md : KVs}
    (h1 : (w.row r).closed = false) (h2 : (w.row r).consumed = true) (h3 : (w.stmt (w.row r).stmt).conn = true)
    (hi : w.inbox = (rs.map Val.record ++ [Val.success md]).map Item.val) :
    ∃ l, rowsAll D.peer close r w = .ok (rs, some md, none)
      ((w.net w.sink w.srv [] (w.log ++ l)).setRow r fun x => { x with finished := true }) := by
  obtain ⟨f, hf⟩ := rowsAll_fuel D close r w
  have e : w.inbox.length + f + 2 = rs.length + (f + 2 + 1) := by rw [hi]; simp; omega
  rw [hf, e]
  exact allLoop_summary D close h1 h2 h3 hi _

/-- `All` on rows already requested, up to a failure. -/
theorem rowsAll_broken (close : M (Srv δ) (Option GoErr)) {w : World (Srv δ)} {d : δ} (h : Live w d .failed) {r : Nat}
    {rs : List (List Val)} {md : KVs}
    (h1 : (w.row r).closed = false) (h2 : (w.row r).consumed = true) (h3 : (w.stmt (w.row r).stmt).conn = true)
    (hi : w.inbox = (rs.map Val.record ++ [Val.failure md]).map Item.val) :
    ∃ b l, Carries .ackFailure b ∧ rowsAll D.peer close r w = .ok (rs, none, some (queryErr md))
      (w.net ⟨w.sink.out ++ b, none⟩ ⟨d, .ready, []⟩ [] (w.log ++ l)) := by
  obtain ⟨f, hf⟩ := rowsAll_fuel D close r w
  have e : w.inbox.length + f + 2 = rs.length + (f + 2 + 1) := by rw [hi]; simp; omega
  rw [hf, e]
  exact allLoop_broken D close h h1 h2 h3 hi _

/-- `All` on rows not requested yet. -/
theorem rowsAll_pull (close : M (Srv δ) (Option GoErr)) {w : World (Srv δ)} {d : δ} {m : Mode} (h : Live w d m) {r : Nat}
    {x : Rows} (hr : w.rows[r]? = some x) (h1 : x.closed = false) (h2 : x.consumed = false)
    (h3 : (w.stmt x.stmt).conn = true) :
    ∃ b, Carries .pullAll b ∧ ∃ f w', w' = ((w.setRow r fun x => { x with consumed := true }).net ⟨w.sink.out ++ b, none⟩
        ⟨(D.handle d m .pullAll).1, (D.handle d m .pullAll).2.1, []⟩
        (w.inbox ++ (D.handle d m .pullAll).2.2.map .val) (w.log ++ [.send .pullAll none])) ∧
      nextNeo D.peer close r w = nextNeo D.peer close r w' ∧
      rowsAll D.peer close r w = allLoop D.peer close r (w'.inbox.length + f + 2) [] w' := by
  obtain ⟨b, h4, h5⟩ := nextNeo_pull D close h hr h1 h2 h3
  obtain ⟨b', h6, h7⟩ := sendPullAll_ok D h
  have h8 : (D.handle d m .pullAll).2.2.length ≤
      (D.peer.react w.srv (((encodeTo w.chunkSize w.sink .pullAll).1.out.drop w.sink.out.length))).2.length := by
    unfold sendPullAll at h7
    rw [mbind_run] at h7
    simp only [send] at h7
    generalize hq : (if (encodeTo w.chunkSize w.sink .pullAll).1.out.drop w.sink.out.length = [] then (w.srv, [])
      else D.peer.react w.srv ((encodeTo w.chunkSize w.sink .pullAll).1.out.drop w.sink.out.length)) = q at h7
    have e : q.2.length = (D.handle d m .pullAll).2.2.length := by
      cases he : (encodeTo w.chunkSize w.sink Val.pullAll).2 with
      | none =>
        simp only [he, pure_run, Out.ok.injEq] at h7
        have := congrArg World.inbox h7.2
        simp only [World.net, List.append_cancel_left_eq] at this
        rw [this]
        simp
      | some e =>
        simp only [he, pure_run, Out.ok.injEq] at h7
        exact absurd h7.1 (by simp)
    rw [← e, ← hq]
    split
    · simp
    · exact Nat.le_refl _
  refine ⟨b, h4, (D.peer.react w.srv (((encodeTo w.chunkSize w.sink .pullAll).1.out.drop w.sink.out.length))).2.length -
    (D.handle d m .pullAll).2.2.length, _, rfl, h5, ?_⟩
  unfold rowsAll
  simp only [net_inbox, List.length_append, List.length_map]
  rw [show w.inbox.length + (D.peer.react w.srv (((encodeTo w.chunkSize w.sink .pullAll).1.out.drop w.sink.out.length))).2.length + 2
    = (w.inbox.length + (D.handle d m .pullAll).2.2.length + ((D.peer.react w.srv (((encodeTo w.chunkSize w.sink .pullAll).1.out.drop w.sink.out.length))).2.length -
      (D.handle d m .pullAll).2.2.length) + 1) + 1 by omega]
  simp only [allLoop, mbind_run, h5]

/-! ### Draining -/

/-- A group of plain messages ended by SUCCESS, as unread items. -/
def group (g : List Val × KVs) : List Item := (g.1 ++ [Val.success g.2]).map Item.val

theorem consumeAllMultiple_ok {σ : Type} (P : Peer σ) (close : M σ (Option GoErr)) (gs : List (List Val × KVs))
    (t : List Item) (hp : ∀ g ∈ gs, ∀ v ∈ g.1, Item.isPlain (.val v) = true) :
    ∀ w : World σ, w.inbox = (gs.map group).flatten ++ t →
    ∃ l, consumeAllMultiple P close gs.length w = .ok none (w.net w.sink w.srv t (w.log ++ l)) := by
  induction gs with
  | nil =>
    intro w hi
    refine ⟨[], ?_⟩
    simp only [List.map_nil, List.flatten_nil, List.nil_append] at hi
    simp [consumeAllMultiple, ← hi, World.net]
  | cons g gs ih =>
    intro w hi
    have h1 := consumeAll_success P close (vs := g.1) (md := g.2) (t := (gs.map group).flatten ++ t)
      (by rw [hi]; simp [group]) (hp g (by simp))
    obtain ⟨l, h2⟩ := ih (fun x hx => hp x (by simp [hx])) (w.net w.sink w.srv ((gs.map group).flatten ++ t)
      (w.log ++ g.1.map (fun v => .recv (.val v)) ++ [.recv (.val (.success g.2))])) rfl
    refine ⟨g.1.map (fun v => .recv (.val v)) ++ [.recv (.val (.success g.2))] ++ l, ?_⟩
    rw [List.length_cons, consumeAllMultiple, mbind_ok h1]
    simp only []
    rw [h2]
    simp

/-- A failure among the groups: acknowledged, the rest is skipped. -/
theorem consumeAllMultiple_failure (close : M (Srv δ) (Option GoErr)) (gs : List (List Val × KVs))
    (hp : ∀ g ∈ gs, ∀ v ∈ g.1, Item.isPlain (.val v) = true) (vs : List Val) (hv : ∀ v ∈ vs, Item.isPlain (.val v) = true)
    (md : KVs) (n k : Nat) (d : δ) :
    ∀ w : World (Srv δ), Live w d .failed →
    w.inbox = (gs.map group).flatten ++ (vs.map .val ++ .val (.failure md) :: List.replicate n (.val .ignored)) →
    ∃ b l, Carries .ackFailure b ∧ consumeAllMultiple D.peer close (gs.length + (k + 1)) w =
      .ok (some (queryErr md)) (w.net ⟨w.sink.out ++ b, none⟩ ⟨d, .ready, []⟩ [] (w.log ++ l)) := by
  induction gs with
  | nil =>
    intro w h hi
    obtain ⟨b, l, h1, h2⟩ := h.consumeAll_failure D close (vs := vs) (md := md) (n := n) (by simpa using hi) hv
    refine ⟨b, l, h1, ?_⟩
    rw [List.length_nil, Nat.zero_add, consumeAllMultiple, mbind_ok h2]
    rfl
  | cons g gs ih =>
    intro w h hi
    let t := (gs.map group).flatten ++ (vs.map .val ++ .val (.failure md) :: List.replicate n (.val .ignored))
    have h1 := consumeAll_success D.peer close (vs := g.1) (md := g.2) (t := t) (by rw [hi]; simp [group, t]) (hp g (by simp))
    obtain ⟨b, l, h2, h3⟩ := ih (fun x hx => hp x (by simp [hx])) (w.net w.sink w.srv t
      (w.log ++ g.1.map (fun v => .recv (.val v)) ++ [.recv (.val (.success g.2))]))
      ⟨h.closed, h.srv, h.budget, h.cs⟩ rfl
    refine ⟨b, g.1.map (fun v => .recv (.val v)) ++ [.recv (.val (.success g.2))] ++ l, h2, ?_⟩
    rw [show (g :: gs).length + (k + 1) = (gs.length + (k + 1)) + 1 by simp; omega, consumeAllMultiple, mbind_ok h1]
    simp only []
    rw [h3]
    simp

/-- Nothing to drain. -/
theorem rowsDrain_finished {σ : Type} (P : Peer σ) (close : M σ (Option GoErr)) {w : World σ} {r : Nat}
    (h1 : (w.row r).consumed = true) (h2 : (w.row r).finished = true) : rowsDrain P close r w = .ok none w := by
  unfold rowsDrain; simp [h1, h2]

/-- Draining rows already requested. -/
theorem rowsDrain_pulled {σ : Type} (P : Peer σ) (close : M σ (Option GoErr)) {w w' : World σ} {r : Nat} {res : Option GoErr}
    (h1 : (w.row r).consumed = true) (h2 : (w.row r).finished = false) (h3 : (w.stmt (w.row r).stmt).conn = true)
    {n : Nat} (hn : numConsume (w.stmt (w.row r).stmt).queries.length (w.row r).idx = n)
    (h4 : consumeAllMultiple P close n w = .ok res w') :
    rowsDrain P close r w = .ok (res.map fun e => .wrap "An error occurred clearing out unconsumed stream" (some e)) w' := by
  have h5 := (withConn_ok (k := consumeAllMultiple P close n) h3).trans h4
  unfold rowsDrain
  simp only [h1, h2, hn, Bool.not_true, Bool.not_false, Bool.false_eq_true, if_false, if_true]
  rw [if_neg (by omega)]
  simp only [Int.toNat_natCast, mbind_run, h5]
  cases res <;> rfl

/-- Draining rows not yet requested: DISCARD_ALL and a SUCCESS. -/
theorem rowsDrain_discard (close : M (Srv δ) (Option GoErr)) {w : World (Srv δ)} {d : δ} {rs : List (List Val)} {md : KVs}
    (h : Live w d (.streaming rs (.summary md))) (hi : w.inbox = []) {r : Nat}
    (h1 : (w.row r).consumed = false) (h3 : (w.stmt (w.row r).stmt).conn = true) :
    ∃ b l, Carries .discardAll b ∧ rowsDrain D.peer close r w = .ok none
      (w.net ⟨w.sink.out ++ b, none⟩ ⟨d, .ready, []⟩ [] (w.log ++ l)) := by
  obtain ⟨b, h4, h5⟩ := sendDiscardAll_ok D h
  refine ⟨b, [.send .discardAll none, .recv (.val (.success md))], h4, ?_⟩
  simp only [DB.handle, Ending.reply, hi, List.map_cons, List.map_nil, List.nil_append] at h5
  have h6 : sendDiscardAllConsume D.peer close w = .ok (.success md, none)
      (w.net ⟨w.sink.out ++ b, none⟩ ⟨d, .ready, []⟩ [] (w.log ++ [.send .discardAll none, .recv (.val (.success md))])) := by
    unfold sendDiscardAllConsume
    rw [mbind_ok h5]
    simp only []
    rw [consume_val _ close (v := .success md) rfl (by simp)]
    simp
  unfold rowsDrain
  simp only [h1, Bool.not_false, if_true, mbind_run, (withConn_ok h3).trans h6]
  rfl

/-- Draining rows not yet requested when the server fails. -/
theorem rowsDrain_discard_broken (close : M (Srv δ) (Option GoErr)) {w : World (Srv δ)} {d : δ} {rs : List (List Val)} {md : KVs}
    (h : Live w d (.streaming rs (.broken md))) (hi : w.inbox = []) {r : Nat}
    (h1 : (w.row r).consumed = false) (h3 : (w.stmt (w.row r).stmt).conn = true) :
    ∃ b l, CarriesAll [.discardAll, .ackFailure] b ∧ rowsDrain D.peer close r w =
      .ok (some (.wrap "An error occurred discarding messages on row close" (some (queryErr md))))
      (w.net ⟨w.sink.out ++ b, none⟩ ⟨d, .ready, []⟩ [] (w.log ++ l)) := by
  obtain ⟨b, h4, h5⟩ := sendDiscardAll_ok D h
  simp only [DB.handle, Ending.reply, hi, List.map_cons, List.map_nil, List.nil_append] at h5
  obtain ⟨b', l, h6, h7⟩ := (h.net (d' := d) (m' := .failed) (w.sink.out ++ b) [.val (.failure md)]
    (w.log ++ [.send .discardAll none])).consume_failure D close (md := md) (n := 0) rfl
  refine ⟨b ++ b', .send .discardAll none :: l, carriesAll_two h4 h6, ?_⟩
  have h8 : sendDiscardAllConsume D.peer close w = .ok (.failure md, some (queryErr md))
      (w.net ⟨w.sink.out ++ (b ++ b'), none⟩ ⟨d, .ready, []⟩ [] (w.log ++ .send .discardAll none :: l)) := by
    unfold sendDiscardAllConsume
    rw [mbind_ok h5]
    simp only []
    rw [h7]
    simp [queryErr]
  unfold rowsDrain
  simp only [h1, Bool.not_false, if_true, mbind_run, (withConn_ok h3).trans h8]
  rfl

/-! ### Closing rows and statements from a drain -/

section
variable {σ : Type} (P : Peer σ) (close : M σ (Option GoErr))

theorem rowsClose_fail {w w' : World σ} {r : Nat} {e : GoErr} (h1 : (w.row r).closed = false)
    (h2 : rowsDrain P close r w = .ok (some e) w') : rowsClose P close r w = .ok (some e) w' := by
  unfold rowsClose
  simp only [h1, mbind_run, get_run, Bool.false_eq_true, if_false, h2, pure_run]

theorem rowsClose0_fail {w w' : World σ} {r : Nat} {e : GoErr} (h1 : (w.row r).closed = false)
    (h2 : rowsDrain P close r w = .ok (some e) w') : rowsClose0 P close r w = .ok (some e) w' := by
  unfold rowsClose0
  simp only [h1, mbind_run, get_run, Bool.false_eq_true, if_false, h2, pure_run]

theorem rowsClose0_ok {w w' : World σ} {r : Nat} (h1 : (w.row r).closed = false)
    (h2 : rowsDrain P close r w = .ok none w') : rowsClose0 P close r w = .ok none (w'.rowsDone r) := by
  unfold rowsClose0
  simp only [h1, mbind_run, get_run, Bool.false_eq_true, if_false, h2, pure_run, rowsMark_run]

theorem rowsClose_stmtRows {w w' : World σ} {r : Nat} (h1 : (w.row r).closed = false)
    (h2 : rowsDrain P close r w = .ok none w') (h3 : ((w'.rowsDone r).row r).closeStmt = false) :
    rowsClose P close r w = .ok none (w'.rowsDone r) := by
  unfold rowsClose
  simp only [h1, mbind_run, get_run, Bool.false_eq_true, if_false, h2, pure_run, rowsMark_run, h3]

theorem rowsClose_directRows {w w' : World σ} {r : Nat} (h1 : (w.row r).closed = false)
    (h2 : rowsDrain P close r w = .ok none w') (h3 : ((w'.rowsDone r).row r).closeStmt = true) :
    rowsClose P close r w = stmtClose P close ((w'.rowsDone r).row r).stmt (w'.rowsDone r) := by
  unfold rowsClose
  simp only [h1, mbind_run, get_run, Bool.false_eq_true, if_false, if_true, h2, rowsMark_run, h3]

theorem rowsDone_row {w : World σ} {r : Nat} {x : Rows} (h : w.rows[r]? = some x) :
    (w.rowsDone r).rows[r]? = some { x with closed := true } := by
  simp [World.rowsDone, World.setRow, World.setStmt, h]

theorem rowsDone_stmt {w : World σ} {r s : Nat} {x : Rows} {y : Stmt} (h : w.rows[r]? = some x) (hs : x.stmt = s)
    (hy : w.stmts[s]? = some y) : (w.rowsDone r).stmts[s]? = some { y with rows := none } := by
  simp [World.rowsDone, World.setRow, World.setStmt, row_of h, hs, hy]

theorem stmtDone_stmt {w : World σ} {s : Nat} {y : Stmt} (hy : w.stmts[s]? = some y) :
    (w.stmtDone s).stmts[s]? = some { y with closed := true, conn := false } := by
  simp [World.stmtDone, World.setStmt, hy]

/-- Closing direct rows closes their statement. -/
theorem rowsClose_direct {w w' : World σ} {r s : Nat} {x : Rows} {y : Stmt} (hx : w.rows[r]? = some x)
    (h1 : x.closed = false) (h2 : rowsDrain P close r w = .ok none w') (hx' : w'.rows[r]? = some x)
    (hc : x.closeStmt = true) (hs : x.stmt = s) (hy : w'.stmts[s]? = some y) (h3 : y.closed = false) (h4 : y.conn = true) :
    rowsClose P close r w = .ok none ((w'.rowsDone r).stmtDone s) := by
  have e1 := row_of (rowsDone_row hx')
  have e2 := stmt_of (rowsDone_stmt hx' hs hy)
  rw [rowsClose_directRows P close (by rw [row_of hx]; exact h1) h2 (by rw [e1]; exact hc), e1, hs]
  exact stmtClose_norows P close (by rw [e2]; exact h3) (by rw [e2]; exact h4) (by rw [e2])

/-- Closing a statement with open rows of its own. -/
theorem stmtClose_rows {w w' : World σ} {r s : Nat} {x : Rows} {y : Stmt} (hy : w.stmts[s]? = some y)
    (h3 : y.closed = false) (h5 : y.rows = some r) (hx : w.rows[r]? = some x) (h1 : x.closed = false)
    (hc : x.closeStmt = false) (h2 : rowsDrain P close r w = .ok none w') (hx' : w'.rows[r]? = some x) (hs : x.stmt = s)
    (hy' : w'.stmts[s]? = some y) (h4 : y.conn = true) :
    stmtClose P close s w = .ok none ((w'.rowsDone r).stmtDone s) := by
  have e2 := stmt_of (rowsDone_stmt hx' hs hy')
  unfold stmtClose
  simp only [stmt_of hy, h3, h5, row_of hx, hc, mbind_run, get_run, Bool.false_eq_true, if_false,
    rowsClose0_ok P close (by rw [row_of hx]; exact h1) h2]
  rw [stmtMark_run (by rw [e2]; exact h4)]
  rfl

theorem stmtClose_rows_fail {w w' : World σ} {r s : Nat} {x : Rows} {y : Stmt} {e : GoErr} (hy : w.stmts[s]? = some y)
    (h3 : y.closed = false) (h5 : y.rows = some r) (hx : w.rows[r]? = some x) (h1 : x.closed = false)
    (hc : x.closeStmt = false) (h2 : rowsDrain P close r w = .ok (some e) w') :
    stmtClose P close s w = .ok (some e) w' := by
  unfold stmtClose
  simp only [stmt_of hy, h3, h5, row_of hx, hc, mbind_run, get_run, Bool.false_eq_true, if_false,
    rowsClose0_fail P close (by rw [row_of hx]; exact h1) h2]
  rfl

end

end Bolt
