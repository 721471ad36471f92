import Verif.Props.Session3
import Verif.Props.Session5
import Verif.Props.Encoding
import Verif.Proofs.Steps

/-!
# Sharper forms of C07, C29, C33 and C64

Added after edits of the model that broke the English claims were found to leave the theorems standing.
-/

namespace Bolt
open PackStream

variable {σ : Type} {P : Peer σ} {w w1 : World σ} {n : Nat} {close : M σ (Option GoErr)}

/-! ## C07 -/

/-- Chunks of at most `n` bytes, each behind its length in two bytes, and nothing else. -/
inductive ChunksLe (n : Nat) : List UInt8 → Prop
  | nil : ChunksLe n []
  | cons {hdr c rest : List UInt8} : c.length ≤ n → Unsigned 2 c.length hdr → ChunksLe n rest → ChunksLe n (hdr ++ c ++ rest)

theorem ChunksLe.append {k : Nat} {a b : List UInt8} (h : ChunksLe k a) (h' : ChunksLe k b) : ChunksLe k (a ++ b) := by
  induction h with
  | nil => exact h'
  | cons h1 h2 _ ih => rw [List.append_assoc]; exact .cons h1 h2 ih

theorem ChunksLe.one {k : Nat} (hk : k < 65536) {c : List UInt8} (h : c.length ≤ k) : ChunksLe k (be 2 c.length ++ c) := by
  have := ChunksLe.cons (hdr := be 2 c.length) h (unsigned_be (by omega)) .nil
  simpa using this

theorem ChunksLe.chunksOf {k : Nat} (hk : k < 65536) {cks : List Bytes} (h : ∀ c ∈ cks, c.length = k) : ChunksLe k (chunksOf k cks) := by
  induction cks with
  | nil => exact .nil
  | cons c cks ih =>
    have := ChunksLe.one hk (c := c) (Nat.le_of_eq (h c (by simp)))
    rw [h c (by simp)] at this
    exact this.append (ih fun c hc => h c (by simp [hc]))

theorem ChunksLe.tailOf {k : Nat} (hk : k < 65536) {buf : Bytes} (h : buf.length ≤ k) : ChunksLe k (tailOf buf) := by
  have h0 : ChunksLe k [0, 0] := ChunksLe.one hk (c := []) (by simp)
  unfold Bolt.tailOf
  split
  · exact (ChunksLe.one hk h).append h0
  · exact h0

theorem encodeTo_chunksLe {cs : Nat} (h8 : 8 ≤ cs) (hk : cs < 65536) (out : Bytes) {v : Val} (hv : v.StringsLe cs) :
    ∃ wire, (encodeTo cs ⟨out, none⟩ v).1 = ⟨out ++ wire, none⟩ ∧ ChunksLe cs wire := by
  obtain ⟨cks, buf, h1, _, h3, h4⟩ := encodeTo_unlimited cs out v
  have hc := ChunksLe.chunksOf hk h1
  rw [h4]
  cases (encOps v).err with
  | none =>
    refine ⟨_, rfl, hc.append (.tailOf hk ?_)⟩
    rw [h3]
    exact Nat.le_of_lt (tailLen_lt (by omega) (wle_enc h8 v hv))
  | some e => exact ⟨_, rfl, hc⟩

/-- C07: after SetChunkSize, whatever any later calls write is in chunks of at most that size. Missing: messages with
strings longer than the chunk size, and chunk sizes below 8. -/
theorem c07_calls_partial {m : UInt16} (hm : 8 ≤ m.toNat) (hb : w.sink.budget = none) {e : Option GoErr} (h1 : (Op.setChunkSize m).run P (closeN P n) w = .ok e w1)
    {ops : List Op} {w2 : World σ} (h2 : Made P n w1 ops w2) (ho : ∀ k, .setChunkSize k ∉ ops) :
    ∃ l wire, w2.log = w.log ++ l ∧ w2.sink.out = w.sink.out ++ wire ∧
      ((∀ v e, .send v e ∈ l → v.StringsLe m.toNat) → ChunksLe m.toNat wire) := by
  cases h1
  have hk : m.toNat < 65536 := m.toNat_lt
  refine (made_inv (I := fun w2 => w2.chunkSize = m.toNat ∧ (w2.sink.budget = none ∨ w2.sink.budget = some 0) ∧
    ∃ l wire, w2.log = w.log ++ l ∧ w2.sink.out = w.sink.out ++ wire ∧ ((∀ v e, .send v e ∈ l → v.StringsLe m.toNat) → ChunksLe m.toNat wire))
    ?_ (fun k hk => (ho k hk).elim) h2 ⟨rfl, .inl hb, [], [], by simp, by simp, fun _ => .nil⟩).2.2
  rintro a b ⟨i1, i2, l, wire, i3, i4, i5⟩ hmv
  cases hmv with
  | own k1 _ _ k4 _ k6 => exact ⟨k6.trans i1, by rw [k1]; exact i2, l, wire, k4.trans i3, by rw [k1]; exact i4, i5⟩
  | shut => exact ⟨i1, .inr rfl, l, wire, i3, i4, i5⟩
  | recv =>
    have : (recv P a).world.sink = a.sink ∧ (recv P a).world.chunkSize = a.chunkSize ∧ ∃ i, (recv P a).world.log = a.log ++ [.recv i] := by
      unfold recv; simp only; split <;> exact ⟨rfl, rfl, _, rfl⟩
    obtain ⟨k1, k2, i, k3⟩ := this
    refine ⟨k2.trans i1, by rw [k1]; exact i2, l ++ [.recv i], wire, by rw [k3, i3, List.append_assoc], by rw [k1]; exact i4, fun h => i5 fun v e hv => h v e (by simp [hv])⟩
  | send v =>
    have hsink : (send P v a).world.sink = (encodeTo m.toNat a.sink v).1 := by rw [← i1]; rfl
    have hlog : (send P v a).world.log = w.log ++ (l ++ [.send v (encodeTo a.chunkSize a.sink v).2]) := by
      rw [← List.append_assoc, ← i3]; rfl
    rcases i2 with i2 | i2
    · obtain ⟨out, hs⟩ : ∃ out, a.sink = ⟨out, none⟩ := ⟨a.sink.out, by rw [← i2]⟩
      rw [hs] at hsink i4
      by_cases hv : v.StringsLe m.toNat
      · obtain ⟨wire', k1, k2⟩ := encodeTo_chunksLe hm hk out hv
        refine ⟨i1, .inl (by rw [hsink, k1]), _, wire ++ wire', hlog, by rw [hsink, k1, ← List.append_assoc, ← i4], fun h => (i5 fun v e hv => h v e (by simp [hv])).append k2⟩
      · obtain ⟨cks, buf, _, _, _, k4⟩ := encodeTo_unlimited m.toNat out v
        obtain ⟨wire', k1⟩ : ∃ wire', (encodeTo m.toNat ⟨out, none⟩ v).1 = ⟨out ++ wire', none⟩ := by
          rw [k4]; split <;> exact ⟨_, rfl⟩
        exact ⟨i1, .inl (by rw [hsink, k1]), _, wire ++ wire', hlog, by rw [hsink, k1, ← List.append_assoc, ← i4], fun h => (hv (h v (encodeTo a.chunkSize a.sink v).2 (by simp))).elim⟩
    · obtain ⟨out, hs⟩ : ∃ out, a.sink = ⟨out, some 0⟩ := ⟨a.sink.out, by rw [← i2]⟩
      rw [hs] at hsink i4
      have k1 := encodeTo_dead m.toNat out v
      exact ⟨i1, .inr (by rw [hsink, k1]), _, wire, hlog, by rw [hsink, k1]; exact i4, fun h => i5 fun v e hv => h v e (by simp [hv])⟩

/-! ## C29 -/

theorem sendAll_objs {msg : String} : ∀ {l : List (Str × KVs)} {w w' : World σ}, sendAll P msg l w = .ok none w' → w'.stmts = w.stmts ∧ w'.rows = w.rows := by
  intro l
  induction l with
  | nil => intro w w' h; cases h; exact ⟨rfl, rfl⟩
  | cons x l ih =>
    intro w w' h
    obtain ⟨a, w1, h1, h⟩ := run_inv h
    cases a with
    | some e => cases h
    | none => exact ⟨(ih h).1.trans (sendRunPullAll_keeps h1).1, (ih h).2.trans (sendRunPullAll_keeps h1).2⟩

/-- Rows `r` of statement `s` are open. -/
structure RowsOpen (w : World σ) (s r : Nat) : Prop where
  exist : r < w.rows.length
  row : (w.row r).closed = false
  of : (w.row r).stmt = s
  stmt : (w.stmt s).closed = false
  held : (w.stmt s).rows = some r

theorem RowsOpen.made {s : Nat} (hs : s < w.stmts.length) (hc : (w.stmt s).closed = false) (x : Rows) (h1 : x.closed = false) (h2 : x.stmt = s) :
    RowsOpen (({ w with rows := w.rows ++ [x] } : World σ).setStmt s fun y => { y with rows := some w.rows.length }) s w.rows.length := by
  have hrow := row_append w x w.rows.length
  rw [if_pos rfl] at hrow
  have hst : ∀ y : World σ, y.stmts = w.stmts → y.stmt s = w.stmt s := fun y hy => by unfold World.stmt; rw [hy]
  refine ⟨by simp [World.setStmt], ?_, ?_, ?_, ?_⟩
  · exact (congrArg Rows.closed hrow).trans h1
  · exact (congrArg Rows.stmt hrow).trans h2
  · rw [stmt_modify, if_pos ⟨rfl, hs⟩]; exact (congrArg Stmt.closed (hst _ rfl)).trans hc
  · rw [stmt_modify, if_pos ⟨rfl, hs⟩]

theorem guardStmt_open {s : Nat} (h : guardStmt s w = .ok none w1) : w1 = w ∧ (w.stmt s).closed = false := by
  unfold guardStmt at h
  split at h
  · cases h
  · next hc =>
    split at h
    · cases h
    · cases h; exact ⟨rfl, by simpa using hc⟩

theorem withConn_runs {α : Type} {s : Nat} {x : M σ α} {a : α} (h : withConn s x w = .ok a w1) : x w = .ok a w1 := by
  unfold withConn at h
  split at h
  · exact h
  · cases h

/-- What Query of a statement returned is open, and the statement knows it: by `c29_one_open_partial` everything else is
refused. -/
theorem c29_stQuery_opens {s : Nat} {kvs : KVs} {r : Nat} (hs : s < w.stmts.length) (h0 : stmtQueryNeo P close s kvs w = .ok (.ok r) w1) : RowsOpen w1 s r := by
  obtain ⟨a, wa, h1, h⟩ := run_inv h0
  cases a with
  | some e => cases h
  | none =>
    obtain ⟨rfl, hc⟩ := guardStmt_open h1
    obtain ⟨q, wb, h2, h⟩ := run_inv h
    cases h2
    obtain ⟨⟨v, e⟩, wc, h3, h⟩ := run_inv h
    cases e with
    | some e => cases v <;> cases h
    | none =>
      have h3 := withConn_runs h3
      obtain ⟨b, wd, h4, h5⟩ := run_inv h3
      cases b with
      | some e => cases h5
      | none =>
        obtain ⟨a', we, h6, h7⟩ := run_inv h4
        cases a' with
        | some e => cases h7
        | none =>
          cases h7
          have k1 := (consume_keeps h5).1.trans (send_keeps h6).1
          cases v with
          | success md =>
            cases h
            exact RowsOpen.made (by rw [k1]; exact hs) (by unfold World.stmt at hc ⊢; rw [k1]; exact hc) _ rfl rfl
          | _ => cases h

/-- The same for QueryPipeline of a statement. -/
theorem c29_stQueryPipe_opens {s : Nat} {ps : List KVs} {r : Nat} (hs : s < w.stmts.length) (h0 : stmtQueryPipeline P close s ps w = .ok (.ok r) w1) : RowsOpen w1 s r := by
  obtain ⟨a, wa, h1, h⟩ := run_inv h0
  cases a with
  | some e => cases h
  | none =>
    obtain ⟨rfl, hc⟩ := guardStmt_open h1
    obtain ⟨q, wb, h2, h⟩ := run_inv h
    cases h2
    split at h
    · cases h
    · obtain ⟨b, wc, h3, h⟩ := run_inv h
      cases b with
      | some e => cases h
      | none =>
        obtain ⟨⟨v, e⟩, wd, h4, h⟩ := run_inv h
        cases e with
        | some e => cases v <;> cases h
        | none =>
          have k1 := (consume_keeps (withConn_runs h4)).1.trans (sendAll_objs (withConn_runs h3)).1
          cases v with
          | success md =>
            cases h
            exact RowsOpen.made (by rw [k1]; exact hs) (by unfold World.stmt at hc ⊢; rw [k1]; exact hc) _ rfl rfl
          | _ => cases h

/-- The same for QueryPipeline of the connection. -/
theorem c29_queryPipe_opens {qs : List Str} {ps : List KVs} {r : Nat} (h0 : queryPipeline P close qs ps w = .ok (.ok r) w1) : RowsOpen w1 w.stmts.length r := by
  obtain ⟨a, wa, h1, h⟩ := run_inv h0
  cases a with
  | some e => cases h
  | none =>
    have : wa = w := by
      unfold guardConn at h1
      split at h1
      · cases h1
      · split at h1 <;> cases h1; rfl
    subst this
    obtain ⟨s, wb, h2, h⟩ := run_inv h
    cases h2
    obtain ⟨_, wc, h3, h⟩ := run_inv h
    cases h3
    obtain ⟨x, wd, h4, h⟩ := run_inv h
    cases x with
    | error e => cases h
    | ok r' =>
      have ho := c29_stQueryPipe_opens (by simp) h4
      cases h
      refine ⟨by simpa [World.setRow] using ho.exist, ?_, ?_, ho.stmt, ho.held⟩
      · rw [row_modify]; split <;> exact ho.row
      · rw [row_modify]; split <;> exact ho.of

/-! ## C33 -/

/-- C33 for Commit, with the command written out: COMMIT. Missing: as `c33_confirmed_partial`. -/
theorem c33_commit_partial {t : Nat} (h : commit P (closeN P n) t w = .ok none w1) :
    ∃ l md md', w1.log = w.log ++ l ++ [.send (.run [67, 79, 77, 77, 73, 84] []) none, .send .pullAll none, .recv (.val (.success md)), .recv (.val (.success md'))] :=
  c33_confirmed_partial h

/-- C33 for Rollback, with the command written out: ROLLBACK. Missing: as `c33_confirmed_partial`. -/
theorem c33_rollback_partial {t : Nat} (h : rollback P (closeN P n) t w = .ok none w1) :
    ∃ l md md', w1.log = w.log ++ l ++ [.send (.run [82, 79, 76, 76, 66, 65, 67, 75] []) none, .send .pullAll none, .recv (.val (.success md)), .recv (.val (.success md'))] :=
  c33_confirmed_partial h

/-- C33 on a connection in step, as `c33_idle_partial`, for the two calls themselves. -/
theorem c33_idle_calls_partial {δ : Type} {D : DB δ} {close : M (Srv δ) (Option GoErr)} {w : World (Srv δ)} {d : δ} (h : Idle w d) {t : Nat} (ht : w.txClosed t = false) :
    ((D.exec d [67, 79, 77, 77, 73, 84] []).2.isQuiet = true → ∃ res w', commit D.peer close t w = .ok res w' ∧
      (res = none ↔ (D.exec d [67, 79, 77, 77, 73, 84] []).2.succeeds = true) ∧ (res = none → Wrote w w' [.run [67, 79, 77, 77, 73, 84] [], .pullAll]) ∧
      Idle w' (D.exec d [67, 79, 77, 77, 73, 84] []).1) ∧
    ((D.exec d [82, 79, 76, 76, 66, 65, 67, 75] []).2.isQuiet = true → ∃ res w', rollback D.peer close t w = .ok res w' ∧
      (res = none ↔ (D.exec d [82, 79, 76, 76, 66, 65, 67, 75] []).2.succeeds = true) ∧ (res = none → Wrote w w' [.run [82, 79, 76, 76, 66, 65, 67, 75] [], .pullAll]) ∧
      Idle w' (D.exec d [82, 79, 76, 76, 66, 65, 67, 75] []).1) :=
  ⟨fun hq => c33_idle_partial h (.inl rfl) ht hq, fun hq => c33_idle_partial h (.inr rfl) ht hq⟩

/-! ## C64 -/

/-- `consume` returns `io.EOF` itself only when the decoder did. -/
theorem consume_eof {v : Val} {e : GoErr} (h : consume P close w = .ok (v, some e) w1) (he : e.isEOF = true) : ∃ half, w1.log = w.log ++ [.recv (.bad .eof half)] := by
  obtain ⟨half, -, -, rfl⟩ := consume_eof_run h he
  exact ⟨half, rfl⟩

/-- C64 for NextNeo: the end without a summary is a message that the decoder answered with `io.EOF`; a call without an
error returned a row. Any peer, any state. -/
theorem c64_next_end_partial {r : Nat} {x : Option (List Val) × Option KVs × Option GoErr} (h : nextNeo P close r w = .ok x w1) :
    (x.2.1 = none → x.2.2 = some .eof → ∃ l half, w1.log = w.log ++ l ∧ receipts l = [.bad .eof half]) ∧ (x.2.2 = none → x.1.isSome = true) := by
  obtain ⟨_, _, h1, h⟩ := run_inv h
  cases h1
  split at h
  · cases h; exact ⟨fun _ h => (by cases h), fun h => (by cases h)⟩
  · obtain ⟨pe, w2, h1, h⟩ := run_inv h
    have hp : (∃ e, pe = some e ∧ e.isEOF = false) ∨ pe = none ∧ ∃ p, w2.log = w.log ++ p ∧ receipts p = [] := by
      split at h1
      · obtain ⟨_, w3, h2, h1⟩ := run_inv h1
        cases h2
        obtain ⟨a, w3, h2, h1⟩ := run_inv h1
        have h2 := withConn_runs h2
        cases a with
        | some e =>
          obtain ⟨_, _, h3, h1⟩ := run_inv h1
          cases h1
          obtain ⟨b, w4, h4, h5⟩ := run_inv h2
          cases b <;> cases h5
          exact .inl ⟨_, rfl, rfl⟩
        | none =>
          cases h1
          have := sendPullAll_sent h2
          exact .inr ⟨rfl, [.send .pullAll none], this, rfl⟩
      · cases h1
        exact .inr ⟨rfl, [], by simp, rfl⟩
    rcases hp with ⟨e, rfl, he⟩ | ⟨rfl, p, hp1, hp2⟩
    · cases h
      refine ⟨fun _ h => ?_, fun h => (by cases h)⟩
      cases h; cases he
    · obtain ⟨⟨v, e⟩, w3, h1, h⟩ := run_inv h
      have h1 := withConn_runs h1
      cases e with
      | some e =>
        have : x = (none, none, some e) ∧ w3 = w1 := by cases v <;> cases h <;> exact ⟨rfl, rfl⟩
        obtain ⟨rfl, rfl⟩ := this
        refine ⟨fun _ h => ?_, fun h => (by cases h)⟩
        cases h
        obtain ⟨half, h1⟩ := consume_eof h1 rfl
        exact ⟨p ++ [.recv (.bad .eof half)], half, by rw [h1, hp1, List.append_assoc], by rw [receipts_append, hp2]; rfl⟩
      | none =>
        cases v with
        | success md =>
          obtain ⟨_, _, h2, h⟩ := run_inv h
          cases h
          exact ⟨fun h => (by cases h), fun h => (by cases h)⟩
        | record fs => cases h; exact ⟨fun _ h => (by cases h), fun _ => rfl⟩
        | _ => cases h; exact ⟨fun _ h => (by cases h), fun h => (by cases h)⟩

/-- C64 for All without a summary: it returns no error only when what was received is exactly the rows it returned and
then a message the decoder answered with `io.EOF`, as it does for structures with an unknown signature (`c64_false`). -/
theorem c64_all_end_partial {r : Nat} {data : List (List Val)} (h : rowsAll P close r w = .ok (data, none, none) w1) :
    ∃ l half, w1.log = w.log ++ l ∧ receipts l = data.map (fun fs => .val (.record fs)) ++ [.bad .eof half] := by
  have hgen : ∀ (f : Nat) (out : List (List Val)) (w : World σ), allLoop P close r f out w = .ok (data, none, none) w1 →
      ∃ l rest half, data = out ++ rest ∧ w1.log = w.log ++ l ∧ receipts l = rest.map (fun fs => .val (.record fs)) ++ [.bad .eof half] := by
    intro f
    induction f with
    | zero => intro out w h; cases h
    | succ f ih =>
      intro out w h
      obtain ⟨⟨row, m, e⟩, w2, h1, h⟩ := run_inv h
      obtain ⟨k1, _⟩ := c64_next_partial h1
      obtain ⟨k3, k4⟩ := c64_next_end_partial h1
      cases e with
      | none =>
        obtain ⟨fs, rfl⟩ := Option.isSome_iff_exists.1 (k4 rfl)
        obtain ⟨_, l, h3, h4⟩ := k1 fs rfl
        obtain ⟨l', rest, half, h5, h6, h7⟩ := ih _ _ h
        refine ⟨l ++ l', fs :: rest, half, by simp [h5], by rw [h6, h3, List.append_assoc], ?_⟩
        rw [receipts_append, h4, h7]; rfl
      | some e =>
        have : out = data ∧ m = none ∧ w2 = w1 ∧ e.isEOF = true := by
          cases row <;> simp only at h <;> split at h <;> cases h <;> exact ⟨rfl, rfl, rfl, by assumption⟩
        obtain ⟨rfl, rfl, rfl, he⟩ := this
        have : e = .eof := by cases e <;> first | rfl | cases he
        subst this
        obtain ⟨l, half, h3, h4⟩ := k3 rfl rfl
        exact ⟨l, [], half, by simp, h3, h4⟩
  obtain ⟨l, rest, half, h1, h2, h3⟩ := hgen _ _ _ h
  rw [List.nil_append] at h1
  subst h1
  exact ⟨l, half, h2, h3⟩

/-! ## Cases -/

/-- `c07_calls_partial` applies after SetChunkSize 8 to a query of three letters, which is written. -/
example : ∃ w1 w2, (Op.setChunkSize 8).run yes (closeN yes 1) yesConn = .ok none w1 ∧ Made yes 1 w1 [.query [65, 65, 65] []] w2 ∧
    (∀ k, .setChunkSize k ∉ [Op.query [65, 65, 65] []]) ∧ w2.sink.out.length > 10 ∧ yesConn.sink.budget = none :=
  ⟨_, _, rfl, .snoc (e := none) (.nil _) trivial rfl, by simp, Nat.le_of_ble_eq_true rfl, rfl⟩

theorem ok_of_test {σ α : Type} {o : Out σ (Except GoErr α)} (h : (o.test fun a _ => match a with | .ok _ => true | .error _ => false) = true) : ∃ a w, o = .ok (.ok a) w := by
  obtain ⟨a, w, h1, h2⟩ := Out.of_test h
  cases a with
  | error e => cases h2
  | ok a => exact ⟨a, w, h1⟩

/-- A statement whose query returned rows: `c29_stQuery_opens` applies. -/
example : ∃ w1 w2 r, prepare [65] [] yesConn = .ok (.ok 0) w1 ∧ stmtQueryNeo yes (closeN yes 1) 0 [] w1 = .ok (.ok r) w2 ∧ RowsOpen w2 0 r := by
  obtain ⟨r, w2, h⟩ := ok_of_test (o := stmtQueryNeo yes (closeN yes 1) 0 [] (prepare [65] [] yesConn).world) (by decide +kernel)
  exact ⟨_, w2, r, rfl, h, c29_stQuery_opens (Nat.le_of_ble_eq_true rfl) h⟩

/-- A pipeline of two queries: `c29_queryPipe_opens` applies. -/
example : ∃ w1 r, queryPipeline yes (closeN yes 1) [[65], [66]] [[], []] yesConn = .ok (.ok r) w1 ∧ RowsOpen w1 0 r := by
  obtain ⟨r, w2, h⟩ := ok_of_test (o := queryPipeline yes (closeN yes 1) [[65], [66]] [[], []] yesConn) (by decide +kernel)
  exact ⟨w2, r, h, c29_queryPipe_opens h⟩

/-- A pipeline of a statement: `c29_stQueryPipe_opens` applies. -/
example : ∃ w1 w2 r, prepare [] [[65], [66]] yesConn = .ok (.ok 0) w1 ∧ stmtQueryPipeline yes (closeN yes 1) 0 [[], []] w1 = .ok (.ok r) w2 ∧ RowsOpen w2 0 r := by
  obtain ⟨r, w2, h⟩ := ok_of_test (o := stmtQueryPipeline yes (closeN yes 1) 0 [[], []] (prepare [] [[65], [66]] yesConn).world) (by decide +kernel)
  exact ⟨_, w2, r, rfl, h, c29_stQueryPipe_opens (Nat.le_of_ble_eq_true rfl) h⟩

/-- A transaction committed, and one rolled back: `c33_commit_partial` and `c33_rollback_partial` apply. -/
example : ∃ w1 w2 w3, begin_ yes (closeN yes 1) yesConn = .ok (.ok 0) w1 ∧ commit yes (closeN yes 1) 0 w1 = .ok none w2 ∧
    rollback yes (closeN yes 1) 0 w1 = .ok none w3 := by
  obtain ⟨t, w1, h1, h2⟩ := Out.of_test (o := begin_ yes (closeN yes 1) yesConn)
    (p := fun a w => match a with
      | .ok 0 => ((commit yes (closeN yes 1) 0 w).test fun e _ => e.isNone) && ((rollback yes (closeN yes 1) 0 w).test fun e _ => e.isNone)
      | _ => false) (by decide +kernel)
  cases t with
  | error e => cases h2
  | ok t =>
    cases t with
    | succ t => cases h2
    | zero =>
      have h2 := Bool.and_eq_true_iff.1 h2
      obtain ⟨a, w2, h3, h4⟩ := Out.of_test h2.1
      obtain ⟨b, w3, h5, h6⟩ := Out.of_test h2.2
      cases a with
      | some e => cases h4
      | none =>
        cases b with
        | some e => cases h6
        | none => exact ⟨w1, w2, w3, h1, h3, h5⟩

/-- `c64_all_end_partial` applies to the result that was cut off. -/
example : ∃ r w1 w2 l half, rowsAll script (closeN script 1) r w1 = .ok ([], none, none) w2 ∧ w2.log = w1.log ++ l ∧ receipts l = [.bad .eof half] := by
  obtain ⟨r, w1, w2, _, h2, _⟩ := c64_false
  obtain ⟨l, half, h3, h4⟩ := c64_all_end_partial h2
  exact ⟨r, w1, w2, l, half, h2, h3, h4⟩

end Bolt
