import Verif.Proofs.Done
import Verif.Spec.Confirm

/-! What must have been sent and received when a call returns a result, whatever the peer. -/

namespace Bolt

variable {σ : Type} {P : Peer σ} {close : M σ (Option GoErr)} {w w' : World σ}

/-- Nothing but the traffic `l` happened between the two. -/
structure Did (w w' : World σ) (l : List Event) : Prop where
  log : w'.log = w.log ++ l
  stmts : w'.stmts = w.stmts
  rows : w'.rows = w.rows

theorem Did.tr {a b c : World σ} {l l' : List Event} (h : Did a b l) (h' : Did b c l') : Did a c (l ++ l') :=
  ⟨by rw [h'.log, h.log, List.append_assoc], h'.stmts.trans h.stmts, h'.rows.trans h.rows⟩

theorem send_did {v : Val} (h : send P v w = .ok none w') : Did w w' [.send v none] := by
  refine ⟨send_inv h, ?_, ?_⟩ <;>
  · unfold send at h
    cases h1 : (encodeTo w.chunkSize w.sink v).2 with
    | some e => simp only [h1] at h; cases h
    | none => simp only [h1] at h; cases h; rfl

theorem sendRun_did {q : Str} {kvs : KVs} (h : sendRun P q kvs w = .ok none w') : Did w w' [.send (.run q kvs) none] := by
  obtain ⟨a, w1, h1, h⟩ := run_inv h
  cases a with
  | some e => cases h
  | none => cases h; exact send_did h1

theorem sendPullAll_did (h : sendPullAll P w = .ok none w') : Did w w' [.send .pullAll none] := by
  obtain ⟨a, w1, h1, h⟩ := run_inv h
  cases a with
  | some e => cases h
  | none => cases h; exact send_did h1

theorem sendRunPullAll_did {q : Str} {kvs : KVs} (h : sendRunPullAll P q kvs w = .ok none w') :
    Did w w' [.send (.run q kvs) none, .send .pullAll none] := by
  obtain ⟨a, w1, h1, h⟩ := run_inv h
  cases a with
  | some e => cases h
  | none => exact (sendRun_did h1).tr (sendPullAll_did h)

theorem consume_did {v : Val} (h : consume P close w = .ok (v, none) w') : Did w w' [.recv (.val v)] := by
  have hl := consume_inv h
  obtain ⟨⟨v1, e1⟩, w1, h1, h⟩ := run_inv h
  cases e1 with
  | some e => cases h
  | none =>
    have h2 : w1.stmts = w.stmts ∧ w1.rows = w.rows := by
      unfold recv at h1
      simp only at h1
      cases hn : nextItem P w <;> rw [hn] at h1 <;> cases h1
      exact ⟨rfl, rfl⟩
    cases v1 with
    | failure md =>
      obtain ⟨a, w2, h3, h4⟩ := run_inv h
      cases a <;> cases h4
    | _ => cases h; exact ⟨hl, h2.1, h2.2⟩

theorem plain_value {i : Item} (h : i.isPlain = true) : i = .val i.value := by
  cases i <;> first | rfl | cases h

/-- The messages read by `consumeAll`. -/
theorem consumeAll_did {vs : List Val} {v : Val} (h : consumeAll P close w = .ok (vs, v, none) w') :
    Did w w' (vs.map (fun v => .recv (.val v)) ++ [.recv (.val v)]) ∧ ∀ v ∈ vs, (∀ md, v ≠ .success md) ∧ ∀ md, v ≠ .failure md := by
  unfold consumeAll at h
  obtain ⟨⟨v1, e1⟩, w1, h1, h⟩ := run_inv h
  cases e1 with
  | some e => cases h
  | none =>
    cases h
    have hp : ∀ i ∈ w.inbox.takeWhile Item.isPlain, i.isPlain = true := by
      have := List.all_takeWhile (p := Item.isPlain) (l := w.inbox)
      exact List.all_eq_true.1 this
    have e : (w.inbox.takeWhile Item.isPlain).map Event.recv = ((w.inbox.takeWhile Item.isPlain).map Item.value).map (fun v => Event.recv (.val v)) := by
      rw [List.map_map]
      refine List.map_congr_left fun i hi => ?_
      show Event.recv i = Event.recv (.val i.value)
      rw [← plain_value (hp i hi)]
    refine ⟨?_, ?_⟩
    · have := consume_did h1
      refine ⟨?_, this.stmts, this.rows⟩
      rw [this.log, ← e, List.append_assoc]
    · intro v hv
      obtain ⟨i, hi, rfl⟩ := List.mem_map.1 hv
      have := hp i hi
      rw [plain_value this] at this
      constructor <;> (intro md he; rw [he] at this; cases this)

theorem withConn_inv {α : Type} {s : Nat} {k : M σ α} {a : α} (h : withConn s k w = .ok a w') : k w = .ok a w' := by
  unfold withConn at h
  split at h
  · exact h
  · cases h

theorem guardStmt_inv {s : Nat} (h : guardStmt s w = .ok none w') : w' = w ∧ (w.stmt s).closed = false ∧ (w.stmt s).rows = none := by
  unfold guardStmt at h
  split at h
  · cases h
  · split at h
    · cases h
    · rename_i h1 h2
      cases h
      exact ⟨rfl, by simpa using h1, by simpa using h2⟩

theorem guardConn_inv (h : guardConn w = .ok none w') : w' = w ∧ w.statement = none ∧ w.closed = false := by
  unfold guardConn at h
  split at h
  · cases h
  · split at h
    · cases h
    · rename_i h1 h2
      cases h
      exact ⟨rfl, by simpa using h1, by simpa using h2⟩

theorem stmtExecNeo_did {s : Nat} {kvs : KVs} {md : KVs} (h : stmtExecNeo P close s kvs w = .ok (.ok md) w') :
    ∃ a : Reply, a.Proper ∧ a.summary = md ∧ (w.stmt s).rows = none ∧ (w.stmt s).closed = false ∧
      Did w w' ([.send (.run (w.stmt s).query kvs) none, .send .pullAll none] ++ a.events) := by
  obtain ⟨g, w1, h1, h'⟩ := run_inv h
  clear h
  cases g with
  | some e => cases h'
  | none =>
    obtain ⟨rfl, hcl, hr⟩ := guardStmt_inv h1
    obtain ⟨_, _, h0, h⟩ := run_inv h'
    cases h0
    obtain ⟨⟨run, pull, e⟩, w2, h2, h⟩ := run_inv h
    cases e with
    | some e => cases h
    | none =>
      have h3 := withConn_inv h2
      obtain ⟨e, w3, h4, h5⟩ := run_inv h3
      cases e with
      | some e => cases h5
      | none =>
        obtain ⟨⟨v, e⟩, w4, h6, h7⟩ := run_inv h5
        cases e with
        | some e => cases h7
        | none =>
          obtain ⟨⟨vs, v', e⟩, w5, h8, h9⟩ := run_inv h7
          cases h9
          simp only at h
          split at h
          · cases h
          · rename_i hs
            cases run <;> first | exact absurd rfl hs | skip
            rename_i hd
            split at h
            · cases h
              obtain ⟨d8, hp⟩ := consumeAll_did h8
              refine ⟨⟨hd, vs, md⟩, hp, rfl, hr, hcl, ?_⟩
              have := ((sendRunPullAll_did h4).tr (consume_did h6)).tr d8
              simpa [Reply.events] using this
            · cases h

theorem execNeo_did {q : Str} {kvs : KVs} {md : KVs} (h : execNeo P close q kvs w = .ok (.ok md) w') :
    ∃ a : Reply, a.Proper ∧ a.summary = md ∧ w'.log = w.log ++ ([.send (.run q kvs) none, .send .pullAll none] ++ a.events) := by
  obtain ⟨g, w1, h1, h'⟩ := run_inv h
  clear h
  cases g with
  | some e => cases h'
  | none =>
    obtain ⟨rfl, hst, hcl⟩ := guardConn_inv h1
    obtain ⟨s, w2, h2, h⟩ := run_inv h'
    cases h2
    obtain ⟨res, w3, h3, h⟩ := run_inv h
    obtain ⟨x, w4, h4, h⟩ := run_inv h
    cases h
    obtain ⟨a, hp, rfl, _, _, hd⟩ := stmtExecNeo_did h3
    refine ⟨a, hp, rfl, ?_⟩
    have e : w3.stmt w1.stmts.length = { query := q, queries := [], conn := true, closed := false, rows := none } := by
      unfold World.stmt
      rw [hd.stmts]
      exact stmt_append w1 _
    rw [stmtClose_norows P close (by rw [e]) (by rw [e]) (by rw [e])] at h4
    cases h4
    have := hd.log
    rw [show ∀ x : World σ, (x.stmtDone w1.stmts.length).log = x.log from fun _ => rfl, this]
    rw [show World.stmt _ w1.stmts.length = _ from stmt_append w1 _]

theorem send_txs {v : Val} {o : Option GoErr} (h : send P v w = .ok o w') : w'.txs = w.txs := by
  unfold send at h
  cases h
  rfl

theorem consume_txs {v : Val} (h : consume P close w = .ok (v, none) w') : w'.txs = w.txs := by
  obtain ⟨⟨v1, e1⟩, w1, h1, h⟩ := run_inv h
  cases e1 with
  | some e => cases h
  | none =>
    have h2 : w1.txs = w.txs := by
      unfold recv at h1
      simp only at h1
      cases hn : nextItem P w <;> rw [hn] at h1 <;> cases h1
      rfl
    cases v1 with
    | failure md =>
      obtain ⟨a, w2, h3, h4⟩ := run_inv h
      cases a <;> cases h4
    | _ => cases h; exact h2

theorem single_txs {q : Str} {run pull : Val} (h : sendRunPullAllConsumeSingle P close q [] w = .ok (run, pull, none) w') : w'.txs = w.txs := by
  obtain ⟨a, w1, h1, h⟩ := run_inv h
  cases a with
  | some e => cases h
  | none =>
    obtain ⟨a, w2, h2, h1⟩ := run_inv h1
    cases a with
    | some e => cases h1
    | none =>
      obtain ⟨b, w2', h2', h2⟩ := run_inv h2
      obtain ⟨c, w1', h1', h1⟩ := run_inv h1
      have e2 : w2 = w2' := by cases b <;> cases h2; rfl
      have e1 : w1 = w1' := by cases c <;> cases h1; rfl
      subst e1 e2
      obtain ⟨⟨v, e⟩, w3, h3, h⟩ := run_inv h
      cases e with
      | some e => cases h
      | none =>
        obtain ⟨⟨v', e⟩, w4, h4, h⟩ := run_inv h
        cases e with
        | some e => cases h
        | none =>
          cases h
          rw [consume_txs h4, consume_txs h3, send_txs h1', send_txs h2']

theorem begin_did {t : Nat} (h : begin_ P close w = .ok (.ok t) w') : ∃ md md', t = w.txs.length ∧
    w'.log = w.log ++ [.send (.run qBegin []) none, .send .pullAll none, .recv (.val (.success md)), .recv (.val (.success md'))] := by
  unfold begin_ at h
  simp only [get_bind] at h
  split at h
  · cases h
  · simp only [get_bind] at h
    split at h
    · cases h
    · simp only [get_bind] at h
      split at h
      · cases h
      · obtain ⟨⟨run, pull, e⟩, w2, h2, h'⟩ := run_inv h
        clear h
        cases e with
        | some e => cases h'
        | none =>
          simp only at h'
          split at h'
          · cases h'
          · split at h'
            · cases h'
            · rename_i hr hp
              cases h'
              cases run <;> first | exact absurd rfl hr | skip
              cases pull <;> first | exact absurd rfl hp | skip
              have ht : w2.txs = w.txs := single_txs h2
              have hl := single_inv h2
              exact ⟨_, _, by rw [ht], hl⟩

theorem stmtQueryNeo_did {s r : Nat} {kvs : KVs} (h : stmtQueryNeo P close s kvs w = .ok (.ok r) w') :
    ∃ hd, (w'.row r).md = hd ∧ w'.log = w.log ++ [.send (.run (w.stmt s).query kvs) none, .recv (.val (.success hd))] := by
  obtain ⟨g, w1, h1, h'⟩ := run_inv h
  clear h
  cases g with
  | some e => cases h'
  | none =>
    obtain ⟨rfl, hcl, hr⟩ := guardStmt_inv h1
    obtain ⟨_, _, h0, h⟩ := run_inv h'
    cases h0
    obtain ⟨⟨v, e⟩, w2, h2, h⟩ := run_inv h
    cases e with
    | some e => cases h
    | none =>
      have h3 := withConn_inv h2
      obtain ⟨e, w3, h4, h5⟩ := run_inv h3
      cases e with
      | some e => cases h5
      | none =>
        have d := (sendRun_did h4).tr (consume_did h5)
        cases v <;> first | (cases h; done) | skip
        cases h
        refine ⟨_, ?_, d.log⟩
        simp [World.row, World.setStmt]

theorem queryNeo_did {q : Str} {r : Nat} {kvs : KVs} (h : queryNeo P close q kvs w = .ok (.ok r) w') :
    ∃ hd, (w'.row r).md = hd ∧ w'.log = w.log ++ [.send (.run q kvs) none, .send .pullAll none, .recv (.val (.success hd))] := by
  obtain ⟨g, w1, h1, h'⟩ := run_inv h
  clear h
  cases g with
  | some e => cases h'
  | none =>
    obtain ⟨rfl, hst, hcl⟩ := guardConn_inv h1
    obtain ⟨s, w2, h2, h⟩ := run_inv h'
    cases h2
    obtain ⟨_, w3, h3, h⟩ := run_inv h
    cases h3
    obtain ⟨⟨v, e⟩, w4, h4, h⟩ := run_inv h
    cases e with
    | some e =>
      obtain ⟨_, _, _, h⟩ := run_inv h
      cases h
    | none =>
      obtain ⟨e, w5, h5, h6⟩ := run_inv h4
      cases e with
      | some e => cases h6
      | none =>
        have d := (sendRunPullAll_did h5).tr (consume_did h6)
        cases v with
        | success md =>
          cases h
          exact ⟨md, by simp [World.row, World.setStmt], d.log⟩
        | _ =>
          obtain ⟨_, _, _, h⟩ := run_inv h
          cases h

theorem sendAll_did {msg : String} : ∀ {l : List (Str × KVs)} {w w' : World σ}, sendAll P msg l w = .ok none w' →
    Did w w' (l.flatMap fun x => [.send (.run x.1 x.2) none, .send .pullAll none])
  | [], w, w', h => by cases h; exact ⟨by simp, rfl, rfl⟩
  | (q, ps) :: l, w, w', h => by
    obtain ⟨e, w1, h1, h⟩ := run_inv h
    cases e with
    | some e => cases h
    | none => exact (sendRunPullAll_did h1).tr (sendAll_did h)

theorem collect_did : ∀ {n : Nat} {w w' : World σ} {mds : List KVs}, collect P close n w = .ok (.ok mds) w' →
    ∃ as : List Reply, (∀ a ∈ as, a.Proper) ∧ mds = as.map Reply.summary ∧ as.length = n ∧ Did w w' (as.flatMap Reply.events)
  | 0, w, w', mds, h => by cases h; exact ⟨[], by simp, rfl, rfl, by simp, rfl, rfl⟩
  | n + 1, w, w', mds, h => by
    obtain ⟨⟨run, e⟩, w1, h1, h⟩ := run_inv h
    cases e with
    | some e => cases h
    | none =>
      simp only at h
      split at h
      · cases h
      · rename_i hs
        cases run <;> first | exact absurd rfl hs | skip
        rename_i hd
        obtain ⟨⟨vs, v, e⟩, w2, h2, h⟩ := run_inv h
        cases e with
        | some e => cases h
        | none =>
          cases v with
          | success md =>
            obtain ⟨x, w3, h3, h⟩ := run_inv h
            cases x with
            | error e => cases h
            | ok l =>
              cases h
              obtain ⟨as, k1, rfl, k3, k4⟩ := collect_did h3
              obtain ⟨d2, hp⟩ := consumeAll_did h2
              refine ⟨⟨hd, vs, md⟩ :: as, ?_, rfl, by simp [k3], ?_⟩
              · intro a ha
                rcases List.mem_cons.1 ha with rfl | ha
                · exact hp
                · exact k1 a ha
              · have := (consume_did h1).tr (d2.tr k4)
                simpa [Reply.events] using this
          | _ => cases h

theorem stmtExecPipeline_did {s : Nat} {l : List KVs} {mds : List KVs} (h : stmtExecPipeline P close s l w = .ok (.ok mds) w') :
    ∃ as : List Reply, (∀ a ∈ as, a.Proper) ∧ mds = as.map Reply.summary ∧ as.length = (w.stmt s).queries.length ∧ l.length = (w.stmt s).queries.length ∧
      Did w w' ((((w.stmt s).queries.zip l).flatMap fun x => [.send (.run x.1 x.2) none, .send .pullAll none]) ++ as.flatMap Reply.events) := by
  obtain ⟨g, w1, h1, h'⟩ := run_inv h
  clear h
  cases g with
  | some e => cases h'
  | none =>
    obtain ⟨rfl, hcl, hr⟩ := guardStmt_inv h1
    obtain ⟨_, _, h0, h⟩ := run_inv h'
    cases h0
    simp only at h
    split at h
    · cases h
    · rename_i hlen
      obtain ⟨e, w2, h2, h⟩ := run_inv h
      cases e with
      | some e => cases h
      | none =>
        have d := sendAll_did (withConn_inv h2)
        obtain ⟨as, k1, k2, k3, k4⟩ := collect_did (withConn_inv h)
        exact ⟨as, k1, k2, k3, by simpa using hlen, d.tr k4⟩

theorem execPipeline_did {qs : List Str} {l : List KVs} {mds : List KVs} (h : execPipeline P close qs l w = .ok (.ok mds) w') :
    ∃ as : List Reply, (∀ a ∈ as, a.Proper) ∧ mds = as.map Reply.summary ∧ as.length = qs.length ∧ l.length = qs.length ∧
      w'.log = w.log ++ (((qs.zip l).flatMap fun x => [.send (.run x.1 x.2) none, .send .pullAll none]) ++ as.flatMap Reply.events) := by
  obtain ⟨g, w1, h1, h'⟩ := run_inv h
  clear h
  cases g with
  | some e => cases h'
  | none =>
    obtain ⟨rfl, hst, hcl⟩ := guardConn_inv h1
    obtain ⟨s, w2, h2, h⟩ := run_inv h'
    cases h2
    obtain ⟨res, w3, h3, h⟩ := run_inv h
    obtain ⟨x, w4, h4, h⟩ := run_inv h
    cases h
    obtain ⟨as, k1, rfl, k3, k4, hd⟩ := stmtExecPipeline_did h3
    have e0 : World.stmt { w1 with stmts := w1.stmts ++ [{ query := [], queries := qs, conn := true, closed := false, rows := none }] } w1.stmts.length = _ := stmt_append w1 _
    rw [e0] at k3 k4 hd
    refine ⟨as, k1, rfl, k3, k4, ?_⟩
    have e : w3.stmt w1.stmts.length = { query := [], queries := qs, conn := true, closed := false, rows := none } := by
      unfold World.stmt
      rw [hd.stmts]
      exact stmt_append w1 _
    rw [stmtClose_norows P close (by rw [e]) (by rw [e]) (by rw [e])] at h4
    cases h4
    exact hd.log

theorem stmtQueryPipeline_did {s r : Nat} {l : List KVs} (h : stmtQueryPipeline P close s l w = .ok (.ok r) w') :
    ∃ hd, (w'.row r).md = hd ∧ l.length = (w.stmt s).queries.length ∧
      w'.log = w.log ++ ((((w.stmt s).queries.zip l).flatMap fun x => [.send (.run x.1 x.2) none, .send .pullAll none]) ++ [.recv (.val (.success hd))]) := by
  obtain ⟨g, w1, h1, h'⟩ := run_inv h
  clear h
  cases g with
  | some e => cases h'
  | none =>
    obtain ⟨rfl, hcl, hr⟩ := guardStmt_inv h1
    obtain ⟨_, _, h0, h⟩ := run_inv h'
    cases h0
    simp only at h
    split at h
    · cases h
    · rename_i hlen
      obtain ⟨e, w2, h2, h⟩ := run_inv h
      cases e with
      | some e => cases h
      | none =>
        have d := sendAll_did (withConn_inv h2)
        obtain ⟨⟨v, e⟩, w3, h3, h⟩ := run_inv h
        cases e with
        | some e => cases h
        | none =>
          have d2 := d.tr (consume_did (withConn_inv h3))
          cases v <;> first | (cases h; done) | skip
          cases h
          refine ⟨_, ?_, by simpa using hlen, d2.log⟩
          simp [World.row, World.setStmt]

theorem queryPipeline_did {qs : List Str} {r : Nat} {l : List KVs} (h : queryPipeline P close qs l w = .ok (.ok r) w') :
    ∃ hd, (w'.row r).md = hd ∧ l.length = qs.length ∧
      w'.log = w.log ++ (((qs.zip l).flatMap fun x => [.send (.run x.1 x.2) none, .send .pullAll none]) ++ [.recv (.val (.success hd))]) := by
  obtain ⟨g, w1, h1, h'⟩ := run_inv h
  clear h
  cases g with
  | some e => cases h'
  | none =>
    obtain ⟨rfl, hst, hcl⟩ := guardConn_inv h1
    obtain ⟨s, w2, h2, h⟩ := run_inv h'
    cases h2
    obtain ⟨_, w3, h3, h⟩ := run_inv h
    cases h3
    obtain ⟨x, w4, h4, h⟩ := run_inv h
    cases x with
    | error e => cases h
    | ok r' =>
      cases h
      obtain ⟨hd, k1, k2, k3⟩ := stmtQueryPipeline_did h4
      have e0 : World.stmt { w1 with stmts := w1.stmts ++ [{ query := [], queries := qs, conn := true, closed := false, rows := none }], statement := some w1.stmts.length } w1.stmts.length = _ := stmt_append w1 _
      rw [e0] at k2 k3
      refine ⟨hd, ?_, k2, k3⟩
      rw [← k1]
      simp only [World.row, World.setRow, List.getElem?_modify]
      cases w4.rows[r]? <;> simp

/-- Reading a row or the end does not change the metadata of the rows. -/
theorem nextNeo_md {r : Nat} {x : Option (List Val)} {md : Option KVs} {e : Option GoErr} (h : nextNeo P close r w = .ok (x, md, e) w')
    (he : e = none ∨ e = some .eof ∧ md.isSome = true) : (w'.row r).md = (w.row r).md := by
  have keep : ∀ (w : World σ) (f : Rows → Rows), (∀ x, (f x).md = x.md) → ((w.setRow r f).row r).md = (w.row r).md := by
    intro w f hf
    simp only [World.row, World.setRow, List.getElem?_modify]
    cases w.rows[r]? <;> simp [hf]
  obtain ⟨_, _, h1, h'⟩ := run_inv h
  cases h1
  clear h
  split at h'
  · cases h'; rcases he with he | ⟨_, he⟩ <;> cases he
  · obtain ⟨pe, w2, h1, h⟩ := run_inv h'
    cases pe with
    | some e => cases h; rcases he with he | ⟨_, he⟩ <;> cases he
    | none =>
      have e2 : (w2.row r).md = (w.row r).md := by
        split at h1
        · obtain ⟨_, w3, h2, h1⟩ := run_inv h1
          cases h2
          obtain ⟨o, w4, h3, h1⟩ := run_inv h1
          cases o with
          | some e =>
            obtain ⟨_, w5, h4, h1⟩ := run_inv h1
            cases h1
          | none =>
            cases h1
            have := (sendPullAll_did (withConn_inv h3)).rows
            rw [show w2.row r = World.row (w.setRow r fun x => { x with consumed := true }) r by unfold World.row; rw [this]]
            exact keep _ _ fun _ => rfl
        · cases h1; rfl
      obtain ⟨⟨v, o⟩, w3, h3, h⟩ := run_inv h
      cases o with
      | some e =>
        cases h
        rcases he with he | ⟨_, he⟩ <;> cases he
      | none =>
        have d := (consume_did (withConn_inv h3)).rows
        have e3 : (w3.row r).md = (w.row r).md := by
          rw [← e2]; unfold World.row; rw [d]
        cases v with
        | success m =>
          obtain ⟨_, w4, h4, h⟩ := run_inv h
          cases h4; cases h
          rw [← e3]
          exact keep _ _ fun _ => rfl
        | _ => cases h; exact e3

theorem rowsAll_md {r : Nat} {data : List (List Val)} {md : KVs} (h : rowsAll P close r w = .ok (data, some md, none) w') : (w'.row r).md = (w.row r).md := by
  have hgen : ∀ (f : Nat) (out : List (List Val)) (w : World σ), allLoop P close r f out w = .ok (data, some md, none) w' → (w'.row r).md = (w.row r).md := by
    intro f
    induction f with
    | zero => intro out w h; cases h
    | succ f ih =>
      intro out w h
      obtain ⟨⟨row, m, e⟩, w2, h1, h⟩ := run_inv h
      cases e with
      | none =>
        have e1 := nextNeo_md h1 (.inl rfl)
        cases row with
        | none => cases h; exact e1
        | some fs => exact (ih _ _ h).trans e1
      | some e =>
        have h : (if e.isEOF then M.pure (out, m, none) else M.pure (out, m, some e) : M σ _) w2 = .ok (data, some md, none) w' := by
          cases row <;> exact h
        split at h
        · rename_i he
          cases h
          cases e <;> first | (cases he; done) | skip
          exact nextNeo_md h1 (.inr ⟨rfl, rfl⟩)
        · cases h
  exact hgen _ _ _ h

end Bolt
