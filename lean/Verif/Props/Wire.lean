import Verif.Proofs.WireOrder
import Verif.Proofs.Silent
import Verif.Proofs.Executable
import Verif.Props.Session6
import Verif.Props.Session3
import Verif.Model.Stream

/-!
# C76 and C77: what is on the wire after a network error
-/

namespace Bolt

variable {σ : Type} {P : Peer σ} {n : Nat}

/-! ## C76 -/

/-- C76 for a network that does not recover, and messages that the encoder handles as it should: after any calls, against
any peer, the bytes written are those of the messages sent, one after the other, up to some point; and all of them if no
message that could be delivered was reported as not written. Missing: a network that recovers (`c76_false`), messages that
the encoder cuts off (`c09_false`) or garbles (C01, C06). -/
theorem c76_stream_partial {lo : Nat} (hlo : 0 < lo) {w w' : World σ} {ops : List Op} (h : Made P n w ops w')
    (hcs : lo ≤ w.chunkSize ∧ w.chunkSize ≤ 65535) (hops : ∀ m, .setChunkSize m ∈ ops → lo ≤ m.toNat) :
    ∃ evs, w'.log = w.log ++ evs ∧ ((∀ v e, .send v e ∈ evs → v.Fits lo) →
      ∃ wire, StreamOf evs wire ∧ w'.sink.out <+: w.sink.out ++ wire ∧ (¬ Lost evs → w'.sink.out = w.sink.out ++ wire)) := by
  have h0 : InOrder lo w.log w.sink w := by
    refine ⟨hcs.1, hcs.2, [], by simp, fun _ => ⟨[], .nil, ?_⟩⟩
    cases hb : w.sink.budget with
    | none => exact .inl ⟨hb, by simp⟩
    | some k => exact .inr ⟨k, by simp [hb], by simp, .inl (by simp)⟩
  obtain ⟨_, _, evs, h1, h2⟩ := made_inv (I := InOrder lo w.log w.sink) (fun h m => h.step hlo m)
    (fun m hm ⟨_, _, h3⟩ => ⟨hops m hm, by have := m.toNat_lt; simp only; omega, h3⟩) h h0
  refine ⟨evs, h1, fun hf => ?_⟩
  obtain ⟨wire, h3, h4⟩ := h2 hf
  refine ⟨wire, h3, ?_⟩
  rcases h4 with ⟨_, h4⟩ | ⟨K, _, h4, h5⟩
  · rw [h4]; exact ⟨List.prefix_refl _, fun _ => rfl⟩
  · rw [h4]
    refine ⟨by rw [List.prefix_append_right_inj]; exact List.take_prefix _ _, fun hl => ?_⟩
    rw [List.take_of_length_le (h5.resolve_right hl)]

/-- Three calls made one after the other. -/
theorem made_three {w w1 w2 w3 : World σ} {a b c : Op} {ea eb ec : Option GoErr} (ha : a.Exists w) (h1 : a.run P (closeN P n) w = .ok ea w1)
    (hb : b.Exists w1) (h2 : b.run P (closeN P n) w1 = .ok eb w2) (hc : c.Exists w2) (h3 : c.run P (closeN P n) w2 = .ok ec w3) : Made P n w [a, b, c] w3 :=
  .snoc (.snoc (.snoc (.nil w) ha h1) hb h2) hc h3

/-- A query, a query with a parameter that is rejected, and a query in which the network breaks: the stream of the
messages of the first and the third, cut off. -/
example : ∃ w', Made yes 1 { yesConn with sink := ⟨[], some 18⟩ } [.exec [65] [], .exec [66] [([112], .other 0)], .exec [67] []] w' ∧
    w'.sink.out = [0, 5, 178, 16, 129, 65, 160, 0, 0, 0, 2, 176, 63, 0, 0, 0, 5, 178] ∧
    ∃ wire, StreamOf w'.log wire ∧ w'.sink.out <+: wire := by
  obtain ⟨⟨e1, e2, e3, w1, w2⟩, w3, h, hp⟩ := Out.of_test (o := (do
      let e1 ← Op.run yes (closeN yes 1) (.exec [65] [])
      let w1 ← M.get id
      let e2 ← Op.run yes (closeN yes 1) (.exec [66] [([112], .other 0)])
      let w2 ← M.get id
      let e3 ← Op.run yes (closeN yes 1) (.exec [67] [])
      M.pure (e1, e2, e3, w1, w2) : M Unit _) { yesConn with sink := ⟨[], some 18⟩ })
    (p := fun _ w => w.sink.out == [0, 5, 178, 16, 129, 65, 160, 0, 0, 0, 2, 176, 63, 0, 0, 0, 5, 178] && match w.log with
      | [.send (.run [65] []) _, .send .pullAll _, .recv _, .recv _, .send (.run [66] [([112], .other 0)]) _, .send (.run [67] []) _] => true
      | _ => false) (by decide +kernel)
  obtain ⟨_, _, h1, h⟩ := run_inv h
  obtain ⟨_, _, g1, h⟩ := run_inv h
  cases g1
  obtain ⟨_, _, h2, h⟩ := run_inv h
  obtain ⟨_, _, g1, h⟩ := run_inv h
  cases g1
  obtain ⟨_, _, h3, h⟩ := run_inv h
  cases h
  have hm := made_three (a := .exec [65] []) (b := .exec [66] [([112], .other 0)]) (c := .exec [67] []) trivial h1 trivial h2 trivial h3
  simp only [Bool.and_eq_true, beq_iff_eq] at hp
  obtain ⟨evs, g1, g2⟩ := c76_stream_partial (lo := 100) (by decide) hm ⟨by decide, by decide⟩ (by intro m hm; simp at hm)
  simp only [yesConn, List.nil_append] at g1 g2
  refine ⟨_, hm, hp.1, ?_⟩
  rw [g1]
  obtain ⟨wire, g3, g4, _⟩ := g2 (by
    rw [← g1]
    have := hp.2
    split at this
    · next hl =>
      rw [hl]
      intro v e hv
      simp only [List.mem_cons, Event.send.injEq, reduceCtorEq, List.not_mem_nil, false_or, or_false] at hv
      have hq : ∀ q : Str, q.length ≤ 60000 → (Val.run q []).Fits 100 := fun q h => .inl (tiny_run h)
      rcases hv with ⟨rfl, _⟩ | ⟨rfl, _⟩ | ⟨rfl, _⟩ | ⟨rfl, _⟩
      · exact hq _ (by decide)
      · exact .inl tiny_pullAll
      · refine .inr ⟨?_, by decide⟩
        simp [Val.Supported, Val.All, Val.SupportedHere, Val.AllKVs]
      · exact hq _ (by decide)
    · cases this)
  exact ⟨wire, g3, g4⟩

/-- C76 is false when the network recovers: a write of the query "ABCDEFGH" times out after seven bytes and ExecNeo returns an
error; the network recovers, and the next ExecNeo, of "X", is written behind those seven bytes. The server takes the
two together for one message and executes a query that nobody asked for: "AB", the length bytes and the beginning of the
second message. ExecNeo reports success for "X", which was never executed. -/
theorem c76_false : ∃ e md w1 w2,
    execNeo diary.peer (closeN diary.peer 1) [65, 66, 67, 68, 69, 70, 71, 72] [] { freshConn [] 4096 with sink := ⟨[], some 7⟩ } = .ok (.error e) w1 ∧
    execNeo diary.peer (closeN diary.peer 1) [88] [] w1.recovered = .ok (.ok md) w2 ∧
    w2.srv.db = [[65, 66, 0, 5, 178, 16, 129, 88]] := by
  rw [peer_eq]
  obtain ⟨⟨e, md, w1⟩, w2, h, hp⟩ := Out.of_test (o := (fun w =>
      match execNeo diary.server (closeN diary.server 1) [65, 66, 67, 68, 69, 70, 71, 72] [] w with
      | .ok (.error e) w1 =>
        match execNeo diary.server (closeN diary.server 1) [88] [] w1.recovered with
        | .ok (.ok md) w2 => .ok (e, md, w1) w2
        | _ => .deep w
      | _ => .deep w : M _ _) { freshConn [] 4096 with sink := ⟨[], some 7⟩ })
    (p := fun _ w => w.srv.db == [[65, 66, 0, 5, 178, 16, 129, 88]]) (by decide +kernel)
  simp only [beq_iff_eq] at hp
  dsimp only at h
  split at h
  · next h1 =>
    split at h
    · next h2 => cases h; exact ⟨_, _, _, _, h1, h2, hp⟩
    · cases h
  · cases h

/-! ## C77 -/

/-- C77 when the peer stays silent (it is gone, or the network to it is): after any calls, no call returns a result, a row
or success of a transaction. Missing: answers that arrive late (`c77_false`). -/
theorem c77_silent_partial (hP : P.Silent) {w0 w : World σ} (hi : w0.inbox = []) (hr : Reach P n w0 w) :
    (∀ q kvs md w', execNeo P (closeN P n) q kvs w ≠ .ok (.ok md) w') ∧
    (∀ q kvs r w', queryNeo P (closeN P n) q kvs w ≠ .ok (.ok r) w') ∧
    (∀ q kvs x w', queryNeoAll P (closeN P n) q kvs w ≠ .ok (.ok x) w') ∧
    (∀ qs l mds w', qs ≠ [] → execPipeline P (closeN P n) qs l w ≠ .ok (.ok mds) w') ∧
    (∀ qs l r w', queryPipeline P (closeN P n) qs l w ≠ .ok (.ok r) w') ∧
    (∀ s kvs md w', stmtExecNeo P (closeN P n) s kvs w ≠ .ok (.ok md) w') ∧
    (∀ s kvs r w', stmtQueryNeo P (closeN P n) s kvs w ≠ .ok (.ok r) w') ∧
    (∀ s l mds w', (w.stmt s).queries ≠ [] → stmtExecPipeline P (closeN P n) s l w ≠ .ok (.ok mds) w') ∧
    (∀ s l r w', stmtQueryPipeline P (closeN P n) s l w ≠ .ok (.ok r) w') ∧
    (∀ t w', begin_ P (closeN P n) w ≠ .ok (.ok t) w') ∧
    (∀ t w', Bolt.commit P (closeN P n) t w ≠ .ok none w') ∧
    (∀ t w', Bolt.rollback P (closeN P n) t w ≠ .ok none w') ∧
    (∀ r fs x w', nextNeo P (closeN P n) r w ≠ .ok (some fs, x) w') ∧
    (∀ r md x y w', nextNeo P (closeN P n) r w ≠ .ok (x, some md, y) w') := by
  have hw := Deaf.reach hP hr hi
  have hc := does_closeN (P := P) n
  refine ⟨?_, ?_, ?_, ?_, ?_, ?_, ?_, ?_, ?_, ?_, ?_, ?_, ?_, ?_⟩
  · intro q kvs md w' h
    obtain ⟨a, _, _, hl⟩ := c70_exec h
    exact Deaf.does hP (does_execNeo hc) h hw hl (.success a.header) (by simp [Reply.events])
  · intro q kvs r w' h
    exact Deaf.does hP (does_queryNeo hc) h hw (c70_query h) (.success (w'.row r).md) (by simp)
  · intro q kvs x w' h
    obtain ⟨y, w1, h1, h⟩ := run_inv h
    cases y with
    | error e => cases h
    | ok r => exact Deaf.does hP (does_queryNeo hc) h1 hw (c70_query h1) (.success (w1.row r).md) (by simp)
  · intro qs l mds w' hq h
    obtain ⟨as, _, _, h3, _, hl⟩ := c70_execPipeline h
    cases as with
    | nil => exact hq (List.eq_nil_of_length_eq_zero h3.symm)
    | cons a as => exact Deaf.does hP (does_execPipeline hc) h hw hl (.success a.header) (by simp [Reply.events])
  · intro qs l r w' h
    exact Deaf.does hP (does_queryPipeline hc) h hw (c70_queryPipeline h).2 (.success (w'.row r).md) (by simp)
  · intro s kvs md w' h
    obtain ⟨a, _, _, hl⟩ := c70_stmtExec h
    exact Deaf.does hP (does_stmtExecNeo hc) h hw hl (.success a.header) (by simp [Reply.events])
  · intro s kvs r w' h
    exact Deaf.does hP (does_stmtQueryNeo hc) h hw (c70_stmtQuery h) (.success (w'.row r).md) (by simp)
  · intro s l mds w' hq h
    obtain ⟨as, _, _, h3, _, hl⟩ := c70_stmtExecPipeline h
    cases as with
    | nil => exact hq (List.eq_nil_of_length_eq_zero h3.symm)
    | cons a as => exact Deaf.does hP (does_stmtExecPipeline hc) h hw hl (.success a.header) (by simp [Reply.events])
  · intro s l r w' h
    exact Deaf.does hP (does_stmtQueryPipeline hc) h hw (c70_stmtQueryPipeline h).2 (.success (w'.row r).md) (by simp)
  · intro t w' h
    obtain ⟨_, md, md', hl⟩ := c70_begin h
    exact Deaf.does hP (does_begin hc) h hw hl (.success md) (by simp)
  · intro t w' h
    obtain ⟨l, md, md', hl⟩ := c33_confirmed_partial h
    rw [List.append_assoc] at hl
    exact Deaf.does hP (does_txFinish hc _ _) h hw hl (.success md) (by simp)
  · intro t w' h
    obtain ⟨l, md, md', hl⟩ := c33_confirmed_partial h
    rw [List.append_assoc] at hl
    exact Deaf.does hP (does_txFinish hc _ _) h hw hl (.success md) (by simp)
  · intro r fs x w' h
    obtain ⟨_, l, hl, hr⟩ := (c64_next_partial h).1 fs rfl
    exact Deaf.does hP (does_nextNeo hc) h hw hl (.record fs) (mem_receipts (by simp [hr]))
  · intro r md x y w' h
    obtain ⟨_, _, l, hl, hr⟩ := (c64_next_partial h).2 md rfl
    exact Deaf.does hP (does_nextNeo hc) h hw hl (.success md) (mem_receipts (by simp [hr]))

/-- The peer is gone: the first query fails, and so does the second. -/
example : ∃ e w1, execNeo mute (closeN mute 1) [65] [] { freshConn 0 4096 with srv := true } = .ok (.error e) w1 ∧ w1.log.length = 3 ∧
    ∀ md w', execNeo mute (closeN mute 1) [65] [] w1 ≠ .ok (.ok md) w' := by
  obtain ⟨a, w1, h1, h2⟩ := Out.of_test (o := execNeo mute (closeN mute 1) [65] [] { freshConn 0 4096 with srv := true })
    (p := fun a w => match a with | .error _ => w.log.length == 3 | _ => false) (by decide +kernel)
  cases a with
  | ok => cases h2
  | error e =>
    refine ⟨e, w1, h1, by simpa using h2, ?_⟩
    have hr : Reach mute 1 { freshConn 0 4096 with srv := true } w1 := .step (op := .exec [65] []) (.refl _) trivial (by unfold Op.run; simp only; rw [mbind_ok h1]; rfl)
    exact (c77_silent_partial (fun _ _ => rfl) rfl hr).1 [65] []

/-- A new connection over a network on which the answers to the first two writes are late. -/
def slowConn : World (Srv Nat × Nat × List Item) where
  stmts := []
  rows := []
  txs := []
  statement := none
  transaction := none
  closed := false
  connErr := false
  chunkSize := 4096
  sockCloseErr := false
  sink := ⟨[], none⟩
  inbox := []
  srv := (⟨0, .ready, []⟩, 2, [])
  log := []

/-- C77 is false when answers arrive late: the answers to the first query come after ExecNeo has given up on it; the next
ExecNeo returns the summary of the first query (0) in place of that of its own (1). -/
theorem c77_false : ∃ e w1 w2,
    execNeo demo.peer.slow (closeN demo.peer.slow 1) [65] [] slowConn = .ok (.error e) w1 ∧ w1.connErr = true ∧
    execNeo demo.peer.slow (closeN demo.peer.slow 1) [65, 65] [] w1 = .ok (.ok [([115], .int .int64 0)]) w2 ∧
    (demo.exec 1 [65, 65] []).2.res = .summary [([115], .int .int64 1)] := by
  rw [peer_eq]
  obtain ⟨⟨e, md, w1⟩, w2, h, hp⟩ := Out.of_test (o := (fun w =>
      match execNeo demo.server.slow (closeN demo.server.slow 1) [65] [] w with
      | .ok (.error e) w1 =>
        match execNeo demo.server.slow (closeN demo.server.slow 1) [65, 65] [] w1 with
        | .ok (.ok md) w2 => .ok (e, md, w1) w2
        | _ => .deep w
      | _ => .deep w : M _ _) slowConn)
    (p := fun a _ => a.2.2.connErr && match a.2.1 with | [([115], .int .int64 0)] => true | _ => false) (by decide +kernel)
  simp only [Bool.and_eq_true] at hp
  dsimp only at h
  split at h
  · next h1 =>
    split at h
    · next h2 =>
      cases h
      obtain ⟨hp1, hp2⟩ := hp
      split at hp2
      · exact ⟨_, _, _, h1, hp1, h2, rfl⟩
      · cases hp2
    · cases h
  · cases h

end Bolt
