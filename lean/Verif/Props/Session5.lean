import Verif.Props.Session4
import Verif.Proofs.Quiet2

/-!
# C43, C63, C64: a broken connection, a pipeline of no queries, a malformed record
-/

namespace Bolt
open PackStream

variable {σ : Type} {P : Peer σ} {n : Nat} {w0 w w1 : World σ}

/-- The call met a broken connection: a write failed, or a read met the end of the stream or a network error. -/
def Broke (w w' : World σ) : Prop :=
  ∃ l, w'.log = w.log ++ l ∧ ((∃ v e, Event.send v (some e) ∈ l) ∨ Event.recv .ioerr ∈ l ∨ Event.recv .eof ∈ l)

/-- The error reports success: none, or for NextNeo the end of the rows. -/
def Op.success : Op → Option GoErr → Prop
  | .next _, e => e = none ∨ e = some .eof
  | _, e => e = none

theorem Ext.unbroken {q : Prop} {w w' : World σ} (h : Ext w w' q) (hq : q) : ¬ Broke w w' := by
  rintro ⟨l, h1, h2⟩
  obtain ⟨l', h3, h4⟩ := h
  obtain rfl := List.append_cancel_left (h1.symm.trans h3)
  rcases h2 with ⟨v, e, h5⟩ | h5 | h5 <;> exact absurd (h4 hq _ h5) (by simp [Event.quiet])

/-! ## C43 -/

theorem Hon.map {α β : Type} {x : M σ α} {f : α → β} {g : α → Prop} {k : β → Prop} (h : Hon x w g) (hk : ∀ a, k (f a) → g a) :
    Hon (x >>= fun a => M.pure (f a)) w k :=
  h.bind (fun _ _ _ _ => Hon.pure _) fun a _ _ hg => Bad.pure fun hh => hg (hk a hh)

theorem hon_op {op : Op} (hs : Sound w) (h : ∀ q kvs, op ≠ .queryAll q kvs) : Hon (op.run P (closeN P n)) w (op.success) := by
  have hc := fun w => grow_closeN (P := P) n w
  have hi := fun w => inner_closeN (P := P) n w
  cases op with
  | exec q kvs => exact (hon_execNeo hc hi q kvs w hs).map fun _ h => h
  | query q kvs => exact (hon_queryNeo hc q kvs w).map fun _ h => h
  | queryAll q kvs => exact absurd rfl (h q kvs)
  | execPipe qs l => exact (hon_execPipeline hc hi qs l w hs).map fun _ h => h
  | queryPipe qs l => exact (hon_queryPipeline hc qs l w).map fun _ h => h
  | prepare q => exact (hon_prepare q [] w).map fun _ h => h
  | preparePipe qs => exact (hon_prepare [] qs w).map fun _ h => h
  | begin => exact (hon_begin hc w).map fun _ h => h
  | stExec s kvs => exact (hon_stmtExecNeo hc s kvs w).map fun _ h => h
  | stQuery s kvs => exact (hon_stmtQueryNeo hc s kvs w).map fun _ h => h
  | stExecPipe s l => exact (hon_stmtExecPipeline hc s l w).map fun _ h => h
  | stQueryPipe s l => exact (hon_stmtQueryPipeline hc s l w).map fun _ h => h
  | next r => exact (hon_nextNeo hc r w).map fun _ h => h
  | all r => exact (hon_rowsAll hc r w).map fun _ h => h
  | nextPipe r => exact (hon_nextPipeline hc r w).map fun _ h => h
  | closeRows r => exact hon_rowsClose hc r w
  | closeStmt s => exact hon_stmtClose hc s w
  | commit t => exact hon_txFinish hc _ t w
  | rollback t => exact hon_txFinish hc _ t w
  | close => exact hon_connClose hc w
  | setChunkSize n => intro a w' e; cases e; exact ⟨[], by simp, fun _ _ h => by cases h⟩

/-- C43: any peer, any reachable state, any call but QueryNeoAll: when the call returns success no write has failed
and no read has met a broken connection. -/
theorem c43_breaks_surface_partial (h0 : NewConn w0) (hr : Reach P n w0 w) {op : Op} (h : ∀ q kvs, op ≠ .queryAll q kvs)
    {e : Option GoErr} (hrun : op.run P (closeN P n) w = .ok e w1) (he : op.success e) : ¬ Broke w w1 :=
  ((hon_op (hr.keeps h0.tidy).1.sound h) _ _ hrun).unbroken he

/-- C43 for QueryNeoAll: when it returns no error, and a summary. -/
theorem c43_queryAll_partial {q : Str} {kvs : KVs} {data : List (List Val)} {hdr md : KVs}
    (hrun : queryNeoAll P (closeN P n) q kvs w = .ok (.ok (data, hdr, some md, none)) w1) : ¬ Broke w w1 :=
  ((hon_queryNeoAll (fun w => grow_closeN (P := P) n w) q kvs w) _ _ hrun).unbroken ⟨rfl, rfl⟩

/-- Exec of a query on a connection whose peer answers: success, nothing broke. -/
example : ∃ w1, Op.run yes (closeN yes 1) (.exec [65] []) yesConn = .ok none w1 ∧ ¬ Broke yesConn w1 := by
  refine ⟨_, rfl, ?_⟩
  exact c43_breaks_surface_partial (P := yes) (n := 1) (w0 := yesConn) ⟨rfl, rfl, rfl, rfl, rfl, rfl⟩ (.refl _) (op := .exec [65] []) (fun _ _ h => by cases h) rfl rfl

/-- C43 is false for QueryNeoAll: the stream ends in the middle of the result, after a message that does not decode;
QueryNeoAll returns no rows and no error. -/
theorem c43_queryAll_false : ∃ w1, queryNeoAll script (closeN script 1) [65] [] (scriptConn cut) = .ok (.ok ([], [], none, none)) w1 ∧ Broke (scriptConn cut) w1 := by
  obtain ⟨a, w1, h1, h2⟩ := Out.of_test (o := queryNeoAll script (closeN script 1) [65] [] (scriptConn cut))
    (p := fun a w => match a, w.log with | .ok ([], [], none, none), [_, _, _, _, .recv .eof] => true | _, _ => false) (by decide +kernel)
  split at h2
  · next h3 => exact ⟨w1, h1, w1.log, rfl, .inr (.inr (by rw [h3]; simp))⟩
  · cases h2

/-- Such a message: one byte, the marker of an integer without the integer. -/
theorem c43_undecodable (e : GoErr) : decodeFrom { segs := [[0, 1, 0xC8, 0, 0]], err := e } = (.error (.err .eof), { segs := [], err := e }) := by
  set_option maxRecDepth 4000 in rfl

/-! ## C64 -/

theorem consume_received {close : M σ (Option GoErr)} {v : Val} (h : consume P close w = .ok (v, none) w1) : w1.log = w.log ++ [.recv (.val v)] := by
  obtain ⟨⟨v1, e1⟩, w1, h1, h2⟩ := run_inv h
  cases e1 with
  | some e => cases h2
  | none =>
    have hl : w1.log = w.log ++ [.recv (.val v1)] := by
      unfold recv at h1
      simp only at h1
      cases hn : nextItem P w <;> rw [hn] at h1 <;> cases h1
      rfl
    cases v1 with
    | failure md =>
      obtain ⟨a, w2, h3, h4⟩ := run_inv h2
      cases a <;> cases h4
    | _ => cases h2; exact hl

theorem sendPullAll_sent (h : sendPullAll P w = .ok none w1) : w1.log = w.log ++ [.send .pullAll none] := by
  obtain ⟨a, w2, h1, h2⟩ := run_inv h
  unfold send at h1
  cases h1
  cases he : (encodeTo w.chunkSize w.sink .pullAll).2 with
  | none => simp only [he] at h2; cases h2; simp [he]
  | some e => simp only [he] at h2; cases h2

/-- C64 for NextNeo: a row is a RECORD received, the end with a summary is a SUCCESS received. Any peer, any state.
Missing: the end without a summary. -/
theorem c64_next_partial {close : M σ (Option GoErr)} {r : Nat} {x : Option (List Val) × Option KVs × Option GoErr} (h : nextNeo P close r w = .ok x w1) :
    (∀ fs, x.1 = some fs → x.2 = (none, none) ∧ ∃ l, w1.log = w.log ++ l ∧ receipts l = [.val (.record fs)]) ∧
    (∀ md, x.2.1 = some md → x.1 = none ∧ x.2.2 = some .eof ∧ ∃ l, w1.log = w.log ++ l ∧ receipts l = [.val (.success md)]) := by
  obtain ⟨_, _, h1, h⟩ := run_inv h
  cases h1
  split at h
  · cases h; exact ⟨fun _ h => (by cases h), fun _ h => (by cases h)⟩
  · obtain ⟨pe, w2, h1, h⟩ := run_inv h
    cases pe with
    | some e => cases h; exact ⟨fun _ h => (by cases h), fun _ h => (by cases h)⟩
    | none =>
      have hp : ∃ p, w2.log = w.log ++ p ∧ receipts p = [] := by
        split at h1
        · obtain ⟨_, w3, h2, h1⟩ := run_inv h1
          cases h2
          obtain ⟨a, w3, h2, h1⟩ := run_inv h1
          unfold withConn at h2
          split at h2
          · cases a with
            | some e =>
              obtain ⟨_, _, h3, h1⟩ := run_inv h1
              cases h1
            | none =>
              cases h1
              have := sendPullAll_sent h2
              exact ⟨[.send .pullAll none], this, rfl⟩
          · cases h2
        · cases h1
          exact ⟨[], by simp, rfl⟩
      obtain ⟨p, hp1, hp2⟩ := hp
      obtain ⟨⟨v, e⟩, w3, h1, h⟩ := run_inv h
      unfold withConn at h1
      split at h1
      · cases e with
        | some e => cases h; exact ⟨fun _ h => (by cases h), fun _ h => (by cases h)⟩
        | none =>
          have hl := consume_received h1
          have hr : ∀ v : Val, receipts (p ++ [.recv (.val v)]) = [.val v] := by
            intro v
            clear hp1 hl
            induction p with
            | nil => rfl
            | cons a p ih => cases a <;> simp [receipts] at hp2 ⊢; exact ih hp2
          cases v with
          | success md =>
            obtain ⟨_, _, h2, h⟩ := run_inv h
            cases h2
            cases h
            refine ⟨fun _ h => (by cases h), fun m hm => ?_⟩
            cases hm
            exact ⟨rfl, rfl, p ++ [.recv (.val (.success md))], by rw [show (World.setRow w3 r _).log = w3.log from rfl, hl, hp1, List.append_assoc], hr _⟩
          | record fs =>
            cases h
            refine ⟨fun m hm => ?_, fun _ h => (by cases h)⟩
            cases hm
            exact ⟨rfl, p ++ [.recv (.val (.record fs))], by rw [hl, hp1, List.append_assoc], hr _⟩
          | _ => cases h; exact ⟨fun _ h => (by cases h), fun _ h => (by cases h)⟩
      · cases h1

theorem receipts_append (l l' : List Event) : receipts (l ++ l') = receipts l ++ receipts l' := by
  induction l with
  | nil => rfl
  | cons a l ih => cases a <;> simp [receipts, ih]

/-- C64 for All: when it returns a summary and no error, what was received is exactly the rows it returned, as RECORDs
in that order, and then the summary. Any peer, any state. Missing: the end without a summary. -/
theorem c64_all_partial {close : M σ (Option GoErr)} {r : Nat} {data : List (List Val)} {md : KVs} (h : rowsAll P close r w = .ok (data, some md, none) w1) :
    ∃ l, w1.log = w.log ++ l ∧ receipts l = data.map (fun fs => .val (.record fs)) ++ [.val (.success md)] := by
  have hgen : ∀ (f : Nat) (out : List (List Val)) (w : World σ), allLoop P close r f out w = .ok (data, some md, none) w1 →
      ∃ l rest, data = out ++ rest ∧ w1.log = w.log ++ l ∧ receipts l = rest.map (fun fs => .val (.record fs)) ++ [.val (.success md)] := by
    intro f
    induction f with
    | zero => intro out w h; cases h
    | succ f ih =>
      intro out w h
      obtain ⟨⟨row, m, e⟩, w2, h1, h⟩ := run_inv h
      obtain ⟨k1, k2⟩ := c64_next_partial h1
      cases e with
      | none =>
        cases row with
        | none =>
          have h' : (out, m, none) = (data, some md, (none : Option GoErr)) := by cases h; rfl
          cases h'
          obtain ⟨_, h3, _⟩ := k2 _ rfl
          cases h3
        | some fs =>
          obtain ⟨_, l, h3, h4⟩ := k1 fs rfl
          obtain ⟨l', rest, h5, h6, h7⟩ := ih _ _ h
          refine ⟨l ++ l', fs :: rest, by simp [h5], by rw [h6, h3, List.append_assoc], ?_⟩
          rw [receipts_append, h4, h7]; rfl
      | some e =>
        have : out = data ∧ m = some md ∧ w2 = w1 := by
          cases row <;> simp only at h <;> split at h <;> cases h <;> exact ⟨rfl, rfl, rfl⟩
        obtain ⟨rfl, rfl, rfl⟩ := this
        obtain ⟨_, _, l, h3, h4⟩ := k2 md rfl
        exact ⟨l, [], by simp, h3, h4⟩
  obtain ⟨l, rest, h1, h2, h3⟩ := hgen _ _ _ h
  rw [List.nil_append] at h1
  subst h1
  exact ⟨l, h2, h3⟩

/-- C64 is false: the peer announced a result, and sent one message that is no record and no summary. All returns no
rows and no error, as if the result were empty. -/
theorem c64_false : ∃ r w1 w2, queryNeo script (closeN script 1) [65] [] (scriptConn cut) = .ok (.ok r) w1 ∧
    rowsAll script (closeN script 1) r w1 = .ok ([], none, none) w2 ∧ receipts w2.log = [.val (.success []), .bad .eof false] := by
  obtain ⟨⟨r, w1⟩, w1', h1, h2⟩ := Out.of_test (o := (do
      match ← queryNeo script (closeN script 1) [65] [] with
      | .ok r => M.pure (r, ← M.get id)
      | .error _ => M.panic .index : M _ _) (scriptConn cut))
    (p := fun a _ => (rowsAll script (closeN script 1) a.1 a.2).test fun x w => match x, receipts w.log with | ([], none, none), [.val (.success []), .bad .eof false] => true | _, _ => false)
    (by decide +kernel)
  obtain ⟨x, w2, h3, h4⟩ := run_inv h1
  cases x with
  | error e => cases h4
  | ok r' =>
    cases h4
    obtain ⟨y, w3, h5, h6⟩ := Out.of_test h2
    split at h6
    · next h7 => exact ⟨r, w1', w3, h3, h5, h7⟩
    · cases h6

/-- Two rows and a summary. -/
example : ∃ data md w2, (do
      match ← queryNeo script (closeN script 1) [65] [] with
      | .ok r => rowsAll script (closeN script 1) r
      | .error _ => M.panic .index : M _ _) (scriptConn [[.val (.success [])], [.val (.record [.nil]), .val (.record [.bool true]), .val (.success [])]]) = .ok (data, some md, none) w2 ∧
    data.length = 2 := by
  obtain ⟨⟨data, md, e⟩, w2, h1, h2⟩ := Out.of_test (o := (do
      match ← queryNeo script (closeN script 1) [65] [] with
      | .ok r => rowsAll script (closeN script 1) r
      | .error _ => M.panic .index : M _ _) (scriptConn [[.val (.success [])], [.val (.record [.nil]), .val (.record [.bool true]), .val (.success [])]]))
    (p := fun a _ => a.1.length == 2 && a.2.1.isSome && a.2.2.isNone) (by decide +kernel)
  simp only [Bool.and_eq_true, beq_iff_eq, Option.isNone_iff_eq_none] at h2
  obtain ⟨⟨h2, h3⟩, rfl⟩ := h2
  cases md with
  | none => cases h3
  | some md => exact ⟨data, md, w2, h1, h2⟩

/-! ## C63 -/

/-- C63 for ExecPipeline: a pipeline of no queries has no results; nothing is sent and nothing received. Any peer, any
state in which the connection is free. Missing: QueryPipeline. -/
theorem c63_exec_partial (P : Peer σ) (close : M σ (Option GoErr)) (h : w.statement = none) (hc : w.closed = false) :
    ∃ w', execPipeline P close [] [] w = .ok (.ok []) w' ∧ Untouched w w' ∧ w'.log = w.log := by
  let w1 : World σ := { w with stmts := w.stmts ++ [{ query := [], queries := [], conn := true, closed := false, rows := none }] }
  have e : w1.stmt w.stmts.length = { query := [], queries := [], conn := true, closed := false, rows := none } := stmt_append w _
  have hg : guardConn w = .ok none w := by simp [guardConn, h, hc]
  have hn : newStmt [] [] w = .ok w.stmts.length w1 := rfl
  have hs : stmtExecPipeline P close w.stmts.length [] w1 = .ok (.ok []) w1 := by
    unfold stmtExecPipeline
    rw [mbind_ok (show guardStmt w.stmts.length w1 = .ok none w1 by simp [guardStmt, e])]
    simp only [get_bind, e]
    rw [if_neg (by simp)]
    refine (mbind_ok (a := none) (w' := w1) ((withConn_ok (by rw [e])).trans rfl)).trans ?_
    exact (withConn_ok (by rw [e])).trans rfl
  refine ⟨w1.stmtDone w.stmts.length, ?_, ?_, rfl⟩
  · unfold execPipeline
    rw [mbind_ok hg]
    simp only []
    rw [mbind_ok hn, mbind_ok hs, mbind_ok (stmtClose_norows P close (s := w.stmts.length) (by simp [e]) (by simp [e]) (by simp [e]))]
    rfl
  · constructor <;> try rfl
    · exact h.symm
    · intro s hs
      simp [World.stmtDone, World.setStmt, w1, modify_append_last, List.getElem?_append_left hs]

/-- The result for the connection of `yes` in which nothing is open. -/
example : ∃ w', execPipeline yes (closeN yes 1) [] [] yesConn = .ok (.ok []) w' ∧ Untouched yesConn w' ∧ w'.log = yesConn.log :=
  c63_exec_partial yes _ rfl rfl

/-- C63 is false for QueryPipeline, on every connection that is free and in step: nothing is sent, the call waits for
an answer until the read times out, returns an error, and the connection is marked broken and remains occupied. -/
theorem c63_query_false (P : Peer σ) (close : M σ (Option GoErr)) (h : w.statement = none) (hc : w.closed = false)
    (hi : w.inbox = []) (he : P.ended w.srv = false) :
    ∃ e w', queryPipeline P close [] [] w = .ok (.error e) w' ∧ w'.log = w.log ++ [.recv .ioerr] ∧ w'.connErr = true ∧ w'.statement.isSome = true := by
  let w1 : World σ := { w with stmts := w.stmts ++ [{ query := [], queries := [], conn := true, closed := false, rows := none }], statement := some w.stmts.length }
  have e : w1.stmt w.stmts.length = { query := [], queries := [], conn := true, closed := false, rows := none } := stmt_append w _
  have hg : guardConn w = .ok none w := by simp [guardConn, h, hc]
  have hn : newStmt [] [] w = .ok w.stmts.length { w1 with statement := w.statement } := rfl
  have hm : nextItem P w1 = .ioerr := by simp [nextItem, w1, hc, hi, he]
  have hr : consume P close w1 = .ok (.nil, some (readErr .badConn)) { w1 with connErr := true, log := w.log ++ [.recv .ioerr] } := by
    refine (mbind_ok (x := recv P) (a := (.nil, some (readErr .badConn))) (w' := { w1 with connErr := true, log := w.log ++ [.recv .ioerr] }) ?_).trans rfl
    unfold recv
    simp only [hm]
    simp [w1, hi]
  let e1 : GoErr := .wrap "An error occurred consuming initial pipeline command" (some (readErr .badConn))
  refine ⟨e1, { w1 with connErr := true, log := w.log ++ [.recv .ioerr] }, ?_, rfl, rfl, rfl⟩
  unfold queryPipeline
  rw [mbind_ok hg]
  simp only []
  rw [mbind_ok hn]
  refine (mbind_ok (x := M.modify _) (a := ()) (w' := w1) rfl).trans ?_
  refine (mbind_ok (x := stmtQueryPipeline P close _ _) (a := .error e1) (w' := { w1 with connErr := true, log := w.log ++ [.recv .ioerr] }) ?_).trans rfl
  unfold stmtQueryPipeline
  rw [mbind_ok (show guardStmt w.stmts.length w1 = .ok none w1 by simp [guardStmt, e])]
  simp only [get_bind, e]
  rw [if_neg (by simp)]
  refine (mbind_ok (a := none) (w' := w1) ((withConn_ok (by rw [e])).trans rfl)).trans ?_
  exact (mbind_ok ((withConn_ok (by rw [e])).trans hr)).trans rfl

/-- Such a connection: free, to a server that answers every message it gets. -/
example (close : M (Srv Nat) (Option GoErr)) : ∃ e w', queryPipeline demo.peer close [] [] (freshConn 0 4096) = .ok (.error e) w' ∧ w'.connErr = true := by
  obtain ⟨e, w', h, _, h1, _⟩ := c63_query_false demo.peer close (w := freshConn 0 4096) rfl rfl rfl rfl
  exact ⟨e, w', h, h1⟩

end Bolt
