import Verif.Model.Sql
import Verif.Props.Surface
import Verif.Props.Session6
import Verif.Props.OpenNeo

/-! # The calls of database/sql (C73) and what failed calls return (C74) -/

namespace Bolt
open PackStream

variable {σ : Type} (P : Peer σ) (close : M σ (Option GoErr))

theorem convert_ok {args : List DVal} {kvs : KVs} (h : driverArgsToMap args = .ok kvs) (w : World σ) :
    convertArgs args w = .ok (.ok kvs) w := by simp only [convertArgs, h]

theorem convert_err {args : List DVal} {e : GoErr} (h : driverArgsToMap args = .error (.err e)) (w : World σ) :
    convertArgs args w = .ok (.error e) w := by simp only [convertArgs, h]

theorem modify_last {α : Type} (l : List α) (x : α) (f : α → α) : (l ++ [x]).modify l.length f = l ++ [f x] := by
  induction l with
  | nil => rfl
  | cons y l ih => simpa using ih

/-! ## C73 -/

/-- C73, arguments that hold maps: the calls of database/sql do what the Neo calls do with one map, in which the last
argument having a key decides. -/
theorem c73_merged_partial {args : List DVal} {ms : List KVs} (h : AreMapArgs args ms) :
    ∃ kvs, DistinctKeys kvs ∧ (∀ k, get? kvs k = lastHaving ms k) ∧ ∀ w : World σ,
      (∀ q, sqlExec P close q args w = execNeo P close q kvs w) ∧
      (∀ s, sqlStmtExec P close s args w = stmtExecNeo P close s kvs w) ∧
      (∀ q, sqlQuery P close q args w = apiQuery P close q kvs w) ∧
      (∀ s, sqlStmtQuery P close s args w = apiStmtQuery P close s kvs w) := by
  obtain ⟨kvs, h1, h2, h3⟩ := c58_merged_partial h
  have hx : ∀ s (w : World σ), sqlStmtExec P close s args w = stmtExecNeo P close s kvs w := fun s w => mbind_ok (convert_ok h1 w)
  refine ⟨kvs, h2, h3, fun w => ⟨fun q => ?_, fun s => hx s w, fun q => mbind_ok (convert_ok h1 w), fun s => mbind_ok (convert_ok h1 w)⟩⟩
  have hx' : ∀ s, sqlStmtExec P close s args = stmtExecNeo P close s kvs := fun s => funext fun w => hx s w
  unfold sqlExec execNeo
  simp only [hx']
  rfl

/-- An argument that is rejected: no byte slice, or bytes that cannot be decoded. -/
def BadArg : DVal → Prop
  | .plain _ => True
  | .bytes b => ∃ e, unmarshal b = .error (.err e)

/-- C73, a rejected argument, any state of the connection: an error is returned and nothing is written or read. `Query` and
the calls of the statement change nothing at all; `Exec` leaves behind a closed statement nobody has. Missing: bytes that hold
another value than a map, `c73_false`. -/
theorem c73_rejected_partial {args : List DVal} {ms : List KVs} (h : AreMapArgs args ms) {bad : DVal} (hb : BadArg bad) (rest : List DVal) (w : World σ) :
    ∃ e, (∀ q, sqlQuery P close q (args ++ bad :: rest) w = .ok (.nil, some e) w) ∧
      (∀ s, sqlStmtQuery P close s (args ++ bad :: rest) w = .ok (.nil, some e) w) ∧
      (∀ s, sqlStmtExec P close s (args ++ bad :: rest) w = .ok (.error e) w) ∧
      (∀ q, (∃ e', sqlExec P close q (args ++ bad :: rest) w = .ok (.error e') w) ∨
        ∃ x : Stmt, x.closed = true ∧ sqlExec P close q (args ++ bad :: rest) w = .ok (.error e) { w with stmts := w.stmts ++ [x] }) := by
  obtain ⟨e, he⟩ : ∃ e, driverArgsToMap (args ++ bad :: rest) = .error (.err e) := by
    cases bad with
    | plain v => exact (c58_rejected_partial h rest).1 v
    | bytes b =>
      obtain ⟨e, hb⟩ := hb
      exact ⟨e, (c58_rejected_partial h rest).2 b e hb⟩
  have hx : ∀ s (w : World σ), sqlStmtExec P close s (args ++ bad :: rest) w = .ok (.error e) w := fun s w => mbind_ok (convert_err he w)
  refine ⟨e, fun q => mbind_ok (convert_err he w), fun s => mbind_ok (convert_err he w), fun s => hx s w, fun q => ?_⟩
  rcases guardConn_cases w with ⟨e', hg⟩ | ⟨hg, hs, _⟩
  · exact .inl ⟨e', (mbind_ok hg).trans rfl⟩
  · refine .inr ⟨{ query := q, queries := [], conn := false, closed := true, rows := none }, rfl, ?_⟩
    refine (mbind_ok hg).trans ((mbind_ok rfl).trans ((mbind_ok (hx _ _)).trans ?_))
    refine (mbind_ok (a := none) (w' := { w with stmts := w.stmts ++ [{ query := q, queries := [], conn := false, closed := true, rows := none }] }) ?_).trans rfl
    have es : World.stmt { w with stmts := w.stmts ++ [{ query := q, queries := [], conn := true, closed := false, rows := none }] } w.stmts.length = _ := stmt_append w _
    refine (stmtClose_norows P close (by rw [es]) (by rw [es]) (by rw [es])).trans ?_
    cases w
    cases hs
    simp only [World.stmtDone, World.setStmt, modify_last]

/-- C73 is false for bytes that hold another value: Query with the marshalled integer 1 panics. -/
theorem c73_false (q : Str) (w : World σ) : (marshal (.int .int64 1)).2 = none ∧
    sqlQuery P close q [.bytes (marshal (.int .int64 1)).1] w = .panic .typeAssert w := by
  refine ⟨rfl, mbind_panic ?_⟩
  simp only [convertArgs, c58_false.2]

set_option maxRecDepth 8000 in
/-- Two maps with the key "a": the second decides. -/
example : ∃ kvs, get? kvs [97] = some (.int .int64 2) ∧
    sqlExec yes (closeN yes 1) [65] [.bytes (marshal (.map [([97], .int .int64 1)])).1, .bytes (marshal (.map [([97], .int .int64 2)])).1] yesConn =
      execNeo yes (closeN yes 1) [65] kvs yesConn := by
  obtain ⟨kvs, _, h2, h3⟩ := c73_merged_partial yes (closeN yes 1) (args := [.bytes (marshal (.map [([97], .int .int64 1)])).1, .bytes (marshal (.map [([97], .int .int64 2)])).1])
    (ms := [[([97], .int .int64 1)], [([97], .int .int64 2)]]) ⟨⟨_, rfl, rfl⟩, ⟨_, rfl, rfl⟩, trivial⟩
  exact ⟨kvs, by rw [h2]; rfl, (h3 yesConn).1 _⟩

/-- A string is no parameter map. -/
example : ∃ e, sqlQuery yes (closeN yes 1) [65] [.plain (.str [97])] yesConn = .ok (.nil, some e) yesConn := by
  obtain ⟨e, h, _⟩ := c73_rejected_partial yes (closeN yes 1) (args := []) (ms := []) trivial (bad := .plain (.str [97])) trivial [] yesConn
  exact ⟨e, h [65]⟩

/-! ## C74 -/

/-- C74 for the pipeline calls, any peer, any state: with an error the result is nil, without one it is not. Missing: the other
calls, see `c74_false`. -/
theorem c74_nil_partial {w w' : World σ} {i : Iface} {e : Option GoErr} :
    (∀ qs l, apiQueryPipeline P close qs l w = .ok (i, e) w' → (e.isSome ↔ i = .nil)) ∧
    (∀ s l, apiStmtQueryPipeline P close s l w = .ok (i, e) w' → (e.isSome ↔ i = .nil)) ∧
    (∀ qs, apiPreparePipeline qs w = .ok (i, e) w' → (e.isSome ↔ i = .nil)) := by
  refine ⟨fun qs l h => ?_, fun s l h => ?_, fun qs h => ?_⟩ <;>
  · obtain ⟨x, w1, _, h'⟩ := run_inv h
    cases x <;> cases h' <;> simp

/-- C74 is false for Query, QueryNeo and Prepare, on the connection and on statements: whenever they fail, whatever the peer
and the state, and for Query with good arguments, the result is not nil: it is an interface that holds a nil pointer. -/
theorem c74_false {w w' : World σ} {i : Iface} {e : GoErr} :
    (∀ q kvs, apiQuery P close q kvs w = .ok (i, some e) w' → i = .ptr none) ∧
    (∀ s kvs, apiStmtQuery P close s kvs w = .ok (i, some e) w' → i = .ptr none) ∧
    (∀ q, apiPrepare q w = .ok (i, some e) w' → i = .ptr none) ∧
    (∀ q args kvs, driverArgsToMap args = .ok kvs → sqlQuery P close q args w = .ok (i, some e) w' → i = .ptr none) := by
  have key : ∀ {x : M σ (Except GoErr Nat)}, (x >>= fun r => M.pure (viaPtr r)) w = .ok (i, some e) w' → i = .ptr none := by
    intro x h
    obtain ⟨r, w1, _, h'⟩ := run_inv h
    cases r <;> cases h'
    rfl
  refine ⟨fun q kvs h => key h, fun s kvs h => key h, fun q h => key h, fun q args kvs hk h => ?_⟩
  rw [show sqlQuery P close q args w = _ from mbind_ok (convert_ok hk w)] at h
  exact key h

/-- C74: QueryNeo on a closed connection fails, its result is not nil, and closing the result as its value suggests panics. -/
theorem c74_false_panics {w : World σ} (hs : w.statement = none) (hc : w.closed = true) (q : Str) (kvs : KVs) :
    ∃ e i, apiQuery P close q kvs w = .ok (i, some e) w ∧ i ≠ .nil ∧ apiCloseRows P close i w = .panic .nilDeref w := by
  refine ⟨.new "Connection already closed", .ptr none, ?_, by simp, rfl⟩
  have hg : guardConn w = .ok (some (.new "Connection already closed")) w := by
    unfold guardConn
    rw [hs, hc]; rfl
  exact (mbind_ok (show queryNeo P close q kvs w = .ok (.error _) w from (mbind_ok hg).trans rfl)).trans rfl

example : ∃ e i, apiQuery yes (closeN yes 1) [65] [] { yesConn with closed := true } = .ok (i, some e) { yesConn with closed := true } ∧ i ≠ .nil ∧
    apiCloseRows yes (closeN yes 1) i { yesConn with closed := true } = .panic .nilDeref { yesConn with closed := true } :=
  c74_false_panics yes (closeN yes 1) rfl rfl _ _

/-- C74 is false for Open and OpenNeo: whenever opening fails, in the connection string, in dialling, in the handshake or in the
authentication, the connection returned is not nil: it is an interface that holds a nil pointer. -/
theorem c74_open_false {dial : Config → Except GoErr Sock} {order : KVs → KVs} {n : Nat} {u : URL} {s : Bool} {i : Iface} {e : GoErr}
    (h : apiOpen dial order n u s = some (i, some e)) : i = .ptr none ∧ i ≠ .nil := by
  unfold apiOpen at h
  split at h <;> cases h <;> exact ⟨rfl, by simp⟩

/-- C74, Open and OpenNeo without an error: a connection. -/
theorem c74_open_partial {dial : Config → Except GoErr Sock} {order : KVs → KVs} {n : Nat} {u : URL} {s : Bool} {i : Iface}
    (h : apiOpen dial order n u s = some (i, none)) : i = .ptr (some 0) := by
  unfold apiOpen at h
  split at h <;> cases h <;> rfl

/-- C44 for Open and OpenNeo: without an error the connection string was understood, the server was reached, named a version and
answered INIT with SUCCESS. Missing, as in `c44_open_partial`: versions that arrive in pieces. -/
theorem c44_returned_partial {dial : Config → Except GoErr Sock} {order : KVs → KVs} {n : Nat} {u : URL} {s : Bool} {i : Iface}
    (hne : ∀ c k, dial c = .ok k → k.src.NonEmpty) (h : apiOpen dial order n u s = some (i, none)) :
    i = .ptr (some 0) ∧ ∃ c k, parseURL newConfig u = .ok c ∧ dial c = .ok k ∧
      ∃ v md rest rest', k.src.bytes = v ++ rest.bytes ∧ v ≠ [] ∧ v.length ≤ 4 ∧ v ≠ [0, 0, 0, 0] ∧ decodeFrom rest = (.ok (.success md), rest') := by
  refine ⟨c74_open_partial h, ?_⟩
  unfold apiOpen at h
  split at h
  · cases h
  · cases h
  · rename_i w hw; exact c44_open_partial hne hw
  · cases h

/-- A server that agrees and accepts. -/
example : ∃ i, apiOpen (fun _ => .ok (sock [[0, 0, 0, 1], [0, 3, 0xB1], [0x70, 0xA0, 0], [0]] .eof)) id 1 ⟨[98, 111, 108, 116], none, [], fun _ => []⟩ false =
    some (i, none) := by
  have h : (match apiOpen (fun _ => .ok (sock [[0, 0, 0, 1], [0, 3, 0xB1], [0x70, 0xA0, 0], [0]] .eof)) id 1 ⟨[98, 111, 108, 116], none, [], fun _ => []⟩ false with
    | some (_, none) => true
    | _ => false) = true := by decide +kernel
  split at h
  · rename_i i hi; exact ⟨i, hi⟩
  · cases h

/-- A connection string with another scheme. -/
example : ∃ e, apiOpen (fun _ => .error .eof) id 1 ⟨[104, 116, 116, 112], none, [], fun _ => []⟩ false = some (.ptr none, some e) := ⟨_, rfl⟩

/-- PreparePipeline on a closed connection: nil. -/
example : ∃ e, apiPreparePipeline [[65]] { yesConn with closed := true } = .ok (.nil, some e) { yesConn with closed := true } := ⟨_, rfl⟩

end Bolt
