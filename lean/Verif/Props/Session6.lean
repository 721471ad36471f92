import Verif.Spec.Commands
import Verif.Proofs.Confirm
import Verif.Props.Session5

/-!
# Results are reported only when the server confirmed them (C70)

Any peer, any state, any handling of failures (`close`), except that QueryNeoAll is for `closeN`, Close at any depth.
-/

namespace Bolt
open PackStream

variable {σ : Type} {P : Peer σ} {close : M σ (Option GoErr)} {w w' : World σ}

/-- C70 for ExecNeo: a result means that RUN and PULL_ALL were written and a complete reply was read, nothing else; the
result is the metadata of the last message. -/
theorem c70_exec {q : Str} {kvs md : KVs} (h : execNeo P close q kvs w = .ok (.ok md) w') :
    ∃ a : Reply, a.Proper ∧ a.summary = md ∧ w'.log = w.log ++ (asked [(q, kvs)] ++ a.events) := execNeo_did h

/-- C70 for ExecNeo of a statement. -/
theorem c70_stmtExec {s : Nat} {kvs md : KVs} (h : stmtExecNeo P close s kvs w = .ok (.ok md) w') :
    ∃ a : Reply, a.Proper ∧ a.summary = md ∧ w'.log = w.log ++ (asked [((w.stmt s).query, kvs)] ++ a.events) := by
  obtain ⟨a, h1, h2, _, _, h3⟩ := stmtExecNeo_did h
  exact ⟨a, h1, h2, h3.log⟩

/-- C70 for ExecPipeline: one complete reply for every query, the results are their summaries in order. -/
theorem c70_execPipeline {qs : List Str} {l mds : List KVs} (h : execPipeline P close qs l w = .ok (.ok mds) w') :
    ∃ as : List Reply, (∀ a ∈ as, a.Proper) ∧ mds = as.map Reply.summary ∧ as.length = qs.length ∧ l.length = qs.length ∧
      w'.log = w.log ++ (asked (qs.zip l) ++ as.flatMap Reply.events) := execPipeline_did h

/-- C70 for ExecPipeline of a statement. -/
theorem c70_stmtExecPipeline {s : Nat} {l mds : List KVs} (h : stmtExecPipeline P close s l w = .ok (.ok mds) w') :
    ∃ as : List Reply, (∀ a ∈ as, a.Proper) ∧ mds = as.map Reply.summary ∧ as.length = (w.stmt s).queries.length ∧ l.length = (w.stmt s).queries.length ∧
      w'.log = w.log ++ (asked ((w.stmt s).queries.zip l) ++ as.flatMap Reply.events) := by
  obtain ⟨as, h1, h2, h3, h4, h5⟩ := stmtExecPipeline_did h
  exact ⟨as, h1, h2, h3, h4, h5.log⟩

/-- C70 for QueryNeo: rows mean that RUN and PULL_ALL were written and SUCCESS was read; its metadata is that of the rows. -/
theorem c70_query {q : Str} {kvs : KVs} {r : Nat} (h : queryNeo P close q kvs w = .ok (.ok r) w') :
    w'.log = w.log ++ (asked [(q, kvs)] ++ [.recv (.val (.success (w'.row r).md))]) := by
  obtain ⟨hd, rfl, h1⟩ := queryNeo_did h
  exact h1

/-- C70 for QueryNeo of a statement, which sends RUN only. -/
theorem c70_stmtQuery {s r : Nat} {kvs : KVs} (h : stmtQueryNeo P close s kvs w = .ok (.ok r) w') :
    w'.log = w.log ++ [.send (.run (w.stmt s).query kvs) none, .recv (.val (.success (w'.row r).md))] := by
  obtain ⟨hd, rfl, h1⟩ := stmtQueryNeo_did h
  exact h1

/-- C70 for QueryPipeline: all requests were written and SUCCESS was read. -/
theorem c70_queryPipeline {qs : List Str} {l : List KVs} {r : Nat} (h : queryPipeline P close qs l w = .ok (.ok r) w') :
    l.length = qs.length ∧ w'.log = w.log ++ (asked (qs.zip l) ++ [.recv (.val (.success (w'.row r).md))]) := by
  obtain ⟨hd, rfl, h1, h2⟩ := queryPipeline_did h
  exact ⟨h1, h2⟩

/-- C70 for QueryPipeline of a statement. -/
theorem c70_stmtQueryPipeline {s r : Nat} {l : List KVs} (h : stmtQueryPipeline P close s l w = .ok (.ok r) w') :
    l.length = (w.stmt s).queries.length ∧ w'.log = w.log ++ (asked ((w.stmt s).queries.zip l) ++ [.recv (.val (.success (w'.row r).md))]) := by
  obtain ⟨hd, rfl, h1, h2⟩ := stmtQueryPipeline_did h
  exact ⟨h1, h2⟩

/-- C70 for Begin: RUN BEGIN and PULL_ALL were written and SUCCESS was read twice; the transaction is a new one. -/
theorem c70_begin {t : Nat} (h : begin_ P close w = .ok (.ok t) w') :
    t = w.txs.length ∧ ∃ md md', w'.log = w.log ++ (asked [(txBegin, [])] ++ [.recv (.val (.success md)), .recv (.val (.success md'))]) := by
  simp only [show txBegin = qBegin from rfl] at *
  obtain ⟨md, md', h1, h2⟩ := begin_did h
  exact ⟨h1, md, md', h2⟩

/-- C70 for QueryNeoAll: rows and a summary without an error mean that RUN and PULL_ALL were written and read were SUCCESS
with the header, the rows as RECORDs in order, SUCCESS with the summary. -/
theorem c70_queryAll {n : Nat} {q : Str} {kvs hdr md : KVs} {data : List (List Val)}
    (h : queryNeoAll P (closeN P n) q kvs w = .ok (.ok (data, hdr, some md, none)) w') :
    ∃ l l', w'.log = w.log ++ (asked [(q, kvs)] ++ [.recv (.val (.success hdr))] ++ l ++ l') ∧
      receipts l = data.map (fun fs => .val (.record fs)) ++ [.val (.success md)] := by
  obtain ⟨x, w1, h1, h⟩ := run_inv h
  cases x with
  | error e => cases h
  | ok r =>
    obtain ⟨⟨data', md', err⟩, w2, h2, h⟩ := run_inv h
    obtain ⟨_, _, h3, h⟩ := run_inv h
    cases h3
    obtain ⟨o, w3, h4, h⟩ := run_inv h
    cases h
    obtain ⟨l, h5, h6⟩ := c64_all_partial h2
    obtain ⟨l', h7, _⟩ := hon_rowsClose (grow_closeN n) r w2 _ _ h4
    exact ⟨l, l', by rw [h7, h5, c70_query h1, ← rowsAll_md h2]; simp, h6⟩

/-- The peer that answers everything with SUCCESS: every call gives a result. -/
theorem yes_ok {α : Type} {x : M Unit (Except GoErr α)} (h : (x yesConn).test (fun a _ => match a with | .ok _ => true | .error _ => false) = true) :
    ∃ a w', x yesConn = .ok (.ok a) w' := by
  obtain ⟨a, w', h1, h2⟩ := Out.of_test h
  cases a with
  | ok a => exact ⟨a, w', h1⟩
  | error e => cases h2

/-- SUCCESS for RUN; one RECORD and SUCCESS for PULL_ALL. -/
def oneRow : List (List Item) := [[.val (.success [])], [.val (.record [.bool true]), .val (.success [])]]

example : ∃ md w', execNeo yes (closeN yes 1) [65] [] yesConn = .ok (.ok md) w' ∧
    ∃ a : Reply, a.Proper ∧ a.summary = md ∧ w'.log = yesConn.log ++ (asked [([65], [])] ++ a.events) := by
  obtain ⟨md, w', h⟩ := yes_ok (x := execNeo yes (closeN yes 1) [65] []) (by decide +kernel)
  exact ⟨md, w', h, c70_exec h⟩

example : ∃ mds w', execPipeline yes (closeN yes 1) [[65], [66]] [[], []] yesConn = .ok (.ok mds) w' :=
  yes_ok (by decide +kernel)

example : ∃ r w', queryPipeline yes (closeN yes 1) [[65], [66]] [[], []] yesConn = .ok (.ok r) w' ∧
    w'.log = yesConn.log ++ (asked [([65], []), ([66], [])] ++ [.recv (.val (.success (w'.row r).md))]) := by
  obtain ⟨r, w', h⟩ := yes_ok (x := queryPipeline yes (closeN yes 1) [[65], [66]] [[], []]) (by decide +kernel)
  exact ⟨r, w', h, (c70_queryPipeline h).2⟩

example : ∃ t w', begin_ yes (closeN yes 1) yesConn = .ok (.ok t) w' := yes_ok (by decide +kernel)

theorem all_ok {σ : Type} {o : Out σ (Except GoErr (List (List Val) × KVs × Option KVs × Option GoErr))}
    (h : o.test (fun a _ => match a with | .ok (data, _, some _, none) => data.length == 1 | _ => false) = true) :
    ∃ data hdr md w', o = .ok (.ok (data, hdr, some md, none)) w' ∧ data.length = 1 := by
  obtain ⟨a, w', rfl, h2⟩ := Out.of_test h
  match a, h2 with
  | .ok (data, hdr, some md, none), h2 => exact ⟨data, hdr, md, w', rfl, by simpa using h2⟩

/-- A server with one row. -/
example : ∃ data hdr md w', queryNeoAll script (closeN script 1) [65] [] (scriptConn oneRow) = .ok (.ok (data, hdr, some md, none)) w' ∧
    data.length = 1 ∧ ∃ l l', w'.log = (scriptConn oneRow).log ++ (asked [([65], [])] ++ [.recv (.val (.success hdr))] ++ l ++ l') ∧
      receipts l = data.map (fun fs => .val (.record fs)) ++ [.val (.success md)] := by
  obtain ⟨data, hdr, md, w', h, hl⟩ := all_ok (o := queryNeoAll script (closeN script 1) [65] [] (scriptConn oneRow)) (by decide +kernel)
  exact ⟨data, hdr, md, w', h, hl, c70_queryAll h⟩

end Bolt
