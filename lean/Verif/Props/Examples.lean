import Verif.Model.Examples
import Verif.Props.Programs
import Verif.Props.Surface

/-! # The example programs of the README: C93 -/

namespace Bolt.Examples
open PackStream

variable {δ : Type} {D : DB δ} {close : M (Srv δ) (Option GoErr)}

/-- The statistics in a summary say that `n` nodes and relationships were created or deleted. -/
def Counts (md : KVs) (n : _root_.Int) : Prop :=
  ∃ stats nc rc nd rd, get? md (txt "stats") = some (.map stats) ∧ Counted stats (txt "nodes-created") nc ∧
    Counted stats (txt "relationships-created") rc ∧ Counted stats (txt "nodes-deleted") nd ∧
    Counted stats (txt "relationships-deleted") rd ∧ IsInt64 (nc + rc + nd + rd) ∧ n = nc + rc + nd + rd

theorem affected_of {md : KVs} {n : _root_.Int} (h : Counts md n) : affected (some md) = some n ∧ affectedChecked (some md) = some n := by
  obtain ⟨stats, nc, rc, nd, rd, h1, h2, h3, h4, h5, h6, rfl⟩ := h
  have := (c56_rows_affected_partial md).1 stats nc rc nd rd h1 h2 h3 h4 h5 h6
  simp only [affected, affectedChecked, this, and_self]

/-- A summary each. -/
def CountsAll : List KVs → List _root_.Int → Prop
  | [], ns => ns = []
  | md :: mds, ns => ∃ n ns', Counts md n ∧ CountsAll mds ns' ∧ ns = n :: ns'

theorem each_counts : ∀ {mds : List KVs} {ns : List _root_.Int}, CountsAll mds ns → each affected (mds.map some) = some ns
  | [], _, h => by cases h; rfl
  | md :: mds, _, ⟨n, ns', h1, h2, e⟩ => by
    subst e
    simp only [List.map_cons, each, (affected_of h1).1, each_counts h2]

/-- The first column of every record. -/
def firsts (f : Val → Prop) : List (List Val) → List Val → Prop
  | [], vs => vs = []
  | row :: rows, vs => ∃ v rest vs', row = v :: rest ∧ f v ∧ firsts f rows vs' ∧ vs = v :: vs'

def IsNode : Val → Prop
  | .node .. => True
  | _ => False

def IsPath : Val → Prop
  | .path .. => True
  | _ => False

theorem each_nodes : ∀ {rows : List (List Val)} {vs : List Val}, firsts IsNode rows vs → each nodeOf rows = some (vs.map .node)
  | [], _, h => by cases h; rfl
  | row :: rows, _, ⟨v, rest, vs', e1, h1, h2, e2⟩ => by
    subst e1 e2
    have := each_nodes h2
    cases v <;> first | exact h1.elim | (simp only [each, nodeOf, this, List.map_cons])

/-- The parameters of the first query as the database gets them, in either order. -/
def IsCreateArgs (ps : PSs) : Prop :=
  ps = [(txt "foo", .int 1), (txt "bar", .float 0x400199999999999A)] ∨ ps = [(txt "bar", .float 0x400199999999999A), (txt "foo", .int 1)]

/-- What the database does with the queries of an example, `qs` being the one that differs. -/
structure Story (D : DB δ) (last : Str) (d d1 d2 d3 d4 d5 : δ) where
  hd1 : KVs
  rs1 : List (List Val)
  md1 : KVs
  create : ∀ ps, IsCreateArgs ps → D.exec d qCreate ps = (d1, .answer hd1 rs1 (.summary md1))
  hd2 : KVs
  row : List Val
  rs2 : List (List Val)
  md2 : KVs
  get : D.exec d1 qGet [] = (d2, .answer hd2 (row :: rs2) (.summary md2))
  answers : List Answer
  pipe : D.runAll d2 (qPipe.map fun q => (q, [])) = (d3, answers.map Answer.outcome)
  hd4 : KVs
  rs4 : List (List Val)
  md4 : KVs
  list : D.exec d3 last [] = (d4, .answer hd4 rs4 (.summary md4))
  hd5 : KVs
  rs5 : List (List Val)
  md5 : KVs
  delete : D.exec d4 qDelete [] = (d5, .answer hd5 rs5 (.summary md5))

theorem tiny_create (b : Bool) : Tiny (.run qCreate (createArgs b)) := by
  have hq : qCreate.length = 40 := by decide +kernel
  have hne : txt "foo" ≠ txt "bar" := by decide +kernel
  have hf : (txt "foo").length = 3 := by decide +kernel
  have hb : (txt "bar").length = 3 := by decide +kernel
  have e : (2:Nat)^32 = 4294967296 := by decide
  generalize hx : txt "foo" = foo at hne hf
  generalize hy : txt "bar" = bar at hne hb
  cases b <;> simp only [createArgs, hx, hy, if_true, Bool.false_eq_true, if_false]
  all_goals
    refine ⟨?_, ?_, ?_, ?_⟩
    · simp [Val.Typed, Val.All, Val.TypedHere, DistinctKeys, Val.AllKVs, hne, hne.symm, IntKind.InRange]
    · simp [Val.Clean, Val.All, Val.CleanHere, Val.AllKVs]
    · simp [Val.Supported, Val.All, Val.SupportedHere, Val.AllKVs, Val.sizes, keySizes, hq, hf, hb]
    · simp [Val.footprint, Val.footKVs, hq, hf, hb]

theorem create_means {b : Bool} {ps : PSs} (h : MeansKVs (createArgs b) ps) : IsCreateArgs ps := by
  cases b <;> simp only [createArgs, if_true, Bool.false_eq_true, if_false, MeansKVs, Means] at h
  · obtain ⟨q, qs, rfl, ⟨q2, qs2, rfl, rfl, rfl⟩, rfl⟩ := h
    exact .inl rfl
  · obtain ⟨q, qs, rfl, ⟨q2, qs2, rfl, rfl, rfl⟩, rfl⟩ := h
    exact .inr rfl

theorem tiny_q {q : Str} (h : q ∈ [qGet, qNodes, qPaths, qDelete] ++ qPipe) : Tiny (.run q []) := by
  have : ∀ q ∈ [qGet, qNodes, qPaths, qDelete] ++ qPipe, q.length ≤ 60000 := by decide +kernel
  exact tiny_run (this q h)

theorem deliv_exec {q : Str} {kvs : KVs} {d : δ} {tx : Bool} {cs : Nat} (h0 : 0 < cs) (h1 : cs ≤ 65535) (h : Tiny (.run q kvs)) :
    (Call.exec q kvs).Deliverable (⟨d, .idle, tx, cs⟩ : Sess δ) := by
  have := tiny_sendable h0 h1 h
  obtain ⟨ps, hp⟩ := sendable_means this
  exact ⟨⟨_, .exec hp⟩, this⟩

theorem deliv_queryAll {q : Str} {kvs : KVs} {d : δ} {tx : Bool} {cs : Nat} (h0 : 0 < cs) (h1 : cs ≤ 65535) (h : Tiny (.run q kvs)) :
    (Call.queryAll q kvs).Deliverable (⟨d, .idle, tx, cs⟩ : Sess δ) := by
  have := tiny_sendable h0 h1 h
  obtain ⟨ps, hp⟩ := sendable_means this
  exact ⟨⟨_, .queryAll hp⟩, this⟩

theorem pipe_means {l : List Str} {m : List (Str × PSs)} (h : MeansAll (l.map fun q => (q, [])) m) : m = l.map fun q => (q, []) := by
  induction l generalizing m with
  | nil => exact h
  | cons q l ih =>
    obtain ⟨ps, rest, h1, h2, rfl⟩ := h
    cases (show ps = [] from h1)
    rw [ih h2]
    rfl

theorem pipe_res (as : List Answer) : pipeRes (as.map Answer.outcome) = .summaries (as.map Answer.summary) := by
  have h1 : (as.map Answer.outcome).findSome? Outcome.failure? = none := by
    rw [List.findSome?_eq_none_iff]
    intro x hx
    obtain ⟨a, _, rfl⟩ := List.mem_map.1 hx
    rfl
  have h2 : summariesOf (as.map Answer.outcome) = as.map Answer.summary := by
    induction as with
    | nil => rfl
    | cons a as ih =>
      simp only [summariesOf, List.map_cons, Answer.outcome, List.filterMap_cons] at ih ⊢
      rw [ih (by rw [List.findSome?_eq_none_iff] at h1 ⊢; exact fun x hx => h1 x (List.mem_cons_of_mem _ hx))]
  unfold pipeRes
  rw [h1, h2]

/-- C93 for quick_n_dirty: against every database whose answers have the shape the program expects, it prints what the database
answered, in order, and ends with the connection closed. -/
theorem c93_quick (b : Bool) {cs : Nat} (h0 : 0 < cs) (h1 : cs ≤ 65535) {d d1 d2 d3 d4 d5 : δ} (st : Story D qNodes d d1 d2 d3 d4 d5)
    {n1 n5 foo : _root_.Int} {bar : UInt64} {cols more nodes : List Val} {ns : List _root_.Int}
    (hn1 : Counts st.md1 n1) (hc : get? st.hd2 (txt "fields") = some (.list cols)) (hrow : st.row = .int .int64 foo :: .float64 bar :: more)
    (hns : CountsAll (st.answers.map Answer.summary) ns) (hnodes : firsts IsNode st.rs4 nodes) (hn5 : Counts st.md5 n5) :
    ∃ w' h', (quick b).run D.peer close .none (freshConn d cs) =
        .ok (some ([.created n1, .columns cols, .fields foo bar] ++ ns.map .created ++ nodes.map .node ++ [.deleted n5]), h') w' ∧
      w'.closed = true := by
  suffices hg : (quick b).Gives D (fun a s => a = some ([.created n1, .columns cols, .fields foo bar] ++ ns.map .created ++ nodes.map .node ++ [.deleted n5]) ∧
      s.opn = .closed false) ⟨d, .idle, false, cs⟩ by
    obtain ⟨a, w', h', s', e, ⟨rfl, ho⟩, _, hcl⟩ := c93_programs (D := D) (close := close) _ _ d h0 h1 hg
    exact ⟨w', h', e, hcl ⟨_, ho⟩⟩
  have hc' : fieldList st.hd2 = some cols := by
    have := keys_eq
    unfold fieldList
    rw [mapGet_eq, show kFields = txt "fields" from by decide +kernel, hc]
  refine ⟨deliv_exec h0 h1 (tiny_create b), fun m hm => ?_⟩
  cases hm with
  | exec hp =>
  refine ⟨⟨d1, .idle, false, cs⟩, .summary st.md1, by simp only [Sess.step, st.create _ (create_means hp), Outcome.res], ?_⟩
  simp only [resultOf, (affected_of hn1).1, need]
  refine ⟨deliv_queryAll h0 h1 (tiny_q (by simp)), fun m hm => ?_⟩
  cases hm with
  | queryAll hp =>
  cases (show _ = [] from hp)
  refine ⟨⟨d2, .idle, false, cs⟩, .data (st.row :: st.rs2) st.hd2 st.md2, by simp only [Sess.step, st.get], ?_⟩
  simp only [hc', List.head?_cons, hrow, fooBar]
  refine ⟨⟨⟨_, .execPipe (by simp only [qPipe, List.map_cons, List.map_nil, MeansAll, MeansKVs]; exact ⟨_, _, rfl, ⟨_, _, rfl, ⟨_, _, rfl, ⟨_, _, rfl, ⟨_, _, rfl, ⟨_, _, rfl, rfl, rfl⟩, rfl⟩, rfl⟩, rfl⟩, rfl⟩, rfl⟩)⟩, ?_⟩, fun m hm => ?_⟩
  · intro x hx
    obtain ⟨q, hq, rfl⟩ := List.mem_map.1 hx
    exact tiny_sendable h0 h1 (tiny_q (List.mem_append_right _ hq))
  cases hm with
  | execPipe hp =>
  rw [pipe_means hp]
  refine ⟨⟨d3, .idle, false, cs⟩, .summaries (st.answers.map Answer.summary), by simp only [Sess.step, st.pipe, pipe_res], ?_⟩
  simp only [summariesIn, each_counts hns]
  refine ⟨deliv_queryAll h0 h1 (tiny_q (by simp)), fun m hm => ?_⟩
  cases hm with
  | queryAll hp =>
  cases (show _ = [] from hp)
  refine ⟨⟨d4, .idle, false, cs⟩, .data st.rs4 st.hd4 st.md4, by simp only [Sess.step, st.list], ?_⟩
  simp only [each_nodes hnodes]
  refine ⟨deliv_exec h0 h1 (tiny_q (by simp)), fun m hm => ?_⟩
  cases hm with
  | exec hp =>
  cases (show _ = [] from hp)
  refine ⟨⟨d5, .idle, false, cs⟩, .summary st.md5, by simp only [Sess.step, st.delete, Outcome.res], ?_⟩
  simp only [(affected_of hn5).1]
  refine ⟨⟨⟨_, .close⟩, trivial⟩, fun m hm => ?_⟩
  cases hm
  exact ⟨⟨d5, .closed false, false, cs⟩, .done, rfl, rfl, rfl⟩

theorem deliv_stExec {q : Str} {kvs : KVs} {d : δ} {tx : Bool} {cs : Nat} (h0 : 0 < cs) (h1 : cs ≤ 65535) (h : Tiny (.run q kvs)) :
    (Call.stExec kvs).Deliverable (⟨d, .stmt ⟨q, []⟩, tx, cs⟩ : Sess δ) := by
  have := tiny_sendable h0 h1 h
  obtain ⟨ps, hp⟩ := sendable_means this
  exact ⟨⟨_, .stExec hp⟩, this⟩

theorem deliv_stQuery {q : Str} {kvs : KVs} {d : δ} {tx : Bool} {cs : Nat} (h0 : 0 < cs) (h1 : cs ≤ 65535) (h : Tiny (.run q kvs)) :
    (Call.stQuery kvs).Deliverable (⟨d, .stmt ⟨q, []⟩, tx, cs⟩ : Sess δ) := by
  have := tiny_sendable h0 h1 h
  obtain ⟨ps, hp⟩ := sendable_means this
  exact ⟨⟨_, .stQuery hp⟩, this⟩

theorem zip_pipe {m : List PSs} (h : MeansParams [[], [], [], [], [], []] m) : qPipe.zip m = qPipe.map fun q => (q, []) := by
  simp only [MeansParams, MeansKVs] at h
  obtain ⟨_, _, rfl, ⟨_, _, rfl, ⟨_, _, rfl, ⟨_, _, rfl, ⟨_, _, rfl, ⟨_, _, rfl, rfl, rfl⟩, rfl⟩, rfl⟩, rfl⟩, rfl⟩, rfl⟩ := h
  rfl

/-- Reading the paths. -/
theorem gives_paths {Q : Option (List Line) → Sess δ → Prop} {k : List Line → Prog (Option (List Line))} {hd md : KVs} {d : δ} {cs : Nat} {q : Str} :
    ∀ (rs : List (List Val)) {vs : List Val} {acc : List Line} {fuel : Nat} {o : Open}, firsts IsPath rs vs → rs.length < fuel →
      o.cursor = .at ⟨q, []⟩ false hd rs (.summary md) →
      (k (acc ++ vs.map .path)).Gives D Q ⟨d, .ended ⟨q, []⟩ false, false, cs⟩ →
      (readPaths fuel acc k).Gives D Q ⟨d, o, false, cs⟩
  | [], vs, acc, fuel + 1, o, hf, _, ho, hg => by
    cases (show vs = [] from hf)
    rw [List.map_nil, List.append_nil] at hg
    refine ⟨deliv_next, fun m hm => ?_⟩
    cases hm
    exact ⟨⟨d, .ended ⟨q, []⟩ false, false, cs⟩, .eof md, by simp only [Sess.step, ho], hg⟩
  | r :: rs, vs, acc, fuel + 1, o, hf, hl, ho, hg => by
    obtain ⟨v, rest, vs', rfl, h1, h2, rfl⟩ := hf
    simp only [List.length_cons] at hl
    refine ⟨deliv_next, fun m hm => ?_⟩
    cases hm
    refine ⟨⟨d, .reading ⟨q, []⟩ false hd rs (.summary md) [] 0, false, cs⟩, .row (v :: rest), by simp only [Sess.step, ho], ?_⟩
    have hp : pathOf (v :: rest) = some (.path v) := by cases v <;> first | exact h1.elim | rfl
    simp only [hp, need]
    refine gives_paths rs h2 (by omega) rfl ?_
    rw [List.append_assoc]
    exact hg

/-- C93 for slow_n_clean, which also needs that there is exactly one record to the second query: the program panics if there are
more. The loop is bounded by `fuel`; every bound beyond the number of paths gives the same. -/
theorem c93_slow (b : Bool) {cs : Nat} (h0 : 0 < cs) (h1 : cs ≤ 65535) {d d1 d2 d3 d4 d5 : δ} (st : Story D qPaths d d1 d2 d3 d4 d5)
    {n1 n5 foo : _root_.Int} {bar : UInt64} {cols more paths : List Val} {ns : List _root_.Int}
    (hn1 : Counts st.md1 n1) (hone : st.rs2 = []) (hc : get? st.hd2 (txt "fields") = some (.list cols)) (hrow : st.row = .int .int64 foo :: .float64 bar :: more)
    (hns : CountsAll (st.answers.map Answer.summary) ns) (hpaths : firsts IsPath st.rs4 paths) (hn5 : Counts st.md5 n5)
    {fuel : Nat} (hfuel : st.rs4.length < fuel) :
    ∃ w' h', (slow b fuel).run D.peer close .none (freshConn d cs) =
        .ok (some ([.created n1, .columns cols, .fields foo bar] ++ ns.map .created ++ paths.map .path ++ [.deleted n5]), h') w' ∧
      w'.closed = true := by
  suffices hg : (slow b fuel).Gives D (fun a s => a = some ([.created n1, .columns cols, .fields foo bar] ++ ns.map .created ++ paths.map .path ++ [.deleted n5]) ∧
      s.opn = .closed false) ⟨d, .idle, false, cs⟩ by
    obtain ⟨a, w', h', s', e, ⟨rfl, ho⟩, _, hcl⟩ := c93_programs (D := D) (close := close) _ _ d h0 h1 hg
    exact ⟨w', h', e, hcl ⟨_, ho⟩⟩
  have hc' : fieldList st.hd2 = some cols := by
    unfold fieldList
    rw [mapGet_eq, show kFields = txt "fields" from by decide +kernel, hc]
  refine ⟨deliv_prepare, fun m hm => ?_⟩
  cases hm
  refine ⟨⟨d, .stmt ⟨qCreate, []⟩, false, cs⟩, .done, rfl, ?_⟩
  simp only [check]
  refine ⟨deliv_stExec h0 h1 (tiny_create b), fun m hm => ?_⟩
  cases hm with
  | stExec hp =>
  refine ⟨⟨d1, .stmt ⟨qCreate, []⟩, false, cs⟩, .summary st.md1, by simp only [Sess.step, st.create _ (create_means hp), Outcome.res], ?_⟩
  simp only [resultOf, (affected_of hn1).2, need]
  refine ⟨deliv_closeStmt, fun m hm => ?_⟩
  cases hm
  refine ⟨⟨d1, .idle, false, cs⟩, .done, rfl, ?_⟩
  refine ⟨deliv_prepare, fun m hm => ?_⟩
  cases hm
  refine ⟨⟨d1, .stmt ⟨qGet, []⟩, false, cs⟩, .done, rfl, ?_⟩
  dsimp only
  refine ⟨deliv_stQuery h0 h1 (tiny_q (by simp)), fun m hm => ?_⟩
  cases hm with
  | stQuery hp =>
  cases (show _ = [] from hp)
  refine ⟨⟨d2, .fresh ⟨qGet, []⟩ st.hd2 [st.row] (.summary st.md2), false, cs⟩, .rows st.hd2, by simp [Sess.step, st.get, hone], ?_⟩
  dsimp only
  refine ⟨deliv_next, fun m hm => ?_⟩
  cases hm
  refine ⟨⟨d2, .reading ⟨qGet, []⟩ false st.hd2 [] (.summary st.md2) [] 0, false, cs⟩, .row st.row, rfl, ?_⟩
  dsimp only
  refine ⟨deliv_next, fun m hm => ?_⟩
  cases hm
  refine ⟨⟨d2, .ended ⟨qGet, []⟩ false, false, cs⟩, .eof st.md2, rfl, ?_⟩
  simp only [hc', hrow, fooBar]
  refine ⟨deliv_closeStmt, fun m hm => ?_⟩
  cases hm
  refine ⟨⟨d2, .idle, false, cs⟩, .done, rfl, ?_⟩
  refine ⟨deliv_preparePipe, fun m hm => ?_⟩
  cases hm
  refine ⟨⟨d2, .stmt ⟨[], qPipe⟩, false, cs⟩, .done, rfl, ?_⟩
  dsimp only
  refine ⟨⟨⟨_, .stExecPipe (by simp only [MeansParams, MeansKVs]; exact ⟨_, _, rfl, ⟨_, _, rfl, ⟨_, _, rfl, ⟨_, _, rfl, ⟨_, _, rfl, ⟨_, _, rfl, rfl, rfl⟩, rfl⟩, rfl⟩, rfl⟩, rfl⟩, rfl⟩)⟩, ?_⟩, fun m hm => ?_⟩
  · intro x hx
    rw [show qPipe.zip ([[], [], [], [], [], []] : List KVs) = qPipe.map fun q => (q, []) from rfl] at hx
    obtain ⟨q, hq, rfl⟩ := List.mem_map.1 hx
    exact tiny_sendable h0 h1 (tiny_q (List.mem_append_right _ hq))
  cases hm with
  | @stExecPipe l m hp =>
  have hlen : m.length = qPipe.length := by
    have hz := congrArg List.length (zip_pipe hp)
    simp only [MeansParams, MeansKVs] at hp
    obtain ⟨_, _, rfl, ⟨_, _, rfl, ⟨_, _, rfl, ⟨_, _, rfl, ⟨_, _, rfl, ⟨_, _, rfl, rfl, rfl⟩, rfl⟩, rfl⟩, rfl⟩, rfl⟩, rfl⟩ := hp
    rfl
  refine ⟨⟨d3, .stmt ⟨[], qPipe⟩, false, cs⟩, .summaries (st.answers.map Answer.summary), ?_, ?_⟩
  · simp only [Sess.step, hlen, zip_pipe hp, st.pipe, pipe_res, ne_eq, not_true_eq_false, if_false]
  simp only [summariesIn, each_counts hns]
  refine ⟨deliv_closeStmt, fun m hm => ?_⟩
  cases hm
  refine ⟨⟨d3, .idle, false, cs⟩, .done, rfl, ?_⟩
  dsimp only
  refine ⟨deliv_prepare, fun m hm => ?_⟩
  cases hm
  refine ⟨⟨d3, .stmt ⟨qPaths, []⟩, false, cs⟩, .done, rfl, ?_⟩
  dsimp only
  refine ⟨deliv_stQuery h0 h1 (tiny_q (by simp)), fun m hm => ?_⟩
  cases hm with
  | stQuery hp =>
  cases (show _ = [] from hp)
  refine ⟨⟨d4, .fresh ⟨qPaths, []⟩ st.hd4 st.rs4 (.summary st.md4), false, cs⟩, .rows st.hd4, by simp [Sess.step, st.list], ?_⟩
  dsimp only
  refine gives_paths st.rs4 hpaths hfuel rfl ?_
  refine ⟨deliv_closeStmt, fun m hm => ?_⟩
  cases hm
  refine ⟨⟨d4, .idle, false, cs⟩, .done, rfl, ?_⟩
  refine ⟨deliv_exec h0 h1 (tiny_q (by simp)), fun m hm => ?_⟩
  cases hm with
  | exec hp =>
  cases (show _ = [] from hp)
  refine ⟨⟨d5, .idle, false, cs⟩, .summary st.md5, by simp only [Sess.step, st.delete, Outcome.res], ?_⟩
  simp only [(affected_of hn5).1]
  refine ⟨⟨⟨_, .close⟩, trivial⟩, fun m hm => ?_⟩
  cases hm
  exact ⟨⟨d5, .closed false, false, cs⟩, .done, rfl, rfl, rfl⟩

/-- A database that answers the queries of the examples as their comments say. -/
def library (last : List Val) : DB Nat where
  exec d q _ := (d + 1,
    if q = qCreate then .answer [] [] (.summary [(txt "stats", .map [(txt "nodes-created", .int .int64 1)])])
    else if q = qGet then
      .answer [(txt "fields", .list [.str (txt "n.foo"), .str (txt "n.bar")])] [[.int .int64 1, .float64 0x400199999999999A]] (.summary [])
    else if q = qDelete then
      .answer [] [] (.summary [(txt "stats", .map [(txt "nodes-deleted", .int .int64 7), (txt "relationships-deleted", .int .int64 6)])])
    else if q ∈ qPipe then
      .answer [] [] (.summary [(txt "stats", .map [(txt "nodes-created", .int .int64 1), (txt "relationships-created", .int .int64 1)])])
    else .answer [] (last.map fun v => [v]) (.summary []))

theorem library_create (vs : List Val) (d : Nat) (ps : PSs) : (library vs).exec d qCreate ps =
    (d + 1, .answer [] [] (.summary [(txt "stats", .map [(txt "nodes-created", .int .int64 1)])])) := by
  simp only [library, if_true]

theorem library_get (vs : List Val) (d : Nat) (ps : PSs) : (library vs).exec d qGet ps =
    (d + 1, .answer [(txt "fields", .list [.str (txt "n.foo"), .str (txt "n.bar")])] [[.int .int64 1, .float64 0x400199999999999A]] (.summary [])) := by
  simp only [library, if_neg (show ¬ qGet = qCreate by decide +kernel), if_true]

theorem library_delete (vs : List Val) (d : Nat) (ps : PSs) : (library vs).exec d qDelete ps =
    (d + 1, .answer [] [] (.summary [(txt "stats", .map [(txt "nodes-deleted", .int .int64 7), (txt "relationships-deleted", .int .int64 6)])])) := by
  simp only [library, if_neg (show ¬ qDelete = qCreate by decide +kernel), if_neg (show ¬ qDelete = qGet by decide +kernel), if_true]

/-- The answer to each query of the pipeline. -/
def two : Answer := ⟨[], [], [(txt "stats", .map [(txt "nodes-created", .int .int64 1), (txt "relationships-created", .int .int64 1)])]⟩

theorem library_pipe (vs : List Val) (d : Nat) {q : Str} (hq : q ∈ qPipe) (ps : PSs) : (library vs).exec d q ps = (d + 1, two.outcome) := by
  have h : ∀ q ∈ qPipe, ¬ q = qCreate ∧ ¬ q = qGet ∧ ¬ q = qDelete := by decide +kernel
  obtain ⟨h1, h2, h3⟩ := h q hq
  simp only [library, if_neg h1, if_neg h2, if_neg h3, if_pos hq]
  rfl

theorem library_all (vs : List Val) : ∀ (l : List Str) (d : Nat), (∀ q ∈ l, q ∈ qPipe) →
    (library vs).runAll d (l.map fun q => (q, [])) = (d + l.length, (List.replicate l.length two).map Answer.outcome)
  | [], d, _ => rfl
  | q :: l, d, h => by
    have hq := library_pipe vs d (h q List.mem_cons_self) []
    have ih := library_all vs l (d + 1) fun q hq => h q (List.mem_cons_of_mem _ hq)
    simp only [List.map_cons, DB.runAll, hq, ih, List.length_cons, List.replicate_succ, two, Answer.outcome]
    refine Prod.ext ?_ rfl
    show d + 1 + l.length = d + (l.length + 1)
    omega

theorem library_last (vs : List Val) (d : Nat) (ps : PSs) {q : Str} (hq : q = qNodes ∨ q = qPaths) : (library vs).exec d q ps =
    (d + 1, .answer [] (vs.map fun v => [v]) (.summary [])) := by
  have h : ∀ q ∈ [qNodes, qPaths], ¬ q = qCreate ∧ ¬ q = qGet ∧ ¬ q = qDelete ∧ ¬ q ∈ qPipe := by decide +kernel
  obtain ⟨h1, h2, h3, h4⟩ := h q (by rcases hq with rfl | rfl <;> simp)
  simp only [library, if_neg h1, if_neg h2, if_neg h3, if_neg h4]

/-- The library's story. -/
def libraryStory (vs : List Val) {last : Str} (hq : last = qNodes ∨ last = qPaths) : Story (library vs) last 0 1 2 8 9 10 where
  hd1 := _
  rs1 := _
  md1 := _
  create ps _ := library_create vs 0 ps
  hd2 := _
  row := _
  rs2 := _
  md2 := _
  get := library_get vs 1 []
  answers := List.replicate 6 two
  pipe := library_all vs qPipe 2 fun _ h => h
  hd4 := _
  rs4 := _
  md4 := _
  list := library_last vs 8 [] hq
  hd5 := _
  rs5 := _
  md5 := _
  delete := library_delete vs 9 []

theorem two_counts : CountsAll ((List.replicate 6 two).map Answer.summary) [2, 2, 2, 2, 2, 2] := by
  have h : Counts two.summary 2 := ⟨_, 1, 1, 0, 0, by rfl, .inl (by rfl), .inl (by rfl), .inr ⟨by rfl, rfl⟩, .inr ⟨by rfl, rfl⟩, by constructor <;> decide, rfl⟩
  exact ⟨_, _, h, ⟨_, _, h, ⟨_, _, h, ⟨_, _, h, ⟨_, _, h, ⟨_, _, h, rfl, rfl⟩, rfl⟩, rfl⟩, rfl⟩, rfl⟩, rfl⟩

/-- The output promised in the comments of quick_n_dirty, with two nodes. -/
theorem c93_comments (close : M (Srv Nat) (Option GoErr)) (b : Bool) : ∃ w' h',
    (quick b).run (library [.node 1 [] [], .node 2 [] []]).peer close .none (freshConn 0 4096) =
      .ok (some [.created 1, .columns [.str (txt "n.foo"), .str (txt "n.bar")], .fields 1 0x400199999999999A, .created 2, .created 2, .created 2,
        .created 2, .created 2, .created 2, .node (.node 1 [] []), .node (.node 2 [] []), .deleted 13], h') w' ∧ w'.closed = true :=
  c93_quick (D := library [.node 1 [] [], .node 2 [] []]) (cs := 4096) (nodes := [.node 1 [] [], .node 2 [] []]) b (by decide) (by decide)
    (libraryStory [.node 1 [] [], .node 2 [] []] (.inl rfl))
    ⟨_, 1, 0, 0, 0, by rfl, .inl (by rfl), .inr ⟨by rfl, rfl⟩, .inr ⟨by rfl, rfl⟩, .inr ⟨by rfl, rfl⟩, by constructor <;> decide, rfl⟩
    rfl rfl two_counts ⟨_, _, _, rfl, trivial, ⟨_, _, _, rfl, trivial, rfl, rfl⟩, rfl⟩
    ⟨_, 0, 0, 7, 6, by rfl, .inr ⟨by rfl, rfl⟩, .inr ⟨by rfl, rfl⟩, .inl (by rfl), .inl (by rfl), by constructor <;> decide, rfl⟩

/-- The same for slow_n_clean. -/
example (close : M (Srv Nat) (Option GoErr)) (b : Bool) : ∃ w' h',
    (slow b 100).run (library [.path [] [] []]).peer close .none (freshConn 0 4096) =
      .ok (some [.created 1, .columns [.str (txt "n.foo"), .str (txt "n.bar")], .fields 1 0x400199999999999A, .created 2, .created 2, .created 2,
        .created 2, .created 2, .created 2, .path (.path [] [] []), .deleted 13], h') w' ∧ w'.closed = true :=
  c93_slow (D := library [.path [] [] []]) (cs := 4096) (paths := [.path [] [] []]) (fuel := 100) b (by decide) (by decide)
    (libraryStory [.path [] [] []] (.inr rfl))
    ⟨_, 1, 0, 0, 0, by rfl, .inl (by rfl), .inr ⟨by rfl, rfl⟩, .inr ⟨by rfl, rfl⟩, .inr ⟨by rfl, rfl⟩, by constructor <;> decide, rfl⟩
    rfl rfl rfl two_counts ⟨_, _, _, rfl, trivial, rfl, rfl⟩
    ⟨_, 0, 0, 7, 6, by rfl, .inr ⟨by rfl, rfl⟩, .inr ⟨by rfl, rfl⟩, .inl (by rfl), .inl (by rfl), by constructor <;> decide, rfl⟩ (by decide +kernel)

/-- quick_n_dirty does not look at errors: it panics if the database refuses its first query. -/
theorem c93_refused (b : Bool) {cs : Nat} (h0 : 0 < cs) (h1 : cs ≤ 65535) {d d1 : δ} {md : KVs}
    (hr : ∀ ps, IsCreateArgs ps → D.exec d qCreate ps = (d1, .refused md)) :
    ∃ w' h', (quick b).run D.peer close .none (freshConn d cs) = .ok (none, h') w' := by
  suffices hg : (quick b).Gives D (fun a _ => a = none) ⟨d, .idle, false, cs⟩ by
    obtain ⟨a, w', h', s', e, rfl, _⟩ := c93_programs (D := D) (close := close) _ _ d h0 h1 hg
    exact ⟨w', h', e⟩
  refine ⟨deliv_exec h0 h1 (tiny_create b), fun m hm => ?_⟩
  cases hm with
  | exec hp => exact ⟨⟨d1, .idle, false, cs⟩, .failure md, by simp only [Sess.step, hr _ (create_means hp), Outcome.res], rfl⟩

end Bolt.Examples
