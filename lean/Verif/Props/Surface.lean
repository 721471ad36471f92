import Verif.Spec.Text
import Verif.Model.Surface
import Verif.Proofs.Received
import Verif.Proofs.Run
import Verif.Props.Encoding
import Verif.Props.Decoding

/-! C56-C59, C61: results, columns, arguments, error chains and the row interface of database/sql. -/

namespace Bolt

theorem mapGet_eq (m : KVs) (k : Str) : mapGet m k = get? m k := by
  induction m with
  | nil => rfl
  | cons e m ih => obtain ⟨k', v⟩ := e; simp only [mapGet, get?, ih]

/-! ## C56 -/

/-- The statistics report the number `n` under the name `k`: an `int64`, or nothing for 0. -/
def Counted (stats : KVs) (k : Str) (n : Int) : Prop :=
  get? stats k = some (.int .int64 n) ∨ (get? stats k = none ∧ n = 0)

theorem wrap_add (a b : Int) : wrapSigned 8 (wrapSigned 8 a + b) = wrapSigned 8 (a + b) := by
  have : (wrapSigned 8 a + b) % ((256 ^ 8 : Nat) : Int) = (a + b) % ((256 ^ 8 : Nat) : Int) := by
    rw [Int.add_emod, Int.add_emod a b]
    congr 2
    unfold wrapSigned
    dsimp only
    split
    · rw [Int.emod_emod]
    · rw [Int.sub_emod, Int.emod_self]; simp
  unfold wrapSigned at *
  simp only [this]

theorem wrap_small {n : Int} (h : IsInt64 n) : wrapSigned 8 n = n := by
  have e3 : (2 : Int) ^ 63 = 9223372036854775808 := by decide
  have e1 : ((256 ^ 8 : Nat) : Int) = 18446744073709551616 := by decide
  unfold IsInt64 at h
  refine wrapSigned_eq ?_ ?_ (by decide) <;> omega

theorem addStat_ok {stats : KVs} {k : Str} {n a : Int} (h : Counted stats k n) :
    addStat stats k (wrapSigned 8 a) = .ok (wrapSigned 8 (a + n)) := by
  unfold addStat
  rw [mapGet_eq]
  rcases h with h | ⟨h, rfl⟩
  · rw [h]; simp only [wrap_add]
  · rw [h]; simp

theorem keys_eq : kStats = txt "stats" ∧ kNodesCreated = txt "nodes-created" ∧ kRelsCreated = txt "relationships-created" ∧
    kNodesDeleted = txt "nodes-deleted" ∧ kRelsDeleted = txt "relationships-deleted" ∧ kFields = txt "fields" :=
  ⟨rfl, rfl, rfl, rfl, rfl, rfl⟩

/-- C56: when the server reports the four counts (a count it leaves out being 0) as integers whose sum is an int64, the
result is their sum; without statistics it is 0; with statistics that are no map it is an error. Missing: counts of
another type panic (`c56_false_type`), a larger sum is reported wrongly (`c56_false_sum`). -/
theorem c56_rows_affected_partial (md : KVs) :
    (∀ stats nc rc nd rd, get? md (txt "stats") = some (.map stats) → Counted stats (txt "nodes-created") nc →
      Counted stats (txt "relationships-created") rc → Counted stats (txt "nodes-deleted") nd →
      Counted stats (txt "relationships-deleted") rd →
      IsInt64 (nc + rc + nd + rd) → rowsAffected md = .ok (nc + rc + nd + rd, none)) ∧
    (get? md (txt "stats") = none → rowsAffected md = .ok (0, none)) ∧
    (∀ v, get? md (txt "stats") = some v → (∀ stats, v ≠ .map stats) → ∃ e, rowsAffected md = .ok (-1, some e)) := by
  obtain ⟨e1, e2, e3, e4, e5, _⟩ := keys_eq
  rw [← e1, ← e2, ← e3, ← e4, ← e5]
  refine ⟨?_, ?_, ?_⟩
  · intro stats nc rc nd rd hs h1 h2 h3 h4 hr
    unfold rowsAffected
    rw [mapGet_eq, hs]
    have e0 : addStat stats kNodesCreated 0 = addStat stats kNodesCreated (wrapSigned 8 0) := rfl
    dsimp only
    rw [e0, addStat_ok h1]
    dsimp only [bind, Except.bind]
    rw [addStat_ok h2]
    dsimp only
    rw [addStat_ok h3]
    dsimp only
    rw [addStat_ok h4]
    dsimp only
    rw [Int.zero_add, wrap_small hr]
  · intro h; unfold rowsAffected; rw [mapGet_eq, h]
  · intro v h hv
    unfold rowsAffected
    rw [mapGet_eq, h]
    cases v with
    | map m => exact absurd rfl (hv m)
    | _ => exact ⟨_, rfl⟩

/-- C56: RowsAffected panics exactly when one of the four counts is present and is not an int64. -/
theorem c56_panics (md : KVs) (p : Panic) : rowsAffected md = .error p ↔
    p = .typeAssert ∧ ∃ stats k v, get? md (txt "stats") = some (.map stats) ∧
      k ∈ [txt "nodes-created", txt "relationships-created", txt "nodes-deleted", txt "relationships-deleted"] ∧
      get? stats k = some v ∧
      ∀ n, v ≠ .int .int64 n := by
  obtain ⟨e1, e2, e3, e4, e5, _⟩ := keys_eq
  rw [← e1, ← e2, ← e3, ← e4, ← e5]
  have key : ∀ (stats : KVs) k a, (∃ b, addStat stats k a = .ok b) ∧ (∀ v, get? stats k = some v → ∃ n, v = .int .int64 n)
      ∨ addStat stats k a = .error .typeAssert ∧ ∃ v, get? stats k = some v ∧ ∀ n, v ≠ .int .int64 n := by
    intro stats k a
    unfold addStat
    rw [mapGet_eq]
    cases hg : get? stats k with
    | none => left; exact ⟨⟨_, rfl⟩, by simp⟩
    | some v =>
      have hv : (∃ n, v = .int .int64 n) ∨ ∀ n, v ≠ .int .int64 n := by
        cases v with
        | int k n => cases k <;> first | exact .inl ⟨_, rfl⟩ | exact .inr (fun n h => by cases h)
        | _ => exact .inr (fun n h => by cases h)
      rcases hv with ⟨n, rfl⟩ | hv
      · left; exact ⟨⟨_, rfl⟩, fun v h => ⟨n, by simpa using h.symm⟩⟩
      · right
        refine ⟨?_, v, rfl, hv⟩
        split
        · rename_i h; cases h
        · rename_i h; injection h with h; exact absurd h (hv _)
        · rfl
  unfold rowsAffected
  rw [mapGet_eq]
  cases hg : get? md kStats with
  | none => constructor
            · intro h; cases h
            · rintro ⟨_, s, k, v, h, _⟩; cases h
  | some sv =>
    by_cases hm : ∃ m, sv = .map m
    · obtain ⟨m, rfl⟩ := hm
      dsimp only
      constructor
      · intro h
        rcases key m kNodesCreated 0 with ⟨⟨b1, h1⟩, _⟩ | ⟨h1, v, h2, h3⟩
        swap
        · rw [h1] at h; injection h with h; exact ⟨h.symm, m, _, v, rfl, by simp, h2, h3⟩
        rw [h1] at h; dsimp only [bind, Except.bind] at h
        rcases key m kRelsCreated b1 with ⟨⟨b2, h1⟩, _⟩ | ⟨h1, v, h2, h3⟩
        swap
        · rw [h1] at h; injection h with h; exact ⟨h.symm, m, _, v, rfl, by simp, h2, h3⟩
        rw [h1] at h; dsimp only [bind, Except.bind] at h
        rcases key m kNodesDeleted b2 with ⟨⟨b3, h1⟩, _⟩ | ⟨h1, v, h2, h3⟩
        swap
        · rw [h1] at h; injection h with h; exact ⟨h.symm, m, _, v, rfl, by simp, h2, h3⟩
        rw [h1] at h; dsimp only [bind, Except.bind] at h
        rcases key m kRelsDeleted b3 with ⟨⟨b4, h1⟩, _⟩ | ⟨h1, v, h2, h3⟩
        swap
        · rw [h1] at h; injection h with h; exact ⟨h.symm, m, _, v, rfl, by simp, h2, h3⟩
        rw [h1] at h; dsimp only [bind, Except.bind] at h
        cases h
      · rintro ⟨rfl, s, k, v, h, hk, h2, h3⟩
        injection h with h; injection h with h; subst h
        rcases key m kNodesCreated 0 with ⟨⟨b1, h1⟩, n1⟩ | ⟨h1, _⟩
        swap
        · rw [h1]; rfl
        rw [h1]; dsimp only [bind, Except.bind]
        rcases key m kRelsCreated b1 with ⟨⟨b2, h1⟩, n2⟩ | ⟨h1, _⟩
        swap
        · rw [h1]
        rw [h1]; dsimp only
        rcases key m kNodesDeleted b2 with ⟨⟨b3, h1⟩, n3⟩ | ⟨h1, _⟩
        swap
        · rw [h1]
        rw [h1]; dsimp only
        rcases key m kRelsDeleted b3 with ⟨⟨b4, h1⟩, n4⟩ | ⟨h1, _⟩
        swap
        · rw [h1]
        exfalso
        simp only [List.mem_cons, List.not_mem_nil, or_false] at hk
        rcases hk with rfl | rfl | rfl | rfl
        · obtain ⟨n, hn⟩ := n1 v h2; exact h3 n hn
        · obtain ⟨n, hn⟩ := n2 v h2; exact h3 n hn
        · obtain ⟨n, hn⟩ := n3 v h2; exact h3 n hn
        · obtain ⟨n, hn⟩ := n4 v h2; exact h3 n hn
    · constructor
      · intro h
        cases sv with
        | map m => exact absurd ⟨m, rfl⟩ hm
        | _ => cases h
      · rintro ⟨_, s, k, v, h, _⟩
        injection h with h
        exact absurd ⟨s, h⟩ hm

/-- C56 as stated is false: a count that is not an int64 makes the call panic. -/
theorem c56_false_type : rowsAffected [(txt "stats", .map [(txt "nodes-created", .float64 0)])] = .error .typeAssert := rfl

/-- C56 as stated is false: a sum of the reported counts beyond the int64 range wraps around. -/
theorem c56_false_sum : ∃ md nc rc, get? md (txt "stats") = some (.map [(txt "nodes-created", .int .int64 nc), (txt "relationships-created", .int .int64 rc)]) ∧
    IsInt64 nc ∧ IsInt64 rc ∧ ∃ n, rowsAffected md = .ok (n, none) ∧ n ≠ nc + rc :=
  ⟨[(txt "stats", .map [(txt "nodes-created", .int .int64 (2^63 - 1)), (txt "relationships-created", .int .int64 1)])], 2^63 - 1, 1, rfl,
    by constructor <;> decide, by constructor <;> decide, -2^63, by rfl, by decide⟩

/-- LastInsertId is always -1. -/
theorem c56_last_insert_id (md : KVs) : lastInsertId md = (-1, none) := rfl

example : rowsAffected [(kStats, .map [(kNodesCreated, .int .int64 3), ([1], .nil), (kRelsDeleted, .int .int64 4)])] =
    .ok (7, none) :=
  (c56_rows_affected_partial _).1 _ 3 0 0 4 rfl (.inl rfl) (.inr ⟨rfl, rfl⟩) (.inr ⟨rfl, rfl⟩) (.inl rfl)
    (by constructor <;> decide)

/-! ## C57 -/

theorem columnNames_iff (xs : List Val) (ss : List Str) : columnNames xs = some ss ↔ xs = ss.map .str := by
  induction xs generalizing ss with
  | nil => cases ss <;> simp [columnNames]
  | cons x xs ih =>
    cases x with
    | str s =>
      simp only [columnNames]
      cases hc : columnNames xs with
      | none =>
        constructor
        · intro h; cases h
        · intro h
          cases ss with
          | nil => cases h
          | cons t ss =>
            simp only [List.map_cons, List.cons.injEq] at h
            rw [(ih ss).mpr h.2] at hc; cases hc
      | some ts =>
        have := (ih ts).mp hc
        subst this
        cases ss with
        | nil => simp
        | cons t ss =>
          simp only [Option.some.injEq, List.cons.injEq, List.map_cons, Val.str.injEq, and_congr_right_iff]
          intro _
          constructor
          · rintro rfl; rfl
          · intro h
            have h1 := (ih ts).mpr rfl
            rw [(ih ss).mpr h] at h1
            injection h1 with h1; exact h1.symm
    | _ => cases ss <;> simp [columnNames]

/-- C57: Columns is the list of the field names of the header, in order, when the header has a list of names, and empty
otherwise. -/
theorem c57_columns (md : KVs) :
    (∀ names : List Str, get? md (txt "fields") = some (.list (names.map .str)) → columns md = names) ∧
    ((∀ names : List Str, get? md (txt "fields") ≠ some (.list (names.map .str))) → columns md = []) := by
  rw [← keys_eq.2.2.2.2.2]
  unfold columns
  rw [mapGet_eq]
  constructor
  · intro names h
    rw [h]
    dsimp only
    rw [(columnNames_iff _ names).mpr rfl]
  · intro h
    split
    · rfl
    · rename_i fields hf
      split
      · rename_i ss hs
        rw [(columnNames_iff _ _).mp hs] at hf
        exact absurd hf (h ss)
      · rfl
    · rfl

example : columns [(kFields, .list [.str [97], .str [98]])] = [[97], [98]] :=
  (c57_columns _).1 [[97], [98]] rfl

example : columns [(kFields, .list [.str [97], .nil])] = [] := by
  refine (c57_columns _).2 fun names h => ?_
  injection h with h; injection h with h
  match names, h with
  | [_, _], h => simp at h

/-! ## C58 -/

/-- The value of the last of the maps that has the key. -/
def lastHaving : List KVs → Str → Option Val
  | [], _ => none
  | m :: ms, k => (lastHaving ms k).or (get? m k)

theorem mergeInto_eq (out m : KVs) : mergeInto out m = insertAll out m := by
  induction m generalizing out with
  | nil => rfl
  | cons e m ih => obtain ⟨k, v⟩ := e; simp only [mergeInto, ih]; rfl

theorem getLast_distinct {m : KVs} (h : DistinctKeys m) (k : Str) : getLast? m k = get? m k := by
  unfold DistinctKeys at h
  induction m with
  | nil => rfl
  | cons e m ih =>
    obtain ⟨k', v⟩ := e
    simp only [List.map_cons, List.nodup_cons] at h
    simp only [getLast?, get?, ih h.2]
    by_cases hk : k' = k
    · subst hk
      have : get? m k' = none := by
        cases hg : get? m k' with
        | none => rfl
        | some v =>
          exfalso; refine h.1 ?_
          clear ih h
          induction m with
          | nil => cases hg
          | cons e m ih =>
            simp only [get?] at hg
            split at hg
            · rename_i hh; simp [hh]
            · simp only [List.map_cons, List.mem_cons]; exact .inr (ih hg)
      rw [this]
    · simp only [hk, if_false]
      cases get? m k <;> rfl

/-- The argument is a byte slice that unmarshals to the map `m`. -/
def IsMapArg (a : DVal) (m : KVs) : Prop := ∃ b, a = .bytes b ∧ unmarshal b = .ok (.map m)

theorem unmarshal_received {b : Bytes} {v : Val} (h : unmarshal b = .ok v) : v.Received := by
  unfold unmarshal decodeFrom at h
  split at h
  · cases h
  · rename_i data r hr
    cases hd : decodePayload data with
    | error f => rw [hd] at h; cases h
    | ok x =>
      obtain ⟨u, rest⟩ := x
      rw [hd] at h
      injection h with h
      subst h
      exact gives_decode _ _ _ _ hd

/-- The arguments are marshalled maps, in order. -/
def AreMapArgs : List DVal → List KVs → Prop
  | [], [] => True
  | a :: as, m :: ms => IsMapArg a m ∧ AreMapArgs as ms
  | _, _ => False

theorem driverArgs_good (args rest : List DVal) (ms : List KVs) (out : KVs) (ho : DistinctKeys out)
    (h : AreMapArgs args ms) : ∃ out', driverArgsFrom out (args ++ rest) = driverArgsFrom out' rest ∧
      DistinctKeys out' ∧ ∀ k, get? out' k = (lastHaving ms k).or (get? out k) := by
  induction args generalizing ms out with
  | nil =>
    cases ms with
    | nil => exact ⟨out, rfl, ho, fun k => by simp [lastHaving]⟩
    | cons m ms => exact h.elim
  | cons a args ih =>
    cases ms with
    | nil => exact h.elim
    | cons m ms =>
      obtain ⟨⟨b, rfl, hb⟩, h⟩ := h
      have hm : DistinctKeys m := (unmarshal_received hb).typed.1
      have hd : ∀ (m out : KVs), DistinctKeys out → DistinctKeys (mergeInto out m) := by
        intro m
        induction m with
        | nil => exact fun out h => h
        | cons e m ih => intro out h; exact ih _ (distinct_insert out e.1 e.2 h)
      obtain ⟨out', h1, h2, h3⟩ := ih ms (mergeInto out m) (hd m out ho) h
      refine ⟨out', ?_, h2, fun k => ?_⟩
      · rw [← h1]
        simp only [List.cons_append, driverArgsFrom, hb]
      · rw [h3, mergeInto_eq, get?_insertAll, getLast_distinct hm, lastHaving, Option.or_assoc]

/-- C58: arguments that are byte slices holding maps are merged into one map, the last argument that has a key
deciding. Missing: see `c58_false`. -/
theorem c58_merged_partial {args : List DVal} {ms : List KVs} (h : AreMapArgs args ms) :
    ∃ out, driverArgsToMap args = .ok out ∧ DistinctKeys out ∧ ∀ k, get? out k = lastHaving ms k := by
  obtain ⟨out, h1, h2, h3⟩ := driverArgs_good args [] ms [] (by simp [DistinctKeys]) h
  rw [List.append_nil] at h1
  exact ⟨out, h1, h2, fun k => by rw [h3]; simp [get?]⟩

/-- The maps are returned one by one. -/
def ReturnsEach : List KVs → List KVs → Prop
  | [], ms => ms = []
  | m :: ms, ns => ∃ n rest, ReturnsKVs m n ∧ ReturnsEach ms rest ∧ ns = n :: rest

/-- C58: maps passed as their marshalled bytes are merged (every value with its integers as `int64` and so on, as C04
says). Missing: maps that do not survive marshalling and unmarshalling (C04). -/
theorem c58_marshalled_partial (ms : List KVs) (h : ∀ m ∈ ms, (Val.map m).Typed ∧ (Val.map m).Clean ∧
    (Val.map m).SmallSizes ∧ (Val.map m).Decodable ∧ (Val.map m).StringsLe 65535 ∧ (marshal (.map m)).2 = none) :
    ∃ ns out, ReturnsEach ms ns ∧ driverArgsToMap (ms.map fun m => .bytes (marshal (.map m)).1) = .ok out ∧
      DistinctKeys out ∧ ∀ k, get? out k = lastHaving ns k := by
  have key : ∃ ns, ReturnsEach ms ns ∧ AreMapArgs (ms.map fun m => .bytes (marshal (.map m)).1) ns := by
    induction ms with
    | nil => exact ⟨[], rfl, trivial⟩
    | cons m ms ih =>
      simp only [List.forall_mem_cons] at h
      obtain ⟨ns, h1, h2⟩ := ih h.2
      obtain ⟨a1, a2, a3, a4, a5, a6⟩ := h.1
      obtain ⟨w, h3, n, h4, rfl⟩ := c04_round_trip_partial a1 a2 a3 a4 a5 a6
      exact ⟨n :: ns, ⟨n, ns, h4, h1, rfl⟩, ⟨_, rfl, h3⟩, h2⟩
  obtain ⟨ns, h1, h2⟩ := key
  obtain ⟨out, h3⟩ := c58_merged_partial h2
  exact ⟨ns, out, h1, h3⟩

/-- C58: the first argument that is not a marshalled map decides: an argument that is no byte slice, or whose bytes
cannot be decoded without error, is rejected with an error. Missing: bytes of another value, and bytes on which the
decoder panics (`c58_false`). -/
theorem c58_rejected_partial {args : List DVal} {ms : List KVs} (h : AreMapArgs args ms) (rest : List DVal) :
    (∀ v, ∃ e, driverArgsToMap (args ++ .plain v :: rest) = .error (.err e)) ∧
    (∀ b e, unmarshal b = .error (.err e) → driverArgsToMap (args ++ .bytes b :: rest) = .error (.err e)) := by
  constructor
  · intro v
    obtain ⟨out, h1, _⟩ := driverArgs_good args (.plain v :: rest) ms [] (by simp [DistinctKeys]) h
    exact ⟨_, h1⟩
  · intro b e hb
    obtain ⟨out, h1, _⟩ := driverArgs_good args (.bytes b :: rest) ms [] (by simp [DistinctKeys]) h
    unfold driverArgsToMap
    rw [h1]
    simp only [driverArgsFrom, hb]

/-- C58 as stated is false: a byte slice holding any other value, for example the marshalled integer 1, makes the call
panic. -/
theorem c58_false : (marshal (.int .int64 1)).2 = none ∧
    driverArgsToMap [.bytes (marshal (.int .int64 1)).1] = .error (.panic .typeAssert) :=
  ⟨rfl, rfl⟩

set_option maxRecDepth 8000 in
example : ∃ out, driverArgsToMap [.bytes (marshal (.map [([97], .int .int64 1), ([98], .nil)])).1,
    .bytes (marshal (.map [([97], .int .int64 2)])).1] = .ok out ∧
    get? out [97] = some (.int .int64 2) ∧ get? out [98] = some .nil := by
  obtain ⟨out, h1, _, h3⟩ := c58_merged_partial (args := [.bytes (marshal (.map [([97], .int .int64 1), ([98], .nil)])).1,
    .bytes (marshal (.map [([97], .int .int64 2)])).1]) (ms := [[([97], .int .int64 1), ([98], .nil)], [([97], .int .int64 2)]])
    ⟨⟨_, rfl, rfl⟩, ⟨_, rfl, rfl⟩, trivial⟩
  exact ⟨out, h1, by rw [h3]; rfl, by rw [h3]; rfl⟩

example : ∃ e, driverArgsToMap [.plain (.str [97])] = .error (.err e) :=
  (c58_rejected_partial (args := []) (ms := []) trivial []).1 _

/-! ## C59 -/

/-- `Wrap` applied with each of the messages in turn, the first one outermost. -/
def wrapped : List String → GoErr → GoErr
  | [], e => e
  | m :: ms, e => .wrap m (some (wrapped ms e))

/-- C59: however often an error that is not itself a wrapper is wrapped, InnerMost gives it back; Inner undoes one
Wrap. An error made by `Wrap` of nil wraps nothing and is its own innermost error. -/
theorem c59_innermost (ms : List String) (e : GoErr) (h : e.inner = none) :
    (wrapped ms e).innerMost = e ∧ ∀ m, (GoErr.wrap m (some (wrapped ms e))).inner = some (wrapped ms e) := by
  refine ⟨?_, fun m => rfl⟩
  induction ms with
  | nil =>
    cases e with
    | wrap m i =>
      cases i with
      | none => rfl
      | some i => cases h
    | _ => rfl
  | cons m ms ih => exact ih

/-- C59: every error is a chain of wrappings of its innermost error, which wraps nothing. -/
theorem c59_chain (e : GoErr) : ∃ ms, e = wrapped ms e.innerMost ∧ e.innerMost.inner = none := by
  suffices h : ∀ (n : Nat) (e : GoErr), sizeOf e < n → ∃ ms, e = wrapped ms e.innerMost ∧ e.innerMost.inner = none from
    h _ e (Nat.lt_succ_self _)
  intro n
  induction n with
  | zero => intro e h; omega
  | succ n ih =>
    intro e he
    cases e with
    | wrap m i =>
      cases i with
      | none => exact ⟨[], rfl, rfl⟩
      | some i =>
        obtain ⟨ms, h1, h2⟩ := ih i (by simp only [GoErr.wrap.sizeOf_spec, Option.some.sizeOf_spec] at he; omega)
        refine ⟨m :: ms, ?_, h2⟩
        show GoErr.wrap m (some i) = .wrap m (some (wrapped ms i.innerMost))
        rw [← h1]
    | _ => exact ⟨[], rfl, rfl⟩

example : (wrapped ["a", "b"] .eof).innerMost = .eof := (c59_innermost ["a", "b"] .eof rfl).1

/-! ## C61 -/

/-- What the caller of Next should find in the cell of a value. -/
def CellOf (v : Val) (d : DVal) : Prop :=
  (IsScalar v → d = .plain v) ∧ (IsContainer v → ∃ b, d = .bytes b ∧ unmarshal b = .ok v)

/-- The part of the values that survives the conversion: decoded values, none of whose sizes is in the ranges that are
read back wrongly (C04). -/
def Storable (v : Val) : Prop := v.Received ∧ (IsScalar v ∨ IsContainer v ∧ v.SmallSizes ∧ v.StringsLe 65535)

theorem marshal_received {v : Val} (h : v.Received) : (marshal v).2 = none := by
  obtain ⟨wire, h1, _⟩ := c06_framed_iff_partial (cs := 65535) (by decide) (by decide) [] h.supported
  unfold marshal
  rw [h1]

theorem sqlValue_ok {v : Val} (h : Storable v) : ∃ d, sqlValue v = .ok d ∧ CellOf v d := by
  obtain ⟨hr, hs | ⟨hc, hz, hl⟩⟩ := h
  · have hn : ¬ IsContainer v := by cases v <;> first | exact fun h => h | exact hs.elim
    cases v with
    | int k n =>
      have : k = .int64 := hr.1.1
      subst this
      exact ⟨_, rfl, fun _ => rfl, fun h => (hn h).elim⟩
    | float32 => exact hr.1.elim
    | nil => exact ⟨_, rfl, fun _ => rfl, fun h => (hn h).elim⟩
    | bool => exact ⟨_, rfl, fun _ => rfl, fun h => (hn h).elim⟩
    | float64 => exact ⟨_, rfl, fun _ => rfl, fun h => (hn h).elim⟩
    | str => exact ⟨_, rfl, fun _ => rfl, fun h => (hn h).elim⟩
    | _ => exact hs.elim
  · have hok := marshal_received hr
    obtain ⟨w, h1, h2⟩ := c04_round_trip_partial hr.typed hr.clean hz hr.decodable hl hok
    have := returns_self v w hr h2
    subst this
    have hm : sqlMarshal w = .ok (.bytes (marshal w).1) := by
      unfold sqlMarshal
      generalize hg : marshal w = x at hok ⊢
      obtain ⟨b, e⟩ := x
      dsimp only at hok
      subst hok
      rfl
    refine ⟨_, ?_, fun h => ?_, fun _ => ⟨_, rfl, h1⟩⟩
    · rw [← hm]
      cases w <;> first | rfl | exact hc.elim
    · exfalso
      cases w <;> first | exact hc.elim | exact h.elim

theorem storeRow_ok (vs : List Val) (hv : ∀ v ∈ vs, Storable v) : ∀ (i : Nat) (dest : List DVal),
    i + vs.length ≤ dest.length → ∃ out, storeRow i dest vs = .ok out ∧ out.length = dest.length ∧
      (∀ j, j < i → out[j]? = dest[j]?) ∧ (∀ j, i + vs.length ≤ j → out[j]? = dest[j]?) ∧
      ∀ (j : Nat) (v : Val), vs[j]? = some v → ∃ d, out[i + j]? = some d ∧ CellOf v d := by
  induction vs with
  | nil => intro i dest _; exact ⟨dest, rfl, rfl, fun _ _ => rfl, fun _ _ => rfl, fun j v h => by simp at h⟩
  | cons v vs ih =>
    intro i dest hl
    simp only [List.forall_mem_cons] at hv
    simp only [List.length_cons] at hl
    obtain ⟨d, h1, h2⟩ := sqlValue_ok hv.1
    obtain ⟨out, h3, h4, h5, h6, h7⟩ := ih hv.2 (i + 1) (dest.set i d) (by rw [List.length_set]; omega)
    refine ⟨out, ?_, ?_, ?_, ?_, ?_⟩
    · simp only [storeRow, h1, show i < dest.length by omega, if_true, h3]
    · rw [h4, List.length_set]
    · intro j hj
      rw [h5 j (by omega), List.getElem?_set_ne (by omega)]
    · intro j hj
      simp only [List.length_cons] at hj
      rw [h6 j (by omega), List.getElem?_set_ne (by omega)]
    · intro j u hu
      cases j with
      | zero =>
        simp only [List.getElem?_cons_zero, Option.some.injEq] at hu
        subst hu
        refine ⟨d, ?_, h2⟩
        rw [Nat.add_zero, h5 i (by omega), List.getElem?_set_self (by omega)]
      | succ j =>
        simp only [List.getElem?_cons_succ] at hu
        obtain ⟨d', h8, h9⟩ := h7 j u hu
        exact ⟨d', by rw [← h8]; congr 1; omega, h9⟩

/-- C61: when `NextNeo` delivers a row and `dest` has room for it, Next leaves in each cell the scalar itself, or bytes
that unmarshal to the list, map or graph structure; the other cells keep their contents. When NextNeo reports an
error, Next returns it. Missing: rows with values whose sizes are read back wrongly (C04), rows that contain message
structures (`c61_false_message`) and rows longer than `dest` (`c61_false_dest`). -/
theorem c61_next_partial (P : Peer σ) (close : M σ (Option GoErr)) (r : Nat) (dest : List DVal) (w w' : World σ) :
    (∀ vs md, nextNeo P close r w = .ok (some vs, md, none) w' → vs.length ≤ dest.length → (∀ v ∈ vs, Storable v) →
      ∃ out, sqlNext P close r dest w = .ok (.ok out) w' ∧ out.length = dest.length ∧
        (∀ (j : Nat) (v : Val), vs[j]? = some v → ∃ d, out[j]? = some d ∧ CellOf v d) ∧
        ∀ j, vs.length ≤ j → out[j]? = dest[j]?) ∧
    (∀ vs md e, nextNeo P close r w = .ok (vs, md, some e) w' → sqlNext P close r dest w = .ok (.error e) w') := by
  constructor
  · intro vs md h hl hv
    obtain ⟨out, h1, h2, _, h4, h5⟩ := storeRow_ok vs hv 0 dest (by omega)
    refine ⟨out, ?_, h2, fun j v hj => ?_, fun j hj => h4 j (by omega)⟩
    · unfold sqlNext
      refine (mbind_ok h).trans ?_
      simp only [Option.getD_some, h1]
      rfl
    · obtain ⟨d, h6, h7⟩ := h5 j v hj
      exact ⟨d, by rw [← h6]; congr 1; omega, h7⟩
  · intro vs md e h
    unfold sqlNext
    exact (mbind_ok h).trans rfl

/-- C61 as stated is false: a row with more values than the caller made room for panics. -/
theorem c61_false_dest : storeRow 0 [] [.nil] = .error (.panic .index) := rfl

/-- C61 as stated is false: a row that contains a message structure, which the decoder accepts, is rejected with an
error. -/
theorem c61_false_message : unmarshal [0, 2, 0xB0, 0x7E, 0, 0] = .ok .ignored ∧
    ∃ e, storeRow 0 [.plain .nil] [.ignored] = .error (.err e) := ⟨rfl, _, rfl⟩

/-- Everything decoded satisfies the first condition of `Storable`. -/
theorem decoded_received {b : Bytes} {v : Val} (h : unmarshal b = .ok v) : v.Received := unmarshal_received h

example : Storable (.list [.int .int64 1, .str [97]]) := by
  refine ⟨?_, .inr ⟨trivial, ?_, ?_⟩⟩
  · simp [Val.Received, Val.All, Val.AllList, Val.ReceivedHere, Val.sizes, IsInt64, Val.TypedHere]
  · simp [Val.SmallSizes, Val.Sizes, Val.All, Val.AllList, Val.SizesHere, Val.sizes, SizeOK]
  · simp [Val.StringsLe, Val.All, Val.AllList, Val.ownStrings]

end Bolt
