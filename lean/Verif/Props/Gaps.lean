import Verif.Proofs.Alike
import Verif.Props.Session2
import Verif.Props.Session5
import Verif.Props.Panics
import Verif.Props.Decoding
import Verif.Props.Opening

/-!
# Where the full statements of C18–C22, C24, C25, C28 and C66 fail

Large `uint` parameters: the encoder sends them as negative numbers (C02), so the server answers another query than the
one that was asked (`c20_false` to `c25_false`). With the parameters so changed the calls do what they should
(`wrapped_partial`).
-/

namespace Bolt
open PackStream

/-! ## C18, C19 -/

/-- An unbound relationship whose type is 200 letters `A`, as a server sends it. -/
def longType : Bytes := [0xB3, 0x72, 0x01, 0xD0, 0xC8] ++ List.replicate 200 65 ++ [0xA0]

set_option maxRecDepth 100000 in
/-- C18 is false: a relationship type of 128 to 255 bytes makes the decoder panic. -/
theorem c18_false : Packs fullRange (.struct 0x72 [.int 1, .str (List.replicate 200 65), .map []]) longType ∧
    decodePayload longType = .error (.panic .negNext) := by
  refine ⟨?_, rfl⟩
  simp only [Packs, PacksList, PacksKVs]
  refine ⟨[0xB3], [0x01] ++ (([0xD0, 0xC8] ++ List.replicate 200 65) ++ [0xA0]), .inl ⟨by decide, rfl⟩, ⟨[0x01], _, .inl ⟨by decide, by decide, by unfold Signed; decide⟩,
    ⟨[0xD0, 0xC8] ++ List.replicate 200 65, [0xA0], ⟨[0xD0, 0xC8], ?_, rfl⟩, ⟨[0xA0], [], ⟨[0xA0], [], .inl ⟨by decide, rfl⟩, rfl, rfl⟩, rfl, rfl⟩, rfl⟩, rfl⟩, rfl⟩
  exact .inr ⟨1, 0xD0, [0xC8], rfl, ⟨rfl, by rw [List.length_replicate]; rfl⟩, by rw [List.length_replicate]; decide, rfl⟩

/-- C19 is false: a map with 128 to 255 entries, as a server sends it, is delivered as an empty map. -/
theorem c19_false {ps : List (Bytes × PS)} {body : Bytes} (h1 : 128 ≤ ps.length) (h2 : ps.length ≤ 255) (h : PacksKVs fullRange ps body) :
    Packs fullRange (.map ps) (0xD8 :: UInt8.ofNat ps.length :: body) ∧
      ∀ rest, decodePayload (0xD8 :: UInt8.ofNat ps.length :: body ++ rest) = .ok (.map [], body ++ rest) := by
  have hn : (UInt8.ofNat ps.length).toNat = ps.length := by rw [UInt8.toNat_ofNat']; omega
  refine ⟨?_, fun rest => c17_false_map _ ?_ _⟩
  · simp only [Packs]
    refine ⟨[0xD8, UInt8.ofNat ps.length], body, .inr ⟨1, 0xD8, [UInt8.ofNat ps.length], rfl, ⟨rfl, ?_⟩, ?_, rfl⟩, h, rfl⟩
    · simp [ofBytes, hn]
    · simp [fullRange]; omega
  · rw [UInt8.le_iff_toNat_le, hn]; exact h1

/-- Such a map: 200 entries `"k": null`. -/
example : PacksKVs fullRange (List.replicate 200 ([107], .null)) (List.replicate 200 [0x81, 107, 0xC0]).flatten := by
  generalize 200 = n
  induction n with
  | zero => rfl
  | succ n ih =>
    simp only [List.replicate_succ, PacksKVs, List.flatten_cons]
    exact ⟨[0x81], [0xC0], _, .inl ⟨by decide, rfl⟩, by simp [Packs], ih, by simp⟩

/-! ## C20, C21, C22, C24, C25 -/

/-- A database that tells negative parameters from others. The query `F` is refused. -/
def signDB : DB Nat where
  exec d q ps :=
    let neg : Bool := match ps with
      | [(_, .int v)] => decide (v < 0)
      | _ => false
    (d + 1, if q = [70] then .refused [([118], .bool neg)] else .answer [([118], .bool neg)] [[.bool neg]] (.summary [([118], .bool neg)]))

/-- The parameter map `{"x": uint(2^64-1)}`. -/
def bigParam : KVs := [([120], .int .uint (2^64-1))]

theorem wrap_big : wrapParams bigParam = [([120], .int .int64 (-1))] := by
  simp [wrapParams, bigParam, wrapParam]

theorem means_big {ps : List (Str × PS)} (h : MeansKVs bigParam ps) : ps = [([120], .int (2^64-1))] := by
  obtain ⟨q, qs, h1, h2, rfl⟩ := h
  simp only [MeansKVs] at h2
  subst h2
  simp only [Means] at h1
  rw [h1]

theorem means_neg {ps : List (Str × PS)} (h : MeansKVs [([120], .int .int64 (-1))] ps) : ps = [([120], .int (-1))] := by
  obtain ⟨q, qs, h1, h2, rfl⟩ := h
  simp only [MeansKVs] at h2
  subst h2
  simp only [Means] at h1
  rw [h1]

theorem sendable_neg : Sendable 4096 (.run [81] [([120], .int .int64 (-1))]) := by
  refine ⟨?_, ?_, ?_, by decide, by decide, .inl ?_⟩
  · simp [Val.Typed, Val.All, Val.TypedHere, DistinctKeys, Val.AllKVs, IntKind.InRange]
  · simp [Val.Clean, Val.All, Val.CleanHere, Val.AllKVs]
  · simp [Val.Supported, Val.All, Val.SupportedHere, Val.sizes, Val.AllKVs, keySizes]
  · simp [Val.footprint, Val.footKVs]

/-- The database of the examples answers the query that was sent. -/
theorem sign_neg : signDB.exec 0 [81] [([120], .int (-1))] = (1, .answer [([118], .bool true)] [[.bool true]] (.summary [([118], .bool true)])) := rfl

/-- What it would have said to the query that was asked. -/
def Says (q : Str) (p : KVs) (o : Outcome) : Prop := ∀ ps, MeansKVs p ps → (signDB.exec 0 q ps).2 = o

theorem says_big : Says [81] bigParam (.answer [([118], .bool false)] [[.bool false]] (.summary [([118], .bool false)])) := by
  intro ps h
  rw [means_big h]
  rfl

/-- The parameters are ones a Go program can have, and they have a meaning. -/
theorem big_typed : Val.Typed (.run [81] bigParam) ∧ ∃ ps, MeansKVs bigParam ps := by
  refine ⟨by simp [bigParam, Val.Typed, Val.All, Val.TypedHere, DistinctKeys, Val.AllKVs, IntKind.InRange], [([120], .int (2^64-1))], ?_⟩
  exact ⟨_, _, by simp [Means], rfl, rfl⟩

theorem of_sim {σ α : Type} {x y : M σ α} (h : Sim x y) {w w' : World σ} {a : α} (hy : y w = .ok a w') :
    ∃ w1, x w = .ok a w1 ∧ w1.noLog = w'.noLog := by
  have := h w w rfl
  rw [hy] at this
  cases hx : x w <;> rw [hx] at this <;> simp only [Out.noLog, Out.ok.injEq, reduceCtorEq] at this
  exact ⟨_, by rw [this.1], this.2⟩

/-- Every sequence of calls, any peer, any state: the results are those of the same calls with every `uint` parameter
above 2^63-1 replaced by the negative number with the same bits. -/
theorem wrapped_partial {σ : Type} {P : Peer σ} {n : Nat} (h : Handles) (calls : List (Call KVs)) {w w' : World σ} {r : List Res × Handles}
    (hr : runCalls P (closeN P n) h (calls.map (Call.withParams wrapParams)) w = .ok r w') :
    ∃ w1, runCalls P (closeN P n) h calls w = .ok r w1 ∧ w1.noLog = w'.noLog :=
  of_sim (like_runCalls (like_closeN n) alike_wrap calls h) hr

/-- C20 is false: ExecNeo with `uint(2^64-1)` returns the summary of the query with -1. -/
theorem c20_false (n : Nat) : ∃ w', execNeo signDB.peer (closeN signDB.peer n) [81] bigParam (freshConn 0 4096) = .ok (.ok [([118], .bool true)]) w' ∧
    Says [81] bigParam (.answer [([118], .bool false)] [[.bool false]] (.summary [([118], .bool false)])) := by
  obtain ⟨ps, res, w', h1, h2, _, h4⟩ := c20_execNeo_partial (D := signDB) (close := closeN signDB.peer n) (idle_fresh 0 (by decide) (by decide)) sendable_neg
  cases means_neg h1
  rw [sign_neg] at h4
  obtain ⟨w1, h5, _⟩ := of_sim (like_execNeo (like_closeN n) [81] (alike_wrap bigParam)) (by rw [wrap_big]; exact h2)
  exact ⟨w1, by rw [h5, h4.1], says_big⟩

/-- C21 is false: QueryNeoAll with `uint(2^64-1)` returns the rows of the query with -1. -/
theorem c21_false (n : Nat) : ∃ w', queryNeoAll signDB.peer (closeN signDB.peer n) [81] bigParam (freshConn 0 4096) =
      .ok (.ok ([[.bool true]], [([118], .bool true)], some [([118], .bool true)], none)) w' ∧
    Says [81] bigParam (.answer [([118], .bool false)] [[.bool false]] (.summary [([118], .bool false)])) := by
  obtain ⟨ps, res, w', h1, h2, h4⟩ := c21_queryNeoAll_partial (D := signDB) (close := closeN signDB.peer n) (idle_fresh 0 (by decide) (by decide)) sendable_neg
  cases means_neg h1
  rw [sign_neg] at h4
  obtain ⟨w1, h5, _⟩ := of_sim (like_queryNeoAll (like_closeN n) [81] (alike_wrap bigParam)) (by rw [wrap_big]; exact h2)
  exact ⟨w1, by rw [h5, h4.1], says_big⟩

/-- C22 is false: so do the rows of a prepared query. -/
theorem c22_false (n : Nat) : ∃ h' w', runCalls signDB.peer (closeN signDB.peer n) .none [.prepare [81], .stQuery bigParam, .next, .closeRows, .closeStmt] (freshConn 0 4096) =
      .ok ([.done, .rows [([118], .bool true)], .row [.bool true], .done, .done], h') w' ∧
    Says [81] bigParam (.answer [([118], .bool false)] [[.bool false]] (.summary [([118], .bool false)])) := by
  obtain ⟨pss, h1, h2⟩ := c22_prepared_partial (D := signDB) (close := closeN signDB.peer n) (w := freshConn 0 4096) (idle_fresh 0 (by decide) (by decide)) rfl (q := [81])
    [([([120], .int .int64 (-1))], 1)] (fun x hx => by simp at hx; subst hx; exact sendable_neg)
  obtain ⟨p, r, h3, rfl, rfl⟩ := h1
  cases means_neg h3
  obtain ⟨h', w', h4, _⟩ := h2 ⟨Nat.le_of_ble_eq_true rfl, trivial⟩
  obtain ⟨w1, h5, _⟩ := wrapped_partial (P := signDB.peer) (n := n) .none [.prepare [81], .stQuery bigParam, .next, .closeRows, .closeStmt]
    (by simp only [List.map, Call.withParams, wrap_big]; exact h4)
  exact ⟨h', w1, h5, says_big⟩

/-- C24 is false: so does ExecPipeline. -/
theorem c24_false (n : Nat) : ∃ w', execPipeline signDB.peer (closeN signDB.peer n) [[81]] [bigParam] (freshConn 0 4096) = .ok (.ok [[([118], .bool true)]]) w' ∧
    Says [81] bigParam (.answer [([118], .bool false)] [[.bool false]] (.summary [([118], .bool false)])) := by
  obtain ⟨m, res, w', h1, h2, _, _, h5⟩ := c24_execPipeline_partial (D := signDB) (close := closeN signDB.peer n) (w := freshConn 0 4096) (idle_fresh 0 (by decide) (by decide))
    (queries := [[81]]) (params := [[([120], .int .int64 (-1))]]) rfl (fun x hx => by simp at hx; subst hx; exact sendable_neg)
  obtain ⟨p, r, h3, rfl, rfl⟩ := h1
  cases means_neg h3
  obtain ⟨h5, _⟩ := h5 [⟨[([118], .bool true)], [[.bool true]], [([118], .bool true)]⟩] rfl
  obtain ⟨w1, h6, _⟩ := of_sim (like_execPipeline (like_closeN n) [[81]] (.cons (alike_wrap bigParam) .nil)) (by rw [wrap_big]; exact h2)
  exact ⟨w1, by rw [h6, h5]; rfl, says_big⟩

/-- C25 is false: so do the rows of a pipeline. -/
theorem c25_false (n : Nat) : ∃ h' w', runCalls signDB.peer (closeN signDB.peer n) .none [.queryPipe [([81], bigParam)], .nextPipe, .nextPipe, .closeRows] (freshConn 0 4096) =
      .ok ([.rows [([118], .bool true)], .row [.bool true], .pipeEnd, .done], h') w' ∧
    Says [81] bigParam (.answer [([118], .bool false)] [[.bool false]] (.summary [([118], .bool false)])) := by
  obtain ⟨m, h1, h2⟩ := c25_queryPipeline_partial (D := signDB) (close := closeN signDB.peer n) (w := freshConn 0 4096) (idle_fresh 0 (by decide) (by decide)) rfl
    (l := [([81], [([120], .int .int64 (-1))])]) (fun x hx => by simp at hx; subst hx; exact sendable_neg)
  obtain ⟨p, r, h3, rfl, rfl⟩ := h1
  cases means_neg h3
  obtain ⟨_, h', w', h4, _⟩ := h2 ⟨[([118], .bool true)], [[.bool true]], [([118], .bool true)]⟩ [] rfl
  obtain ⟨w1, h5, _⟩ := wrapped_partial (P := signDB.peer) (n := n) .none [.queryPipe [([81], bigParam)], .nextPipe, .nextPipe, .closeRows]
    (by simp only [List.map, Call.withParams, wrap_big]; exact h4)
  exact ⟨h', w1, h5, says_big⟩

/-! ## C28 -/

/-- FAILURE to RUN, then the end of the stream. -/
def hangUp : List (List Item) := [[.val (.failure [([97], .bool true)])]]

/-- C28 is false when the server closes the stream after its FAILURE: the error of ExecNeo is that ACK_FAILURE was not
answered. -/
theorem c28_false : ∃ e w', execNeo script (closeN script 1) [65] [] (scriptConn hangUp) = .ok (.error e) w' ∧ e.innerMost = .eof ∧
    .recv (.val (.failure [([97], .bool true)])) ∈ w'.log := by
  obtain ⟨a, w1, h1, h2⟩ := Out.of_test (o := execNeo script (closeN script 1) [65] [] (scriptConn hangUp))
    (p := fun a w => match a with
      | .error e => e.innerMost.isEOF && (match w.log with | [_, _, .recv (.val (.failure [([97], .bool true)])), _, _] => true | _ => false)
      | .ok _ => false) (by decide +kernel)
  cases a with
  | ok => cases h2
  | error e =>
    simp only [Bool.and_eq_true] at h2
    obtain ⟨h2, h3⟩ := h2
    refine ⟨e, w1, h1, ?_, ?_⟩
    · cases h : e.innerMost <;> rw [h] at h2 <;> first | rfl | cases h2
    · split at h3
      · rename_i h4; rw [h4]; simp
      · cases h3

/-! ## C66 -/

/-- A message that is a string said to have 200 bytes. -/
def nastyWire : Bytes := [0, 2, 0xD0, 0xC8, 0, 0]

/-- C66 is false when the answer to INIT makes the decoder panic: the socket stays open. -/
theorem c66_false : ∃ w, initConn (closeN mute 1) (authToken [] []) (sock [[0, 0, 0, 1], nastyWire] .eof) false = .panic .negNext w ∧ w.closed = false := by
  obtain ⟨q, w, h1, h2⟩ := Out.of_panics (o := initConn (closeN mute 1) (authToken [] []) (sock [[0, 0, 0, 1], nastyWire] .eof) false)
    (p := fun q w => match q with | .negNext => !w.closed | _ => false) (by decide +kernel)
  cases q with
  | negNext => exact ⟨w, h1, by simpa using h2⟩
  | _ => cases h2

end Bolt
