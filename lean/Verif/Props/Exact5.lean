import Verif.Props.Exact4
import Verif.Props.Exact2
import Verif.Props.Sql
import Verif.Props.Gaps

/-! # Exact conditions for structures, counts and arguments: C18, C56, C58, C73 -/

namespace Bolt
open PackStream

/-! ## C18 -/

section
variable {id s e : _root_.Int} {ls : List Bytes} {t a : Bytes} {ps : List (Bytes × PS)} {qs : KVs}

/-- C18, the exact condition for nodes, relationships and unbound relationships without repeated keys, in any conforming encoding: they
are received if and only if every size field of a string, list or map has its top bit clear. -/
theorem c18_iff_partial (hq : ofPSKVs ps = some qs) (hd : (ps.map Prod.fst).Nodup ∧ PS.DistinctKVs ps) (rest : Bytes) :
    (∀ p, p = PS.struct 0x4E [.int id, .list (ls.map .str), .map ps] → Packs fullRange p a →
      (decodePayload (a ++ rest) = .ok (.node id ls (lastWins qs), rest) ↔ Packs halfRange p a)) ∧
    (∀ p, p = PS.struct 0x52 [.int id, .int s, .int e, .str t, .map ps] → Packs fullRange p a →
      (decodePayload (a ++ rest) = .ok (.rel id s e t (lastWins qs), rest) ↔ Packs halfRange p a)) ∧
    (∀ p, p = PS.struct 0x72 [.int id, .str t, .map ps] → Packs fullRange p a →
      (decodePayload (a ++ rest) = .ok (.unbound id t (lastWins qs), rest) ↔ Packs halfRange p a)) := by
  have hs : PS.DistinctList (ls.map PS.str) := by
    induction ls with
    | nil => trivial
    | cons l ls ih => exact ⟨trivial, ih⟩
  refine ⟨?_, ?_, ?_⟩
  · rintro p rfl h
    exact ⟨fun g => (c17_iff_partial (by simp only [PS.Distinct, PS.DistinctList]; exact ⟨trivial, hs, hd, trivial⟩) h (by simp [ofPS, ofPSList, ofPSList_str, hq, structOf, allStr_map]) rest).1.mp ⟨_, g⟩,
      c18_node_partial hq⟩
  · rintro p rfl h
    exact ⟨fun g => (c17_iff_partial (by simp only [PS.Distinct, PS.DistinctList]; exact ⟨trivial, trivial, trivial, trivial, hd, trivial⟩) h (by simp [ofPS, ofPSList, hq, structOf]) rest).1.mp ⟨_, g⟩,
      c18_relationship_partial hq⟩
  · rintro p rfl h
    exact ⟨fun g => (c17_iff_partial (by simp only [PS.Distinct, PS.DistinctList]; exact ⟨trivial, trivial, hd, trivial⟩) h (by simp [ofPS, ofPSList, hq, structOf]) rest).1.mp ⟨_, g⟩,
      c18_unbound_partial hq⟩

end

/-- The unbound relationship of type `AAA…` (200 bytes) of `c18_false` is not received, since its encoding has no other reading. -/
example : ¬ Packs halfRange (.struct 0x72 [.int 1, .str (List.replicate 200 65), .map []]) longType := fun h => by
  have h1 := ((c18_iff_partial (id := 1) (s := 0) (e := 0) (ls := []) (qs := []) rfl ⟨by simp, by simp [PS.DistinctKVs]⟩ []).2.2 _ rfl c18_false.1).mpr h
  rw [List.append_nil, c18_false.2] at h1
  cases h1

/-- A node without labels and properties whose list of labels is announced in one byte, as a server may do. -/
example : decodePayload [0xB3, 0x4E, 0x01, 0xD4, 0x00, 0xA0] = .ok (.node 1 [] [], []) := by
  have hp : ∀ r : Nat → Nat, 0 < r 1 → Packs r (.struct 0x4E [.int 1, .list (([] : List Bytes).map .str), .map []]) [0xB3, 0x4E, 0x01, 0xD4, 0x00, 0xA0] := by
    intro r hr
    simp only [Packs, PacksList, List.map_nil]
    exact ⟨[0xB3], [0x01, 0xD4, 0x00, 0xA0], .inl ⟨by decide, rfl⟩, ⟨[0x01], [0xD4, 0x00, 0xA0], .inl ⟨by decide, by decide, by unfold Signed; decide⟩,
      ⟨[0xD4, 0x00], [0xA0], ⟨[0xD4, 0x00], [], .inr ⟨1, 0xD4, [0x00], rfl, ⟨rfl, rfl⟩, hr, rfl⟩, rfl, rfl⟩,
        ⟨[0xA0], [], ⟨[0xA0], [], .inl ⟨by decide, rfl⟩, by simp [PacksKVs], rfl⟩, rfl, rfl⟩, rfl⟩, rfl⟩, rfl⟩
  exact ((c18_iff_partial (id := 1) (s := 0) (e := 0) (ls := []) (t := []) (ps := []) (qs := []) rfl ⟨by simp, by simp [PS.DistinctKVs]⟩ []).1 _ rfl
    (hp fullRange (by decide))).mpr (hp halfRange (by decide))

/-! ## C56 -/

/-- C56, the exact condition: with four counts that are `int64` (or missing), what is returned is their sum if and only if that is an
`int64`. Otherwise it is the `int64` that differs from the sum by a multiple of 2^64, without an error. -/
theorem c56_iff_partial {md stats : KVs} {nc rc nd rd : _root_.Int} (hs : get? md (txt "stats") = some (.map stats))
    (h1 : Counted stats (txt "nodes-created") nc) (h2 : Counted stats (txt "relationships-created") rc)
    (h3 : Counted stats (txt "nodes-deleted") nd) (h4 : Counted stats (txt "relationships-deleted") rd) :
    ∃ n, rowsAffected md = .ok (n, none) ∧ IsInt64 n ∧ (∃ k, n = nc + rc + nd + rd + 2^64 * k) ∧
      (n = nc + rc + nd + rd ↔ IsInt64 (nc + rc + nd + rd)) := by
  have hr : rowsAffected md = .ok (wrapSigned 8 (nc + rc + nd + rd), none) := by
    obtain ⟨e1, e2, e3, e4, e5, _⟩ := keys_eq
    rw [← e1] at hs
    rw [← e2] at h1; rw [← e3] at h2; rw [← e4] at h3; rw [← e5] at h4
    unfold rowsAffected
    rw [mapGet_eq, hs]
    have e0 : addStat stats kNodesCreated 0 = addStat stats kNodesCreated (wrapSigned 8 0) := rfl
    dsimp only
    rw [e0, addStat_ok h1]
    dsimp only [bind, Except.bind]
    rw [addStat_ok h2]
    dsimp only
    rw [addStat_ok h3]
    dsimp only
    rw [addStat_ok h4]
    dsimp only
    rw [_root_.Int.zero_add]
  have hi : IsInt64 (wrapSigned 8 (nc + rc + nd + rd)) := by
    unfold wrapSigned IsInt64
    dsimp only
    split <;> omega
  refine ⟨_, hr, hi, ?_, fun h => h ▸ hi, fun h => wrap_small h⟩
  unfold wrapSigned
  dsimp only
  generalize nc + rc + nd + rd = x
  split
  · exact ⟨-(x / 2^64), by omega⟩
  · exact ⟨-(x / 2^64) - 1, by omega⟩

/-- Two counts whose sum is 2^63. -/
example : ∃ n, rowsAffected [(txt "stats", .map [(txt "nodes-created", .int .int64 (2^63 - 1)), (txt "nodes-deleted", .int .int64 1)])] = .ok (n, none) ∧ n ≠ 2^63 := by
  obtain ⟨n, h, hi, _, _⟩ := c56_iff_partial (md := [(txt "stats", .map [(txt "nodes-created", .int .int64 (2^63 - 1)), (txt "nodes-deleted", .int .int64 1)])])
    (nc := 2^63 - 1) (rc := 0) (nd := 1) (rd := 0) rfl (.inl rfl) (.inr ⟨rfl, rfl⟩) (.inl rfl) (.inr ⟨rfl, rfl⟩)
  exact ⟨n, h, by have := hi.2; omega⟩

/-! ## C58 -/

/-- An argument that makes the call panic: bytes of a message that holds no map, or on which the decoder panics. -/
def WrongArg : DVal → Prop
  | .plain _ => False
  | .bytes b => (∃ v, unmarshal b = .ok v ∧ ∀ m, v ≠ .map m) ∨ ∃ p, unmarshal b = .error (.panic p)

theorem unmarshal_total (b : Bytes) : unmarshal b ≠ .error .fuel := by
  unfold unmarshal
  intro h
  rcases c14_decode_partial ⟨if b = [] then [] else [b], .eof⟩ with ⟨v, h1⟩ | ⟨e, h1⟩ | ⟨p, _, h1, _⟩ <;> rw [h1] at h <;> cases h

/-- Every argument holds a map, is rejected, or makes the call panic. -/
theorem arg_cases (a : DVal) : (∃ m, IsMapArg a m) ∨ BadArg a ∨ WrongArg a := by
  cases a with
  | plain v => exact .inr (.inl trivial)
  | bytes b =>
    cases h : unmarshal b with
    | ok v =>
      cases v with
      | map m => exact .inl ⟨m, b, rfl, h⟩
      | _ => exact .inr (.inr (.inl ⟨_, h, fun m => by simp⟩))
    | error f =>
      cases f with
      | err e => exact .inr (.inl ⟨e, h⟩)
      | panic p => exact .inr (.inr (.inr ⟨p, h⟩))
      | fuel => exact absurd h (unmarshal_total b)

theorem args_cases : ∀ args : List DVal, (∃ ms, AreMapArgs args ms) ∨
    ∃ pre bad rest ms, args = pre ++ bad :: rest ∧ AreMapArgs pre ms ∧ (BadArg bad ∨ WrongArg bad)
  | [] => .inl ⟨[], trivial⟩
  | a :: as => by
    rcases arg_cases a with ⟨m, h⟩ | h
    · rcases args_cases as with ⟨ms, hs⟩ | ⟨pre, bad, rest, ms, rfl, h1, h2⟩
      · exact .inl ⟨m :: ms, h, hs⟩
      · exact .inr ⟨a :: pre, bad, rest, m :: ms, rfl, ⟨h, h1⟩, h2⟩
    · exact .inr ⟨[], a, as, [], rfl, trivial, h⟩

theorem wrong_panics {args : List DVal} {ms : List KVs} (h : AreMapArgs args ms) {bad : DVal} (hb : WrongArg bad) (rest : List DVal) :
    ∃ p, driverArgsToMap (args ++ bad :: rest) = .error (.panic p) := by
  obtain ⟨out, h1, _⟩ := driverArgs_good args (bad :: rest) ms [] (by simp [DistinctKeys]) h
  unfold driverArgsToMap
  rw [h1]
  cases bad with
  | plain v => cases hb
  | bytes b =>
    rcases hb with ⟨v, hv, hm⟩ | ⟨p, hp⟩
    · simp only [driverArgsFrom, hv]
      cases v with
      | map m => exact absurd rfl (hm m)
      | _ => exact ⟨_, rfl⟩
    · simp only [driverArgsFrom, hp]
      exact ⟨_, rfl⟩

theorem bad_rejected {args : List DVal} {ms : List KVs} (h : AreMapArgs args ms) {bad : DVal} (hb : BadArg bad) (rest : List DVal) :
    ∃ e, driverArgsToMap (args ++ bad :: rest) = .error (.err e) := by
  cases bad with
  | plain v => exact (c58_rejected_partial h rest).1 v
  | bytes b => obtain ⟨e, hb⟩ := hb; exact ⟨e, (c58_rejected_partial h rest).2 b e hb⟩

/-- C58, the exact conditions: all arguments are byte slices holding maps, and they are merged; or the first argument that is not one
decides, whatever follows it: the call returns an error if that is no byte slice or cannot be decoded, and panics
if it holds another value or makes the decoder panic. -/
theorem c58_iff_partial (args : List DVal) :
    ((∃ out, driverArgsToMap args = .ok out) ↔ ∃ ms, AreMapArgs args ms) ∧
    ((∃ e, driverArgsToMap args = .error (.err e)) ↔ ∃ pre bad rest ms, args = pre ++ bad :: rest ∧ AreMapArgs pre ms ∧ BadArg bad) ∧
    ((∃ p, driverArgsToMap args = .error (.panic p)) ↔ ∃ pre bad rest ms, args = pre ++ bad :: rest ∧ AreMapArgs pre ms ∧ WrongArg bad) := by
  have ok : (∃ ms, AreMapArgs args ms) → ∃ out, driverArgsToMap args = .ok out := fun ⟨ms, h⟩ => by
    obtain ⟨out, h1, _⟩ := c58_merged_partial h; exact ⟨out, h1⟩
  have er : (∃ pre bad rest ms, args = pre ++ bad :: rest ∧ AreMapArgs pre ms ∧ BadArg bad) → ∃ e, driverArgsToMap args = .error (.err e) := by
    rintro ⟨pre, bad, rest, ms, rfl, h1, h2⟩; exact bad_rejected h1 h2 rest
  have pa : (∃ pre bad rest ms, args = pre ++ bad :: rest ∧ AreMapArgs pre ms ∧ WrongArg bad) → ∃ p, driverArgsToMap args = .error (.panic p) := by
    rintro ⟨pre, bad, rest, ms, rfl, h1, h2⟩; exact wrong_panics h1 h2 rest
  rcases args_cases args with h | ⟨pre, bad, rest, ms, h0, h1, h2 | h2⟩
  · obtain ⟨out, ho⟩ := ok h
    refine ⟨⟨fun _ => h, ok⟩, ⟨fun ⟨e, he⟩ => ?_, er⟩, ⟨fun ⟨e, he⟩ => ?_, pa⟩⟩ <;> rw [ho] at he <;> cases he
  · have h : ∃ pre bad rest ms, args = pre ++ bad :: rest ∧ AreMapArgs pre ms ∧ BadArg bad := ⟨pre, bad, rest, ms, h0, h1, h2⟩
    obtain ⟨e, ho⟩ := er h
    refine ⟨⟨fun ⟨e, he⟩ => ?_, ok⟩, ⟨fun _ => h, er⟩, ⟨fun ⟨e, he⟩ => ?_, pa⟩⟩ <;> rw [ho] at he <;> cases he
  · have h : ∃ pre bad rest ms, args = pre ++ bad :: rest ∧ AreMapArgs pre ms ∧ WrongArg bad := ⟨pre, bad, rest, ms, h0, h1, h2⟩
    obtain ⟨e, ho⟩ := pa h
    refine ⟨⟨fun ⟨e, he⟩ => ?_, ok⟩, ⟨fun ⟨e, he⟩ => ?_, er⟩, ⟨fun _ => h, pa⟩⟩ <;> rw [ho] at he <;> cases he

/-- A map, then a marshalled integer, then a string: the integer decides. -/
example : ∃ p, driverArgsToMap [.bytes (marshal (.map [([97], .int .int64 1)])).1, .bytes (marshal (.int .int64 1)).1, .plain (.str [97])] = .error (.panic p) := by
  refine (c58_iff_partial _).2.2.mpr ⟨[_], _, _, [[([97], .int .int64 1)]], rfl, ⟨⟨_, rfl, ?_⟩, trivial⟩, .inl ⟨.int .int64 1, ?_, fun m => by simp⟩⟩
  · set_option maxRecDepth 8000 in rfl
  · set_option maxRecDepth 8000 in rfl

/-! ## C73 -/

/-- C73, the remaining arguments, any peer, any state: a first argument that is not a map and holds another value, or makes the decoder
panic, makes the calls panic before anything is written or read; `Exec` on a connection that is closed or busy returns its
error instead. With `c73_merged_partial` and `c73_rejected_partial` these are all arguments there are (`args_cases`). -/
theorem c73_panics_partial {σ : Type} (P : Peer σ) (close : M σ (Option GoErr)) {args : List DVal} {ms : List KVs} (h : AreMapArgs args ms) {bad : DVal}
    (hb : WrongArg bad) (rest : List DVal) (w : World σ) :
    ∃ p, (∀ q, sqlQuery P close q (args ++ bad :: rest) w = .panic p w) ∧
      (∀ s, sqlStmtQuery P close s (args ++ bad :: rest) w = .panic p w) ∧
      (∀ s, sqlStmtExec P close s (args ++ bad :: rest) w = .panic p w) ∧
      (∀ q, (∃ e, sqlExec P close q (args ++ bad :: rest) w = .ok (.error e) w) ∨
        ∃ w', sqlExec P close q (args ++ bad :: rest) w = .panic p w' ∧ w'.log = w.log ∧ w'.sink = w.sink ∧ w'.inbox = w.inbox) := by
  obtain ⟨p, hp⟩ := wrong_panics h hb rest
  have hc : ∀ w : World σ, convertArgs (args ++ bad :: rest) w = .panic p w := fun w => by simp only [convertArgs, hp]
  refine ⟨p, fun q => mbind_panic (hc w), fun s => mbind_panic (hc w), fun s => mbind_panic (hc w), fun q => ?_⟩
  rcases guardConn_cases w with ⟨e', hg⟩ | ⟨hg, hs, _⟩
  · exact .inl ⟨e', (mbind_ok hg).trans rfl⟩
  · exact .inr ⟨_, (mbind_ok hg).trans ((mbind_ok rfl).trans (mbind_panic (mbind_panic (hc _)))), rfl, rfl, rfl⟩

set_option maxRecDepth 8000 in
/-- A marshalled list. -/
example : ∃ p, ∀ q, sqlQuery yes (closeN yes 1) q [.bytes (marshal (.list [.nil])).1] yesConn = .panic p yesConn := by
  obtain ⟨p, h, _⟩ := c73_panics_partial yes (closeN yes 1) (args := []) (ms := []) trivial (bad := .bytes (marshal (.list [.nil])).1)
    (.inl ⟨.list [.nil], rfl, fun m => by simp⟩) [] yesConn
  exact ⟨p, h⟩

end Bolt
