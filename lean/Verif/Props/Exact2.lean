import Verif.Proofs.Understood

/-!
# C04 and C17, exactly

Which values survive the round trip, and which encodings of a server are understood: exactly those whose size fields have
their top bit clear.
-/

namespace Bolt
open PackStream

/-! ## C04 -/

theorem unmarshal_payload {v : Val} (hl : v.StringsLe 65535) (he : (encOps v).err = none) :
    unmarshal (marshal v).1 = match decodePayload (payload v) with
      | .ok (w, _) => .ok w
      | .error e => .error e := by
  have h5 := marshal_framed hl he
  have hne : (marshal v).1 ≠ [] := by
    intro h; rw [h] at h5
    obtain ⟨k, h6, _⟩ := framedBy_length (framed_iff.mp h5.2)
    rw [List.length_nil] at h6; omega
  unfold unmarshal
  rw [if_neg hne]
  obtain ⟨_, _, h6⟩ := c12_one_message (rest := []) h5.2 ⟨[(marshal v).1], .eof⟩ (by simp [Source.NonEmpty, hne]) (by simp)
  rw [h6]
  rfl

/-- C04, the exact condition: a value of a type a client can receive, with strings of at most 65535 bytes, comes back from
Unmarshal as it went into Marshal if and only if it contains no `uint` above 2^63-1 and no size of 128-255, 32768-65535 or
above 2^31-1. -/
theorem c04_iff_partial {v : Val} (ht : v.Typed) (hd : v.Decodable) (hl : v.StringsLe 65535) (hok : (marshal v).2 = none) :
    (∃ w, unmarshal (marshal v).1 = .ok w ∧ Returns v w) ↔ v.Clean ∧ v.SmallSizes := by
  refine ⟨?_, fun h => c04_round_trip_partial ht h.1 h.2 hd hl hok⟩
  rintro ⟨w, h1, h2⟩
  have he := ok_of_encodeTo hok
  rw [unmarshal_payload hl he] at h1
  cases hdp : decodePayload (payload v) with
  | error e => rw [hdp] at h1; cases h1
  | ok x =>
    obtain ⟨w', r⟩ := x
    rw [hdp] at h1
    cases h1
    obtain ⟨q, h3, h4⟩ := Lenient.decodePayload_iff.mp hdp
    have h5 := small_of v q [] r w (all_and v ht hd) he (by rw [List.append_nil, ← payload_eq]; exact h3) h4 h2
    exact ⟨all_mono (fun _ h => h.2) v h5, all_mono (fun _ h => h.1) v h5⟩

/-- A map of one entry whose value is a list holding a string of 128 bytes does not come back. -/
example (s : Str) (hs : s.length = 128) : ¬ ∃ w, unmarshal (marshal (.map [([97], .list [.nil, .str s])])).1 = .ok w ∧
    Returns (.map [([97], .list [.nil, .str s])]) w := by
  have hS : Val.Supported (.map [([97], .list [.nil, .str s])]) := by
    simp [Val.Supported, Val.All, Val.AllKVs, Val.AllList, Val.SupportedHere, Val.sizes, keySizes, hs]
  have hl : Val.StringsLe 65535 (.map [([97], .list [.nil, .str s])]) := by
    simp [Val.StringsLe, Val.All, Val.AllKVs, Val.AllList, Val.ownStrings, keysOf, hs]
  rw [c04_iff_partial (by simp [Val.Typed, Val.All, Val.AllKVs, Val.AllList, Val.TypedHere, DistinctKeys])
    (by simp [Val.Decodable, Val.All, Val.AllKVs, Val.AllList, Val.DecodableHere]) hl
    (marshal_framed hl ((acc _).mpr hS)).1]
  rintro ⟨_, h⟩
  simp only [Val.SmallSizes, Val.Sizes, Val.All, Val.AllKVs, Val.AllList, Val.SizesHere, Val.sizes, List.mem_singleton, forall_eq, SizeOK,
    hs] at h
  have := h.2.1.2.2.1.1 (by decide) (by decide)
  exact absurd this (by decide)

example : sample.Clean ∧ sample.SmallSizes :=
  (c04_iff_partial sample_typed sample_decodable sample_strings (marshal_framed sample_strings sample_ok).1).mp
    (c04_round_trip_partial sample_typed sample_clean sample_small sample_decodable sample_strings
      (marshal_framed sample_strings sample_ok).1)

/-! ## C17 -/

/-- C17, the exact condition: a conforming encoding, minimal or not, of a value a client can receive (no map with a repeated key)
is decoded to that value if and only if every size field of a string, list or map in it has its top bit clear; and then decoding
stops exactly at its end, whatever follows. -/
theorem c17_iff_partial {p : PS} {v : Val} {a : Bytes} (hd : p.Distinct) (hp : Packs fullRange p a) (hv : ofPS p = some v) (rest : Bytes) :
    ((∃ r, decodePayload (a ++ rest) = .ok (v, r)) ↔ Packs halfRange p a) ∧
    (∀ r, decodePayload (a ++ rest) = .ok (v, r) → r = rest) := by
  have key : ∀ r, decodePayload (a ++ rest) = .ok (v, r) → Packs halfRange p a := by
    intro r h
    obtain ⟨q, h1, h2⟩ := Lenient.decodePayload_iff.mp h
    exact half_of p a rest r q v hd hp hv h1 h2
  refine ⟨⟨fun ⟨r, h⟩ => key r h, fun h => ⟨rest, c17_conforming_understood_partial h hv rest⟩⟩, fun r h => ?_⟩
  have := c17_conforming_understood_partial (key r h) hv rest
  rw [this] at h
  cases h
  rfl

/-- A list of one string with a one-byte size field saying 200: not understood. -/
example (s : Str) (hs : s.length = 200) (rest : Bytes) : ¬ ∃ r, decodePayload ((0x91 :: 0xD0 :: 200 :: s) ++ rest) = .ok (.list [.str s], r) := by
  have h1 : Hdr fullRange .str s.length [0xD0, 200] :=
    .inr ⟨1, 0xD0, [200], rfl, by rw [hs]; unfold Unsigned; decide, by rw [hs]; decide, rfl⟩
  have hp : Packs fullRange (.list [.str s]) (0x91 :: 0xD0 :: 200 :: s) := by
    simp only [Packs, PacksList]
    exact ⟨[0x91], 0xD0 :: 200 :: s, .inl ⟨by simp, rfl⟩, ⟨0xD0 :: 200 :: s, [], ⟨[0xD0, 200], h1, rfl⟩, rfl, by simp⟩, rfl⟩
  rw [(c17_iff_partial (v := .list [.str s]) (by simp [PS.Distinct, PS.DistinctList]) hp (by simp [ofPS, ofPSList]) rest).1]
  intro h
  simp only [Packs, PacksList] at h
  obtain ⟨hd, body, h2, ⟨_, _, ⟨h', h3, rfl⟩, rfl, rfl⟩, h4⟩ := h
  rw [List.append_nil] at h4
  obtain ⟨_, h5, h6⟩ := hdr_unique (h := [0x91]) (a := 0xD0 :: 200 :: s) (lim := fullRange) (n := 1) (.inl ⟨by decide, rfl⟩) h2 h4
  obtain ⟨_, h7, _⟩ := hdr_half (h := [0xD0, 200]) (a := s) h1 h3 h6
  rcases h7 with ⟨h8, _⟩ | ⟨w, m, bs, h8, h9, h10, h11⟩
  · omega
  · have := congrArg List.length h11
    simp only [List.length_cons, List.length_nil, h9.1] at this
    obtain rfl : w = 1 := by omega
    rw [hs] at h10
    exact absurd h10 (by decide)

end Bolt
