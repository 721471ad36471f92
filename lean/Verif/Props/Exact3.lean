import Verif.Proofs.CutExact

/-! # Exactly which cut payloads are accepted, and as what: C16 -/

namespace Bolt
open PackStream Lenient

/-- C16, the exact condition: a payload of which the last bytes are missing is accepted if and only if the missing bytes all belong to
the text of the string the value ends with. What is delivered then is the value with that text shortened; otherwise the
result is an error, never a panic. -/
theorem c16_iff_partial {p : PS} {v : Val} {pre suf : Bytes} (hp : Packs halfRange p (pre ++ suf)) (hv : ofPS p = some v) (hs : suf ≠ []) :
    (suf.length ≤ p.lastText.length → ∃ w, ofPS (p.shorten suf.length) = some w ∧ decodePayload pre = .ok (w, [])) ∧
    (p.lastText.length < suf.length → ∃ e, decodePayload pre = .error (.err e)) := by
  refine ⟨fun hl => ?_, fun hl => ?_⟩
  · obtain ⟨w, hw, _⟩ := shorten_val p suf.length v hv (List.length_pos_iff.mpr hs) hl
    exact ⟨w, hw, decodePayload_iff.mpr ⟨_, shorten_read p pre suf hp hs hl, hw⟩⟩
  · rcases (c16_cut_payload_partial hp hv hs).2 with h | ⟨w, h⟩
    · exact h
    · obtain ⟨q, h1, h2⟩ := decodePayload_iff.mp h
      have := (cut_read p pre suf [] q v w hp hs hv h1 h2).1
      omega

/-- The map {"k": [1, "abc"]}, cut at every place: the last three cuts are accepted. -/
def cutSample : PS := .map [([107], .list [.int 1, .str [97, 98, 99]])]

theorem cutSample_packs : Packs halfRange cutSample [0xA1, 0x81, 107, 0x92, 0x01, 0x83, 97, 98, 99] := by
  simp only [cutSample, Packs, PacksKVs, PacksList]
  exact ⟨[0xA1], [0x81, 107, 0x92, 0x01, 0x83, 97, 98, 99], .inl ⟨by decide, rfl⟩,
    ⟨[0x81], [0x92, 0x01, 0x83, 97, 98, 99], [], .inl ⟨by decide, rfl⟩,
      ⟨[0x92], [0x01, 0x83, 97, 98, 99], .inl ⟨by decide, rfl⟩,
        ⟨[0x01], [0x83, 97, 98, 99], .inl ⟨by decide, by decide, by unfold Signed; decide⟩,
          ⟨[0x83, 97, 98, 99], [], ⟨[0x83], .inl ⟨by decide, rfl⟩, rfl⟩, rfl, rfl⟩, rfl⟩, rfl⟩, rfl, rfl⟩, rfl⟩

theorem cutSample_value : ofPS cutSample = some (.map [([107], .list [.int .int64 1, .str [97, 98, 99]])]) := by
  simp [cutSample, ofPS, ofPSKVs, ofPSList, lastWins, firstKeys, getLast?]

example : decodePayload [0xA1, 0x81, 107, 0x92, 0x01, 0x83, 97] = .ok (.map [([107], .list [.int .int64 1, .str [97]])], []) := by
  obtain ⟨w, h1, h2⟩ := (c16_iff_partial (pre := [0xA1, 0x81, 107, 0x92, 0x01, 0x83, 97]) (suf := [98, 99]) cutSample_packs cutSample_value
    (by simp)).1 (by simp [cutSample, PS.lastText, PS.lastTextKVs, PS.lastTextList])
  simp [cutSample, PS.shorten, PS.shortenKVs, PS.shortenList, ofPS, ofPSKVs, ofPSList, lastWins, firstKeys, getLast?] at h1
  rw [h2, ← h1]

example : ∃ e, decodePayload [0xA1, 0x81, 107, 0x92, 0x01] = .error (.err e) :=
  (c16_iff_partial (pre := [0xA1, 0x81, 107, 0x92, 0x01]) (suf := [0x83, 97, 98, 99]) cutSample_packs cutSample_value (by simp)).2
    (by simp [cutSample, PS.lastText, PS.lastTextKVs, PS.lastTextList])

end Bolt
