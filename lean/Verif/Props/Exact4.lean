import Verif.Proofs.Chokes
import Verif.Props.Decoding

/-! # Exactly which payloads make the decoder panic: C14 -/

namespace Bolt
open PackStream Lenient

/-- C14, the exact condition: decoding a payload panics if and only if the payload, read from its beginning, comes to a string or list
whose size field has its top bit set, or to a field of a structure that should be an integer, or a list of integers, and is
not. Every other payload gives a value or an error. -/
theorem c14_iff_partial (b : Bytes) :
    ((∃ k, decodePayload b = .error (.panic k)) ↔ Chokes b) ∧
    (¬ Chokes b → (∃ v rest, decodePayload b = .ok (v, rest)) ∨ ∃ e, decodePayload b = .error (.err e)) := by
  have h : (∃ k, decodePayload b = .error (.panic k)) ↔ Chokes b :=
    ⟨fun h => decode_chokes _ b h, fun h => chokes_panics h _ (Nat.lt_succ_self _)⟩
  refine ⟨h, fun hn => ?_⟩
  rcases c14_no_panic_partial b with h1 | h1 | ⟨p, h1, _⟩
  · exact .inl h1
  · exact .inr h1
  · exact absurd (h.mp ⟨p, h1⟩) hn

/-- C14, the exact condition on a stream: the first message, however it is chunked and delivered and whatever follows, makes `Decode` panic
if and only if its payload does. -/
theorem c14_stream_iff_partial {p w rest : Bytes} (hf : Framed p w) (r : Source) (hne : r.NonEmpty) (hb : r.segs.flatten = w ++ rest) :
    (∃ k, (decodeFrom r).1 = .error (.panic k)) ↔ Chokes p := by
  rw [← (c14_iff_partial p).1, (c12_one_message hf r hne hb).2.2]
  cases decodePayload p with
  | ok a => exact ⟨fun ⟨_, h⟩ => (by cases h), fun ⟨_, h⟩ => (by cases h)⟩
  | error f => exact ⟨fun ⟨k, h⟩ => ⟨k, by simpa using h⟩, fun ⟨k, h⟩ => ⟨k, by simpa using h⟩⟩

/-- A list of a string and a node whose identity is a string. -/
example : ∃ k, decodePayload [0x92, 0x81, 0x4E, 0xB3, 0x4E, 0x80, 0x90, 0xA0] = .error (.panic k) :=
  (c14_iff_partial _).1.mpr (.item (n := 2) (h := [0x92]) (b := [0x81, 0x4E, 0xB3, 0x4E, 0x80, 0x90, 0xA0]) (c := [0xB3, 0x4E, 0x80, 0x90, 0xA0])
    (ps := [.str [0x4E]]) (xs := [.str [0x4E]]) (.inl ⟨by decide, rfl⟩)
    (by simp only [ReadsList, Reads]; exact ⟨_, ⟨1, [0x81], .inl ⟨by decide, rfl⟩, rfl, .inl rfl⟩, rfl⟩) rfl (by decide)
    (.wrong (n := 3) (h := [0xB3]) (b := [0x80, 0x90, 0xA0]) (sig := 0x4E) (ps := [.str []]) (xs := []) (x := .str []) (f := .int)
      (c := [0x90, 0xA0]) (.inl ⟨by decide, rfl⟩)
      (by simp only [ReadsList, Reads]; exact ⟨_, ⟨0, [0x80], .inl ⟨by decide, rfl⟩, rfl, .inl rfl⟩, rfl⟩)
      rfl trivial rfl (fun ⟨_, h⟩ => by cases h)))

set_option maxRecDepth 100000 in
/-- The same bytes where they do no harm: the marker of a list with the top bit of its size set, as the text of a string. -/
example : ¬ Chokes [0x82, 0xD4, 0x80] := fun h => by
  obtain ⟨k, h⟩ := (c14_iff_partial _).1.mpr h
  have h1 : decodePayload [0x82, 0xD4, 0x80] = .ok (.str [0xD4, 0x80], []) := rfl
  rw [h1] at h
  cases h

end Bolt
