import Verif.Proofs.Stream
import Verif.Proofs.Decode
import Verif.Proofs.Sane
import Verif.Proofs.Count
import Verif.Proofs.Cut
import Verif.Props.Encoding

/-!
# C04, C11 - C19: the decoder

Each theorem is followed by a concrete case meeting its hypotheses.
-/

namespace Bolt
open PackStream

/-! ## Reading messages from the stream: C11, C12, C13 -/

/-- What Decode makes of a flat byte string, used to compare two splittings. -/
theorem decodeFrom_flat (r : Source) (hne : r.NonEmpty) :
    (∃ e, readOne r.err r.bytes = .error e ∧ (decodeFrom r).1 = .error (.err e) ∧ (decodeFrom r).2.bytes = []) ∨
    (∃ p rest, readOne r.err r.bytes = .ok (p, rest) ∧ (decodeFrom r).2.bytes = rest ∧ (decodeFrom r).2.NonEmpty ∧
      (decodeFrom r).2.err = r.err ∧
      (decodeFrom r).1 = match decodePayload p with | .ok (v, _) => .ok v | .error f => .error f) := by
  have h := readMsg_flat r hne
  unfold decodeFrom
  cases h1 : readMsg r with
  | err e r' =>
    rw [h1] at h
    cases h2 : readOne r.err r.bytes with
    | error e' =>
      rw [h2] at h
      exact .inl ⟨e', rfl, by rw [h.1], h.2.2⟩
    | ok a => rw [h2] at h; exact absurd h (by simp [SameRead])
  | ok p r' =>
    rw [h1] at h
    cases h2 : readOne r.err r.bytes with
    | error e' => rw [h2] at h; exact absurd h (by simp [SameRead])
    | ok a =>
      obtain ⟨p', rest⟩ := a
      rw [h2] at h
      obtain ⟨rfl, h3, h4, h5⟩ := h
      refine .inr ⟨p, rest, rfl, ?_⟩
      cases h6 : decodePayload p with
      | ok a => obtain ⟨v, b⟩ := a; simp only [h6]; exact ⟨h4, h5, h3, trivial⟩
      | error f => simp only [h6]; exact ⟨h4, h5, h3, trivial⟩

/-- C11: two readers with the same bytes and the same final error, split in any way into non-empty reads:
Decode returns the same and leaves the same bytes. -/
theorem c11_fragmentation (r₁ r₂ : Source) (h₁ : r₁.NonEmpty) (h₂ : r₂.NonEmpty)
    (hb : r₁.segs.flatten = r₂.segs.flatten) (he : r₁.err = r₂.err) :
    (decodeFrom r₁).1 = (decodeFrom r₂).1 ∧ (decodeFrom r₁).2.segs.flatten = (decodeFrom r₂).2.segs.flatten := by
  have hb' : r₁.bytes = r₂.bytes := hb
  rcases decodeFrom_flat r₁ h₁ with ⟨e, a1, a2, a3⟩ | ⟨p, rest, a1, a2, _, _, a3⟩ <;>
  rcases decodeFrom_flat r₂ h₂ with ⟨e', b1, b2, b3⟩ | ⟨p', rest', b1, b2, _, _, b3⟩ <;>
  rw [hb', he, b1] at a1 <;> cases a1
  · exact ⟨by rw [a2, b2], by unfold Source.bytes at *; rw [a3, b3]⟩
  · exact ⟨by rw [a3, b3], by unfold Source.bytes at *; rw [a2, b2]⟩

/-- A SUCCESS message split inside its length field and inside its payload. -/
example : (decodeFrom ⟨[[0x00], [0x03, 0xB1, 0x70], [0xA0, 0x00], [0x00, 0x00, 0x02]], .eof⟩).1 =
    (decodeFrom ⟨[[0x00, 0x03, 0xB1, 0x70, 0xA0, 0x00, 0x00, 0x00, 0x02]], .eof⟩).1 :=
  (c11_fragmentation _ _ (by simp [Source.NonEmpty]) (by simp [Source.NonEmpty]) (by decide) rfl).1

/-- C12: whatever bytes follow a framed message and however they are split, one Decode consumes exactly the
message; its result depends only on the payload, which may be malformed. -/
theorem c12_one_message {p w rest : Bytes} (hf : Framed p w) (r : Source) (hne : r.NonEmpty)
    (hb : r.segs.flatten = w ++ rest) :
    (decodeFrom r).2.segs.flatten = rest ∧ (decodeFrom r).2.err = r.err ∧
    (decodeFrom r).1 = match decodePayload p with | .ok (v, _) => .ok v | .error f => .error f := by
  have h : readOne r.err r.bytes = .ok (p, rest) := by
    have : r.bytes = w ++ rest := hb
    rw [this]
    unfold readOne
    have := readFlat_framed (err := r.err) hf (f := (w ++ rest).length + 1) (rest := rest) (out := []) (by omega)
    simpa using this
  rcases decodeFrom_flat r hne with ⟨e, a1, _⟩ | ⟨p', rest', a1, a2, _, a4, a3⟩
  · rw [h] at a1; cases a1
  · rw [h] at a1
    cases a1
    exact ⟨a2, a4, a3⟩

/-- A malformed payload (marker C4) followed by the start of another message. -/
example : (decodeFrom ⟨[[0x00, 0x01], [0xC4, 0x00], [0x00, 0x00, 0x07]], .eof⟩).2.segs.flatten = [0x00, 0x07] :=
  (c12_one_message (p := [0xC4]) (w := [0x00, 0x01] ++ [0xC4] ++ [0x00, 0x00])
    (Framed.chunk (c := [0xC4]) (by simp) (by unfold Unsigned; decide) Framed.done) _
    (by simp [Source.NonEmpty]) rfl).1

/-- C13: a stream that ends (with any error) before the end of the message yields an error. -/
theorem c13_truncated_stream {p w pre suf : Bytes} (hf : Framed p w) (hw : w = pre ++ suf) (hs : suf ≠ [])
    (r : Source) (hne : r.NonEmpty) (hb : r.segs.flatten = pre) : ∃ e, (decodeFrom r).1 = .error (.err e) := by
  obtain ⟨e, he⟩ := readFlat_cut (err := r.err) hf (f := pre.length + 1) (out := []) hw hs (by omega)
  have h : readOne r.err r.bytes = .error e := by
    have : r.bytes = pre := hb
    rw [this]; exact he
  rcases decodeFrom_flat r hne with ⟨e', _, a2, _⟩ | ⟨p', rest', a1, _⟩
  · exact ⟨e', a2⟩
  · rw [h] at a1; cases a1

/-- Cut after the payload, before the end marker. -/
example : ∃ e, (decodeFrom ⟨[[0x00, 0x01, 0xC0, 0x00]], .eof⟩).1 = .error (.err e) :=
  c13_truncated_stream (p := [0xC0]) (w := [0x00, 0x01] ++ [0xC0] ++ [0x00, 0x00]) (pre := [0x00, 0x01, 0xC0, 0x00])
    (suf := [0x00]) (Framed.chunk (c := [0xC0]) (by simp) (by unfold Unsigned; decide) Framed.done) rfl (by simp)
    _ (by simp [Source.NonEmpty]) rfl

/-! ## C17 -/

/-- C17: any PackStream encoding (minimal or not) of a value a client can receive, whose size fields have
their top bit clear, is decoded to that value, and decoding stops exactly at its end. Missing: size fields
of 128-255 (one byte), 32768-65535 (two bytes), above 2^31-1 (four bytes). -/
theorem c17_conforming_understood_partial {p : PS} {v : Val} {a : Bytes} (hp : Packs halfRange p a)
    (hv : ofPS p = some v) (rest : Bytes) : decodePayload (a ++ rest) = .ok (v, rest) :=
  dec_packs p a rest _ v hp hv (by simp; omega)

/-- C17 for whole messages: framed in any way, split in any way. -/
theorem c17_message_partial {p : PS} {v : Val} {a w rest : Bytes} (hp : Packs halfRange p a) (hv : ofPS p = some v)
    (hf : Framed a w) (r : Source) (hne : r.NonEmpty) (hb : r.segs.flatten = w ++ rest) :
    (decodeFrom r).1 = .ok v ∧ (decodeFrom r).2.segs.flatten = rest := by
  obtain ⟨h1, _, h2⟩ := c12_one_message hf r hne hb
  have h3 := c17_conforming_understood_partial hp hv []
  rw [List.append_nil] at h3
  rw [h3] at h2
  exact ⟨h2, h1⟩

/-- The number 1 in its longest form, inside a list with a 2-byte size field. -/
example : decodePayload ([0xD5, 0x00, 0x01] ++ [0xCB, 0, 0, 0, 0, 0, 0, 0, 1] ++ [0x55]) =
    .ok (.list [.int .int64 1], [0x55]) := by
  refine c17_conforming_understood_partial (p := .list [.int 1]) ?_ (by simp [ofPS, ofPSList]) [0x55]
  simp only [Packs, PacksList]
  refine ⟨[0xD5, 0x00, 0x01], [0xCB, 0, 0, 0, 0, 0, 0, 0, 1], ?_, ?_, rfl⟩
  · exact .inr ⟨2, 0xD5, [0x00, 0x01], rfl, by unfold Unsigned; decide, by decide, rfl⟩
  · exact ⟨[0xCB, 0, 0, 0, 0, 0, 0, 0, 1], [], .inr (.inr (.inr (.inr ⟨[0, 0, 0, 0, 0, 0, 0, 1], rfl, by unfold Signed; decide⟩))), rfl, by simp⟩

set_option maxRecDepth 100000 in
/-- C17 is false: a conforming server's encoding of any string of 128 to 255 bytes panics. -/
theorem c17_false_string (s : Str) (h1 : 128 ≤ s.length) (h2 : s.length ≤ 255) :
    Packs fullRange (.str s) (0xD0 :: UInt8.ofNat s.length :: s) ∧ ofPS (.str s) = some (.str s) ∧
    decodePayload (0xD0 :: UInt8.ofNat s.length :: s) = .error (.panic .negNext) := by
  refine ⟨?_, rfl, ?_⟩
  · simp only [Packs]
    refine ⟨[0xD0, UInt8.ofNat s.length], .inr ⟨1, 0xD0, [UInt8.ofNat s.length], rfl, ⟨rfl, ?_⟩, ?_, rfl⟩, rfl⟩
    · simp [ofBytes, UInt8.toNat_ofNat']; omega
    · simp [fullRange]; omega
  · have hb : signedOf 1 [UInt8.ofNat s.length] = (s.length : Int) - 256 := by
      simp only [signedOf, beNat, List.foldl_cons, List.foldl_nil, UInt8.toNat_ofNat', wrapSigned]
      have : s.length % 2 ^ 8 = s.length := Nat.mod_eq_of_lt (by omega)
      rw [this]
      simp only [Nat.zero_mul, Nat.zero_add]
      have : (s.length : Int) % ((256 ^ 1 : Nat) : Int) = s.length := Int.emod_eq_of_lt (by omega) (by simp; omega)
      rw [this]
      rw [if_neg (by simp; omega)]
      simp
    have hr : readSize 1 "An error occurred reading string size" (UInt8.ofNat s.length :: s) =
        .ok ((s.length : Int) - 256, s) := by
      simp [readSize, readRaw, hb]
    have hd : ∀ f, decode (f + 1) (0xD0 :: UInt8.ofNat s.length :: s) =
        (readSize 1 "An error occurred reading string size" >>= next) (UInt8.ofNat s.length :: s) := by
      intro f; rfl
    unfold decodePayload
    rw [hd, Dec.bind_eq, hr]
    simp only [next]
    rw [if_pos (by omega)]

example : ∃ s : Str, 128 ≤ s.length ∧ s.length ≤ 255 := ⟨List.replicate 200 65, by rw [List.length_replicate]; decide, by rw [List.length_replicate]; decide⟩

set_option maxRecDepth 100000 in
/-- C17 is false in silence: a map announced with a size byte of 128 or more is delivered as an empty map,
its entries lost. -/
theorem c17_false_map (n : UInt8) (hn : 128 ≤ n) (body : Bytes) :
    decodePayload (0xD8 :: n :: body) = .ok (.map [], body) := by
  have hn' : 128 ≤ n.toNat := by simpa [UInt8.le_iff_toNat_le] using hn
  have hlt := n.toNat_lt
  have hb : signedOf 1 [n] = (n.toNat : Int) - 256 := by
    simp only [signedOf, beNat, List.foldl_cons, List.foldl_nil, wrapSigned, Nat.zero_mul, Nat.zero_add]
    have : (n.toNat : Int) % ((256 ^ 1 : Nat) : Int) = n.toNat := Int.emod_eq_of_lt (by omega) (by simp; omega)
    rw [this, if_neg (by simp; omega)]
    simp
  have hr : readSize 1 "An error occurred reading map size" (n :: body) = .ok ((n.toNat : Int) - 256, body) := by
    simp [readSize, readRaw, hb]
  have hd : ∀ f, decode (f + 1) (0xD8 :: n :: body) =
      (readSize 1 "An error occurred reading map size" >>= decodeMap (decode f)) (n :: body) := by
    intro f; rfl
  unfold decodePayload
  rw [hd, Dec.bind_eq, hr]
  have : ((n.toNat : Int) - 256).toNat = 0 := by omega
  simp [decodeMap, this, decodeEntries, Dec.bind_eq, Dec.pure]

example : decodePayload [0xD8, 0x80, 0x81, 0x61, 0x01] = .ok (.map [], [0x81, 0x61, 0x01]) :=
  c17_false_map 0x80 (by decide) _

/-! ## C04 -/

/-- C04: a supported, decodable value none of whose sizes falls in the misread ranges comes back from
Unmarshal as it went into Marshal. Missing: sizes 128-255, 32768-65535, above 2^31-1; strings above 65535
bytes; `uint` above 2^63-1. -/
theorem c04_round_trip_partial {v : Val} (ht : v.Typed) (hc : v.Clean) (hz : v.SmallSizes) (hd : v.Decodable)
    (hl : v.StringsLe 65535) (hok : (marshal v).2 = none) :
    ∃ w, unmarshal (marshal v).1 = .ok w ∧ Returns v w := by
  have he := ok_of_encodeTo hok
  obtain ⟨p, h1, h2⟩ := enc_packs v (good_half ht hc hz) he
  rw [← payload_eq] at h2
  obtain ⟨w, h3, h4⟩ := ret_of v p (all_and v ht hd) h1
  have h5 := (marshal_framed hl he).2
  refine ⟨w, ?_, h4⟩
  have hne : (marshal v).1 ≠ [] := by
    intro h; rw [h] at h5
    obtain ⟨k, h6, _⟩ := framedBy_length (framed_iff.mp h5)
    rw [List.length_nil] at h6; omega
  unfold unmarshal
  rw [if_neg hne]
  exact (c17_message_partial (rest := []) h2 h3 h5 ⟨[(marshal v).1], .eof⟩ (by simp [Source.NonEmpty, hne])
    (by simp)).1

theorem sample_small : sample.SmallSizes := by
  simp [sample, Val.SmallSizes, Val.Sizes, Val.All, Val.AllKVs, Val.AllList, Val.SizesHere, Val.sizes, keySizes,
    SizeOK, halfRange]
theorem sample_decodable : sample.Decodable := by
  simp [sample, Val.Decodable, Val.All, Val.AllKVs, Val.AllList, Val.DecodableHere]

example : ∃ w, unmarshal (marshal sample).1 = .ok w ∧ Returns sample w :=
  c04_round_trip_partial sample_typed sample_clean sample_small sample_decodable sample_strings
    (marshal_framed sample_strings sample_ok).1

/-- C04 is false: for every string of 128 to 255 bytes Unmarshal panics on what Marshal returned. -/
theorem c04_false (s : Str) (h1 : 128 ≤ s.length) (h2 : s.length ≤ 255) :
    (marshal (.str s)).2 = none ∧ unmarshal (marshal (.str s)).1 = .error (.panic .negNext) := by
  have hl : Val.StringsLe 65535 (.str s) := by
    simp only [Val.StringsLe, Val.All, Val.ownStrings, List.mem_singleton, forall_eq]; omega
  have he : (encOps (.str s)).err = none := by
    rw [acc]; simp only [Val.All, Val.SupportedHere, Val.sizes, List.mem_singleton, forall_eq]; omega
  have h5 := marshal_framed hl he
  have hp : payload (.str s) = 0xD0 :: UInt8.ofNat s.length :: s := by
    unfold payload
    simp only [encOps, encodeString]
    rw [if_neg (by omega), if_pos (by omega)]
    simp [Ops.seq, Ops.write, String8Marker, be]
  refine ⟨h5.1, ?_⟩
  have hne : (marshal (.str s)).1 ≠ [] := by
    intro h; rw [h] at h5
    obtain ⟨k, h6, _⟩ := framedBy_length (framed_iff.mp h5.2)
    rw [List.length_nil] at h6; omega
  unfold unmarshal
  rw [if_neg hne]
  obtain ⟨_, _, h6⟩ := c12_one_message (rest := []) h5.2 ⟨[(marshal (.str s)).1], .eof⟩ (by simp [Source.NonEmpty, hne])
    (by simp)
  rw [h6, hp, (c17_false_string s h1 h2).2.2]

/-! ## C14 -/

/-- C14: decoding any payload gives a value or an error, or one of three panics, each of which needs its
cause in the payload: a string (list) marker with a size field whose top bit is set, or the signature byte of
a node, relationship, path or unbound relationship. Missing: payloads containing such bytes. -/
theorem c14_no_panic_partial (b : Bytes) :
    (∃ v rest, decodePayload b = .ok (v, rest)) ∨ (∃ e, decodePayload b = .error (.err e)) ∨
    (∃ p, decodePayload b = .error (.panic p) ∧ PanicCause b p) := by
  have h := decodePayload_sane b
  cases hd : decodePayload b with
  | ok a => exact .inl ⟨a.1, a.2, rfl⟩
  | error f =>
    rw [hd] at h
    cases f with
    | err e => exact .inr (.inl ⟨e, rfl⟩)
    | panic p => exact .inr (.inr ⟨p, rfl, h⟩)
    | fuel => exact absurd h (by simp [Sane])

/-- C14 at the level of Decode: any stream, any splitting. -/
theorem c14_decode_partial (r : Source) :
    (∃ v, (decodeFrom r).1 = .ok v) ∨ (∃ e, (decodeFrom r).1 = .error (.err e)) ∨
    (∃ p b, (decodeFrom r).1 = .error (.panic p) ∧ PanicCause b p ∧ ∃ r', readMsg r = .ok b r') := by
  unfold decodeFrom
  cases h : readMsg r with
  | err e r' => exact .inr (.inl ⟨e, rfl⟩)
  | ok b r' =>
    rcases c14_no_panic_partial b with ⟨v, rest, h1⟩ | ⟨e, h1⟩ | ⟨p, h1, h2⟩
    · exact .inl ⟨v, by simp [h1]⟩
    · exact .inr (.inl ⟨e, by simp [h1]⟩)
    · exact .inr (.inr ⟨p, b, by simp [h1], h2, r', rfl⟩)

/-- C14 for payloads without such bytes: a value or an error. -/
theorem c14_safe_partial (b : Bytes) (h : ∀ p, ¬ PanicCause b p) :
    (∃ v rest, decodePayload b = .ok (v, rest)) ∨ (∃ e, decodePayload b = .error (.err e)) := by
  rcases c14_no_panic_partial b with h1 | h1 | ⟨p, _, h2⟩
  · exact .inl h1
  · exact .inr h1
  · exact absurd h2 (h p)

/-- Garbage: an unknown marker as a map's value. -/
example : ∀ p, ¬ PanicCause [0xA1, 0x05, 0xC4] p := by
  have hn : ∀ ms : List UInt8, (∀ x ∈ ms, x ≠ 0xA1 ∧ x ≠ 0x05 ∧ x ≠ 0xC4) → ¬ HasNegSize ms [0xA1, 0x05, 0xC4] := by
    rintro ms h ⟨pre, m, c, post, h1, h2, _⟩
    have : m ∈ ([0xA1, 0x05, 0xC4] : Bytes) := by rw [h1]; simp
    have h3 := h m h2
    simp at this
    rcases this with rfl | rfl | rfl <;> simp at h3
  intro p
  cases p with
  | negNext => exact hn _ (by decide)
  | negMake => exact hn _ (by decide)
  | typeAssert => simp [PanicCause]
  | nilDeref => simp [PanicCause]
  | index => simp [PanicCause]

set_option maxRecDepth 100000 in
/-- C14 is false: a one-byte list size of 0x80 panics, and so does a node with a string identity. -/
theorem c14_false : decodePayload [0xD4, 0x80] = .error (.panic .negMake) ∧
    decodePayload [0xB3, 0x4E, 0x80, 0x90, 0xA0] = .error (.panic .typeAssert) ∧
    unmarshal [0x00, 0x02, 0xD0, 0xFF, 0x00, 0x00] = .error (.panic .negNext) := by
  refine ⟨rfl, rfl, rfl⟩

/-! ## C15 -/

/-- C15: decoding terminates on every payload: the recursion bound is never hit and any larger bound gives the
same result, so recursion is no deeper than the number of bytes. -/
theorem c15_terminates (b : Bytes) : decodePayload b ≠ .error .fuel ∧
    ∀ f, b.length < f → decode f b = decodePayload b := by
  refine ⟨?_, fun f hf => decode_fuel b f hf⟩
  intro h
  have := decodePayload_sane b
  rw [h] at this
  exact this

/-- C15: the stream reader terminates too: any bound above the number of bytes gives the same message. -/
theorem c15_reader_terminates (r : Source) (f : Nat) (hf : r.size < f) : readMsgLoop f r [] = readMsg r :=
  readMsg_fuel hf []

/-- C15: a decoded value consumes at least one byte; it holds at most as many values (elements, keys, fields,
at every depth) as bytes were consumed, and its nesting is no deeper. -/
theorem c15_bounded {b rest : Bytes} {v : Val} (h : decodePayload b = .ok (v, rest)) :
    rest <:+ b ∧ rest.length < b.length ∧ v.values + rest.length ≤ b.length ∧ v.depth + rest.length ≤ b.length := by
  have h1 := decodePayload_sane b
  rw [h] at h1
  have h2 := counts_decode _ _ _ _ h
  have h3 := depth_le_values v
  have h4 := h1.2
  exact ⟨h1.1, by omega, by omega, by omega⟩

/-- C15: a list that announces more elements than there are bytes left is never returned. -/
theorem c15_announced_size (n : Nat) (b : Bytes) (h : b.length < n) :
    ∀ r, decodeItems (decode (b.length + 1)) n b ≠ .ok r :=
  items_short _ n b (Nat.lt_succ_self _) h

set_option maxRecDepth 100000 in
example : (Val.list [.list [.nil]]).depth + 0 ≤ ([0x91, 0x91, 0xC0] : Bytes).length :=
  (c15_bounded (b := [0x91, 0x91, 0xC0]) (rest := []) rfl).2.2.2

/-! ## C16 -/

/-- C16: a proper prefix of the encoding of a value that does not end in a string's text is an error; when it
does end in a string's text the result is an error or a value, never a panic. Missing: payloads cut inside
a final string, which are returned as a shorter string. -/
theorem c16_cut_payload_partial {p : PS} {v : Val} {pre suf : Bytes} (hp : Packs halfRange p (pre ++ suf))
    (hv : ofPS p = some v) (hs : suf ≠ []) :
    (p.endsInString = false → ∃ e, decodePayload pre = .error (.err e)) ∧
    ((∃ e, decodePayload pre = .error (.err e)) ∨ ∃ v', decodePayload pre = .ok (v', [])) := by
  have h := cut_packs p _ pre suf ((pre ++ suf).length + 1) v hp hv rfl hs (Nat.lt_succ_self _)
  rw [decode_fuel pre _ (by simp; omega)] at h
  rcases h with h | ⟨h1, h2⟩
  · exact ⟨fun _ => h, .inl h⟩
  · exact ⟨fun hn => (by rw [hn] at h1; cases h1), .inr h2⟩

/-- A list of two numbers cut after the first. -/
example : ∃ e, decodePayload [0x92, 0x01] = .error (.err e) := by
  refine (c16_cut_payload_partial (p := .list [.int 1, .int 2]) (pre := [0x92, 0x01]) (suf := [0x02]) ?_
    (v := .list [.int .int64 1, .int .int64 2]) (by simp [ofPS, ofPSList]) (by simp)).1 rfl
  simp only [Packs, PacksList]
  exact ⟨[0x92], [0x01, 0x02], .inl ⟨by decide, rfl⟩,
    ⟨[0x01], [0x02], .inl ⟨by decide, by decide, by unfold Signed; decide⟩,
      ⟨[0x02], [], .inl ⟨by decide, by decide, by unfold Signed; decide⟩, rfl, rfl⟩, rfl⟩, rfl⟩

set_option maxRecDepth 100000 in
/-- C16 is false: "abc" cut to two characters is delivered as "ab". -/
theorem c16_false : Packs halfRange (.str [97, 98, 99]) ([0x83, 97, 98] ++ [99]) ∧
    decodePayload [0x83, 97, 98] = .ok (.str [97, 98], []) := by
  refine ⟨?_, rfl⟩
  simp only [Packs]
  exact ⟨[0x83], .inl ⟨by decide, rfl⟩, rfl⟩

/-! ## C18 -/

section
variable {a rest : Bytes} {id s e : Int} {t : Bytes} {ls : List Bytes} {ps : List (Bytes × PS)} {qs : KVs}

theorem allStr_map (ls : List Str) : allStr (ls.map .str) = some ls := by
  induction ls with
  | nil => rfl
  | cons l ls ih => simp [allStr, ih]

theorem ofPSList_str (ls : List Bytes) : ofPSList (ls.map .str) = some (ls.map .str) := by
  induction ls with
  | nil => rfl
  | cons l ls ih => simp [ofPSList, ofPS, ih]

theorem allInt_map (sq : List Int) : allInt (sq.map (.int .int64)) = some sq := by
  induction sq with
  | nil => rfl
  | cons l ls ih => simp [allInt, ih]

theorem ofPSList_int (sq : List Int) : ofPSList (sq.map .int) = some (sq.map (.int .int64)) := by
  induction sq with
  | nil => rfl
  | cons l ls ih => simp [ofPSList, ofPS, ih]

/-- C18, nodes: identity, labels and properties arrive in their own fields. As for C17, size fields must
have their top bit clear. -/
theorem c18_node_partial (hq : ofPSKVs ps = some qs)
    (h : Packs halfRange (.struct 0x4E [.int id, .list (ls.map .str), .map ps]) a) :
    decodePayload (a ++ rest) = .ok (.node id ls (lastWins qs), rest) :=
  c17_conforming_understood_partial h (by simp [ofPS, ofPSList, ofPSList_str, hq, structOf, allStr_map]) rest

/-- C18, relationships. -/
theorem c18_relationship_partial (hq : ofPSKVs ps = some qs)
    (h : Packs halfRange (.struct 0x52 [.int id, .int s, .int e, .str t, .map ps]) a) :
    decodePayload (a ++ rest) = .ok (.rel id s e t (lastWins qs), rest) :=
  c17_conforming_understood_partial h (by simp [ofPS, ofPSList, hq, structOf]) rest

/-- C18, unbound relationships. -/
theorem c18_unbound_partial (hq : ofPSKVs ps = some qs)
    (h : Packs halfRange (.struct 0x72 [.int id, .str t, .map ps]) a) :
    decodePayload (a ++ rest) = .ok (.unbound id t (lastWins qs), rest) :=
  c17_conforming_understood_partial h (by simp [ofPS, ofPSList, hq, structOf]) rest

/-- C18, paths: nodes, unbound relationships and sequence numbers. -/
theorem c18_path_partial {nps rps : List PS} {ns rs : List Val} {sq : List Int} (hn : ofPSList nps = some ns)
    (hr : ofPSList rps = some rs) (hns : ∀ n ∈ ns, IsNode n) (hrs : ∀ r ∈ rs, IsUnbound r)
    (h : Packs halfRange (.struct 0x50 [.list nps, .list rps, .list (sq.map .int)]) a) :
    decodePayload (a ++ rest) = .ok (.path ns rs sq, rest) := by
  refine c17_conforming_understood_partial h ?_ rest
  have h1 : allNode ns = true := by
    clear hn
    induction ns with
    | nil => rfl
    | cons n ns ih =>
      have := hns n (by simp)
      cases n <;> simp [IsNode] at this
      exact ih fun m hm => hns m (by simp [hm])
  have h2 : allUnbound rs = true := by
    clear hr
    induction rs with
    | nil => rfl
    | cons n ns ih =>
      have := hrs n (by simp)
      cases n <;> simp [IsUnbound] at this
      exact ih fun m hm => hrs m (by simp [hm])
  simp [ofPS, ofPSList, hn, hr, structOf, h1, h2, ofPSList_int, allInt_map]
end

/-- Node 1 with label "A" and property x = true. -/
example : decodePayload ([0xB3, 0x4E, 0x01, 0x91, 0x81, 65, 0xA1, 0x81, 120, 0xC3] ++ []) =
    .ok (.node 1 [[65]] [([120], .bool true)], []) := by
  refine c18_node_partial (id := 1) (ls := [[65]]) (ps := [([120], .bool true)]) (qs := [([120], .bool true)])
    (by simp [ofPSKVs, ofPS]) ?_
  simp only [Packs, PacksList, PacksKVs, List.map_cons, List.map_nil]
  exact ⟨[0xB3], [0x01, 0x91, 0x81, 65, 0xA1, 0x81, 120, 0xC3], .inl ⟨by decide, rfl⟩,
    ⟨[0x01], [0x91, 0x81, 65, 0xA1, 0x81, 120, 0xC3], .inl ⟨by decide, by decide, by unfold Signed; decide⟩,
      ⟨[0x91, 0x81, 65], [0xA1, 0x81, 120, 0xC3],
        ⟨[0x91], [0x81, 65], .inl ⟨by decide, rfl⟩, ⟨[0x81, 65], [], ⟨[0x81], .inl ⟨by decide, rfl⟩, rfl⟩, rfl, rfl⟩, rfl⟩,
        ⟨[0xA1, 0x81, 120, 0xC3], [],
          ⟨[0xA1], [0x81, 120, 0xC3], .inl ⟨by decide, rfl⟩, ⟨[0x81], [0xC3], [], .inl ⟨by decide, rfl⟩, rfl, rfl, rfl⟩, rfl⟩,
          rfl, rfl⟩, rfl⟩, rfl⟩, rfl⟩

/-! ## C19 -/

/-- C19: the map delivered for a list of entries binds each key to its last value and has no other key. As for
C17, size fields must have their top bit clear. -/
theorem c19_last_wins_partial {ps : List (Bytes × PS)} {qs : KVs} {a rest : Bytes} (hq : ofPSKVs ps = some qs)
    (h : Packs halfRange (.map ps) a) :
    ∃ m, decodePayload (a ++ rest) = .ok (.map m, rest) ∧ DistinctKeys m ∧
      (∀ k, get? m k = getLast? qs k) ∧ (∀ k, k ∈ m.map Prod.fst ↔ k ∈ ps.map Prod.fst) := by
  refine ⟨lastWins qs, c17_conforming_understood_partial h (by simp [ofPS, hq]) rest, ?_, ?_, ?_⟩
  · rw [← insertAll_eq]
    have hk := keys_insertAll qs []
    simp only [List.map_nil, List.not_mem_nil, not_false_eq_true, decide_true, List.filter_true,
      List.nil_append] at hk
    unfold DistinctKeys; rw [hk]; exact nodup_firstKeys qs
  · intro k
    rw [← insertAll_eq, get?_insertAll]
    simp [get?]
  · intro k
    have hk := keys_insertAll qs []
    simp only [List.map_nil, List.not_mem_nil, not_false_eq_true, decide_true, List.filter_true,
      List.nil_append] at hk
    rw [← insertAll_eq, hk]
    have h1 : ∀ (qs : KVs), k ∈ firstKeys qs ↔ k ∈ qs.map Prod.fst := by
      intro qs
      induction qs with
      | nil => simp [firstKeys]
      | cons e qs ih =>
        obtain ⟨k', v⟩ := e
        simp only [firstKeys, List.mem_cons, List.map_cons, List.mem_filter, ih]
        by_cases hkk : k = k' <;> simp [hkk]
    rw [h1]
    have h2 : ∀ (ps : List (Bytes × PS)) (qs : KVs), ofPSKVs ps = some qs → qs.map Prod.fst = ps.map Prod.fst := by
      intro ps
      induction ps with
      | nil => intro qs h; simp [ofPSKVs] at h; subst h; rfl
      | cons e ps ih =>
        intro qs h
        obtain ⟨k', p⟩ := e
        simp only [ofPSKVs, Option.bind_eq_some_iff, Option.map_eq_some_iff] at h
        obtain ⟨v, _, qs', h3, rfl⟩ := h
        simp [ih qs' h3]
    rw [h2 ps qs hq]

set_option maxRecDepth 100000 in
/-- `{a: 1, b: 2, a: 3}` arrives as `{a: 3, b: 2}`. -/
example : decodePayload [0xA3, 0x81, 97, 1, 0x81, 98, 2, 0x81, 97, 3] =
    .ok (.map [([97], .int .int64 3), ([98], .int .int64 2)], []) := rfl

end Bolt
