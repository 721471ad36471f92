import Verif.Proofs.EncodeMain
import Verif.Proofs.EncodeMin
import Verif.Proofs.Unique
import Verif.Proofs.Framing
import Verif.Proofs.Accept
import Verif.Proofs.Round

/-!
# C01, C02, C03, C05, C06, C07, C08, C09, C10: the encoder

Each theorem is followed by a concrete case meeting its hypotheses. A property that is false of the code
has a `_false` theorem (a witness) and a `_partial` theorem (what does hold, with its exact condition).
-/

namespace Bolt
open PackStream

/-! ## Shared helpers -/

theorem ok_of_encodeTo {cs : Nat} {w : Sink} {v : Val} (h : (encodeTo cs w v).2 = none) : (encOps v).err = none := by
  unfold encodeTo at h
  dsimp only at h
  split at h
  · cases h
  · split at h
    · cases h
    · assumption

theorem good_full {v : Val} (ht : v.Typed) (hc : v.Clean) : Val.All (Good fullRange) v := by
  refine all_mono ?_ v (all_and v ht hc)
  exact fun v h => ⟨h.1, h.2, fun n _ => sizeOK_full n⟩

theorem good_half {v : Val} (ht : v.Typed) (hc : v.Clean) (hs : v.SmallSizes) : Val.All (Good halfRange) v := by
  refine all_mono ?_ v (all_and v (all_and v ht hc) hs)
  exact fun v h => ⟨h.1.1, h.1.2, h.2⟩

/-- The framing theorem for Marshal: strings of at most 65535 bytes. -/
theorem marshal_framed {v : Val} (hl : v.StringsLe 65535) (he : (encOps v).err = none) :
    (marshal v).2 = none ∧ Framed (payload v) (marshal v).1 := by
  obtain ⟨wire, h1, h2⟩ := encodeTo_framedBy (cs := 65535) (n := 65535) (by decide) (by decide) (by decide) [] v he
  have h3 := tailLen_lt (cs := 65535) (r := 0) (by decide) (wle_enc (n := 65535) (by decide) v hl)
  have h4 := h2.mpr (by omega)
  unfold marshal
  simp only [h1, List.nil_append, true_and]
  exact framed_iff.mpr h4

/-- A value used in the examples: `map{"a": []interface{}{int8(-5), "x"}, "b": Node{7, ["L"], {}}}`. -/
def sample : Val :=
  .map [([97], .list [.int .int8 (-5), .str [120]]), ([98], .node 7 [[76]] [])]

theorem sample_typed : sample.Typed := by
  simp [sample, Val.Typed, Val.All, Val.AllKVs, Val.AllList, Val.TypedHere, DistinctKeys, IntKind.InRange, IsInt64]
theorem sample_clean : sample.Clean := by
  simp [sample, Val.Clean, Val.All, Val.AllKVs, Val.AllList, Val.CleanHere]
theorem sample_strings : sample.StringsLe 65535 := by
  simp [sample, Val.StringsLe, Val.All, Val.AllKVs, Val.AllList, Val.ownStrings, keysOf]
theorem sample_supported : sample.Supported := by
  simp [sample, Val.Supported, Val.All, Val.AllKVs, Val.AllList, Val.SupportedHere, Val.sizes, keySizes]
theorem sample_ok : (encOps sample).err = none := (acc sample).mpr sample_supported

/-! ## C01 -/

/-- C01: whenever Encode succeeds, on whatever stream and with whatever chunk size, the payload is a
PackStream encoding of the value. Missing: `uint` values above 2^63-1 and user structures whose signature
is not a byte (`v.Clean`). -/
theorem c01_valid_packstream_partial {cs : Nat} {w : Sink} {v : Val} (ht : v.Typed) (hc : v.Clean)
    (hok : (encodeTo cs w v).2 = none) : ∃ p, Means v p ∧ Packs fullRange p (payload v) := by
  have h := ok_of_encodeTo hok
  obtain ⟨p, h1, h2⟩ := enc_packs v (good_full ht hc) h
  exact ⟨p, h1, by rw [payload_eq]; exact h2⟩

/-- C01 for the bytes Marshal returns: a framed message whose payload encodes the value. -/
theorem c01_marshal_partial {v : Val} (ht : v.Typed) (hc : v.Clean) (hl : v.StringsLe 65535)
    (hok : (marshal v).2 = none) : ∃ p bs, Means v p ∧ Packs fullRange p bs ∧ Framed bs (marshal v).1 := by
  have h := ok_of_encodeTo hok
  obtain ⟨p, h1, h2⟩ := enc_packs v (good_full ht hc) h
  exact ⟨p, payload v, h1, by rw [payload_eq]; exact h2, (marshal_framed hl h).2⟩

example : ∃ p bs, Means sample p ∧ Packs fullRange p bs ∧ Framed bs (marshal sample).1 :=
  c01_marshal_partial sample_typed sample_clean sample_strings (marshal_framed sample_strings sample_ok).1

example : payload sample = [0xA2, 0x81, 97, 0x92, 0xFB, 0x81, 120, 0x81, 98, 0xB3, 0x4E, 7, 0x91, 0x81, 76, 0xA0] := by
  decide

/-- The full C01 is false: Marshal accepts `uint(2^63)` but no PackStream encoding of that number exists. -/
theorem c01_false : ∃ v : Val, v.Typed ∧ (marshal v).2 = none ∧
    ¬ ∃ p bs, Means v p ∧ Packs fullRange p bs := by
  refine ⟨.int .uint (2^63), ?_, by decide, ?_⟩
  · simp [Val.Typed, Val.All, Val.TypedHere, IntKind.InRange]
  · rintro ⟨p, bs, h1, h2⟩
    simp only [Means] at h1
    subst h1
    simp only [Packs, Signed] at h2
    rcases h2 with h | ⟨_, _, h⟩ | ⟨_, _, h⟩ | ⟨_, _, h⟩ | ⟨_, _, h⟩ <;> simp at h

/-! ## C02 -/

/-- C02: for every Go integer type and every value of it except `uint` above 2^63-1, Marshal returns a
message holding exactly that number, or an error; and the error only when the number is no `int64`. -/
theorem c02_int_value_partial (k : IntKind) (n : Int) (hr : k.InRange n) (hc : k = .uint → n < 2^63) :
    ((marshal (.int k n)).2 = none → ∃ bs, Packs fullRange (.int n) bs ∧ Framed bs (marshal (.int k n)).1) ∧
    (IsInt64 n → (marshal (.int k n)).2 = none) := by
  have ht : Val.Typed (.int k n) := by simpa [Val.Typed, Val.All, Val.TypedHere] using hr
  have hcl : Val.Clean (.int k n) := by
    simp only [Val.Clean, Val.All]
    cases k <;> simp [Val.CleanHere] at *
    exact hc
  have hl : Val.StringsLe 65535 (.int k n) := by simp [Val.StringsLe, Val.All, Val.ownStrings]
  constructor
  · intro h
    obtain ⟨p, bs, h1, h2, h3⟩ := c01_marshal_partial ht hcl hl h
    simp only [Means] at h1
    subst h1
    exact ⟨bs, h2, h3⟩
  · intro h
    refine (marshal_framed hl ((acc _).mpr ?_)).1
    simp only [Val.All]
    unfold IsInt64 at h
    cases k <;> simp [Val.SupportedHere, Val.sizes]
    exact h.2

example : ∃ bs, Packs fullRange (.int (-32769)) bs ∧ Framed bs (marshal (.int .int32 (-32769))).1 := by
  have h := c02_int_value_partial .int32 (-32769) (by simp [IntKind.InRange]) (by intro h; cases h)
  exact h.1 (h.2 (by simp [IsInt64]))

/-- C02 is false: `uint(2^64-1)` is sent as -1. -/
theorem c02_false : IntKind.InRange .uint (2^64-1) ∧ (marshal (.int .uint (2^64-1))).2 = none ∧
    Framed [0xFF] (marshal (.int .uint (2^64-1))).1 ∧ Packs fullRange (.int (-1)) [0xFF] := by
  refine ⟨by simp [IntKind.InRange], by decide, ?_, ?_⟩
  · have : (marshal (.int .uint (2^64-1))).1 = [0x00, 0x01] ++ [0xFF] ++ [0x00, 0x00] := by decide
    rw [this]
    exact Framed.chunk (c := [0xFF]) (by simp) (by unfold Unsigned; decide) Framed.done
  · simp only [Packs]
    exact .inl ⟨by decide, by decide, by unfold Signed; decide⟩

/-! ## C03 -/

/-- C03: no PackStream encoding of the value is shorter than the one the encoder produces, and a value
that has a PackStream encoding at all is accepted. -/
theorem c03_shortest {v : Val} {p : PS} {bs : Bytes} (hm : Means v p) (hp : Packs fullRange p bs) :
    (encOps v).err = none ∧ (payload v).length ≤ bs.length := by
  have h := enc_min v p bs hm hp
  exact ⟨h.1, by rw [payload_eq]; exact h.2⟩

/-- 300 may be sent as `CA 00 00 01 2C`; the encoder uses `C9 01 2C`. -/
example : (payload (.int .int 300)).length ≤ ([0xCA, 0x00, 0x00, 0x01, 0x2C] : Bytes).length :=
  (c03_shortest (v := .int .int 300) (p := .int 300) rfl
    (by simp only [Packs]; exact .inr (.inr (.inr (.inl ⟨_, rfl, by unfold Signed; decide⟩))))).2

example : payload (.int .int 300) = [0xC9, 0x01, 0x2C] := by decide

/-! ## C05 -/

/-- C05: whatever PackStream value a conforming reader finds at the start of a stream beginning with the
payload, it is the value passed, and it ends where the payload ends. Missing: `v.Clean`. -/
theorem c05_read_back_partial {v : Val} (ht : v.Typed) (hc : v.Clean) (hok : (encOps v).err = none)
    {q : PS} {c r t : Bytes} (hq : Packs fullRange q c) (he : payload v ++ r = c ++ t) :
    Means v q ∧ c = payload v ∧ t = r := by
  obtain ⟨p, h1, h2⟩ := enc_packs v (good_full ht hc) hok
  rw [← payload_eq] at h2
  obtain ⟨rfl, h3, h4⟩ := packs_unique h2 hq he
  exact ⟨h1, h3.symm, h4.symm⟩

/-- C05: payloads of two values never stand in the prefix relation unless they are equal, and then both
values denote the same PackStream value. Missing: `Clean`. -/
theorem c05_unambiguous_partial {v₁ v₂ : Val} (ht₁ : v₁.Typed) (hc₁ : v₁.Clean) (ht₂ : v₂.Typed) (hc₂ : v₂.Clean)
    (hok₁ : (encOps v₁).err = none) (hok₂ : (encOps v₂).err = none) {r s : Bytes}
    (he : payload v₁ ++ r = payload v₂ ++ s) :
    payload v₁ = payload v₂ ∧ ∃ p, Means v₁ p ∧ Means v₂ p := by
  obtain ⟨p, h1, h2⟩ := enc_packs v₂ (good_full ht₂ hc₂) hok₂
  rw [← payload_eq] at h2
  obtain ⟨h3, h4, _⟩ := c05_read_back_partial ht₁ hc₁ hok₁ h2 he
  exact ⟨h4.symm, p, h3, h1⟩

/-- Same payload for `[]string{"x"}` and `[]interface{}{"x"}`: one PackStream value. -/
example : ∃ p, Means (.typedSlice [.str [120]]) p ∧ Means (.list [.str [120]]) p :=
  (c05_unambiguous_partial (v₁ := .typedSlice [.str [120]]) (v₂ := .list [.str [120]]) (r := []) (s := [])
    (by simp [Val.Typed, Val.All, Val.AllList, Val.TypedHere]) (by simp [Val.Clean, Val.All, Val.AllList, Val.CleanHere])
    (by simp [Val.Typed, Val.All, Val.AllList, Val.TypedHere]) (by simp [Val.Clean, Val.All, Val.AllList, Val.CleanHere])
    (by decide) (by decide) (by decide)).2

/-- C05 is false for `uint`: `uint(2^64-1)` and `int(-1)` put the same payload on the wire and denote
different numbers. -/
theorem c05_false : payload (.int .uint (2^64-1)) = payload (.int .int (-1)) ∧
    ¬ ∃ p, Means (.int .uint (2^64-1)) p ∧ Means (.int .int (-1)) p := by
  refine ⟨by decide, ?_⟩
  rintro ⟨p, h1, h2⟩
  simp only [Means] at h1 h2
  subst h1
  simp at h2

/-! ## C06 and C07 -/

/-- C06, exactly: with chunk size `cs` on a stream that does not fail, Encode of a supported value
succeeds, and the bytes written are a framed message with that payload if and only if the bytes left in
the buffer when the message ends are at most 65535. -/
theorem c06_framed_iff_partial {cs : Nat} (hc : 0 < cs) (hc' : cs ≤ 65535) (out : Bytes) {v : Val} (hv : v.Supported) :
    ∃ wire, encodeTo cs ⟨out, none⟩ v = (⟨out ++ wire, none⟩, none) ∧
      (Framed (payload v) wire ↔ tailLen cs 0 (encOps v).writes ≤ 65535) := by
  obtain ⟨wire, h1, h2⟩ := encodeTo_framedBy (n := 65535) hc hc' (by decide) out v ((acc v).mpr hv)
  exact ⟨wire, h1, by rw [framed_iff]; exact h2⟩

/-- C06 and C07 when no string in the value is longer than the chunk size: the output is the payload in
chunks of at most the chunk size. Missing: longer strings. -/
theorem c06_c07_framed_partial {cs : Nat} (hc : 8 ≤ cs) (hc' : cs ≤ 65535) (out : Bytes) {v : Val} (hv : v.Supported)
    (hl : v.StringsLe cs) :
    ∃ wire, encodeTo cs ⟨out, none⟩ v = (⟨out ++ wire, none⟩, none) ∧ FramedBy cs (payload v) wire ∧
      Framed (payload v) wire := by
  obtain ⟨wire, h1, h2⟩ := encodeTo_framedBy (n := cs) (by omega) (Nat.le_refl _) hc' out v ((acc v).mpr hv)
  have h3 := tailLen_lt (cs := cs) (r := 0) (by omega) (wle_enc (n := cs) hc v hl)
  have h4 := h2.mpr (by omega)
  exact ⟨wire, h1, h4, framed_iff.mpr (framedBy_mono hc' h4)⟩

/-- C06 for messages of less than 64 kB, any chunk size from 1 on. -/
theorem c06_small_partial {cs : Nat} (hc : 0 < cs) (hc' : cs ≤ 65535) (out : Bytes) {v : Val} (hv : v.Supported)
    (hf : v.footprint ≤ 65535) :
    ∃ wire, encodeTo cs ⟨out, none⟩ v = (⟨out ++ wire, none⟩, none) ∧ Framed (payload v) wire := by
  obtain ⟨wire, h1, h2⟩ := c06_framed_iff_partial hc hc' out hv
  refine ⟨wire, h1, h2.mpr ?_⟩
  have h3 := tailLen_le cs 0 (encOps v).writes
  have h4 := payload_footprint v
  unfold payload at h4
  omega

theorem sample_strings8 : sample.StringsLe 8 := by
  simp [sample, Val.StringsLe, Val.All, Val.AllKVs, Val.AllList, Val.ownStrings, keysOf]

example : ∃ wire, encodeTo 8 ⟨[], none⟩ sample = (⟨wire, none⟩, none) ∧ FramedBy 8 (payload sample) wire := by
  obtain ⟨wire, h1, h2, _⟩ := c06_c07_framed_partial (cs := 8) (by decide) (by decide) [] sample_supported sample_strings8
  exact ⟨wire, by simpa using h1, h2⟩

example : ∃ wire, encodeTo 3 ⟨[1], none⟩ sample = (⟨1 :: wire, none⟩, none) ∧ Framed (payload sample) wire := by
  obtain ⟨wire, h1, h2⟩ := c06_small_partial (cs := 3) (by decide) (by decide) [1] sample_supported (by decide)
  exact ⟨wire, by simpa using h1, h2⟩

theorem writes_str {s : Str} (h1 : 65536 ≤ s.length) (h2 : s.length < 2^32) :
    (encOps (.str s)).writes = [[0xD2], be 4 s.length, s] := by
  have e : (2:Nat)^32 = 4294967296 := by decide
  rw [e] at h2
  simp only [encOps, encodeString]
  rw [if_neg (by omega), if_neg (by omega), if_neg (by omega), if_pos (by omega)]
  simp [Ops.seq, Ops.write, String32Marker]

/-- C06 is false: for every string of 131066 or more bytes Marshal succeeds but does not return a framed
message with the string's payload. -/
theorem c06_false (s : Str) (h1 : 131066 ≤ s.length) (h2 : s.length < 2^32) :
    (marshal (.str s)).2 = none ∧ ¬ Framed (payload (.str s)) (marshal (.str s)).1 := by
  have hs : Val.Supported (.str s) := by
    simp only [Val.Supported, Val.All, Val.SupportedHere, Val.sizes, List.mem_singleton, forall_eq]; exact h2
  obtain ⟨wire, h3, h4⟩ := c06_framed_iff_partial (cs := 65535) (by decide) (by decide) [] hs
  have h5 : tailLen 65535 0 (encOps (.str s)).writes = 5 + s.length - 65535 := by
    rw [writes_str (by omega) h2]
    simp only [tailLen, List.length_singleton, be_length, Nat.zero_add]
    rw [if_neg (by omega : ¬ 1 ≥ 65535), if_neg (by omega : ¬ 1 + 4 ≥ 65535), if_pos (by omega)]
  unfold marshal
  rw [h3]
  simp only [List.nil_append, true_and]
  rw [h4, h5]
  omega

example : ∃ s : Str, 131066 ≤ s.length ∧ s.length < 2^32 := ⟨List.replicate 131066 0, by rw [List.length_replicate]; exact Nat.le_refl _, by rw [List.length_replicate]; decide⟩

/-- C07 is false: with chunk size 16 a string of 40 bytes is sent in one chunk of 16 and one of 26. -/
theorem c07_false : ∃ wire, encodeTo 16 ⟨[], none⟩ (.str (List.replicate 40 0)) = (⟨wire, none⟩, none) ∧
    Framed (payload (.str (List.replicate 40 0))) wire ∧ ¬ FramedBy 16 (payload (.str (List.replicate 40 0))) wire := by
  obtain ⟨wire, h1, h2⟩ := encodeTo_framedBy (cs := 16) (n := 16) (by decide) (by decide) (by decide) []
    (.str (List.replicate 40 0)) (by decide)
  obtain ⟨wire', h3, h4⟩ := c06_small_partial (cs := 16) (by decide) (by decide) [] (v := .str (List.replicate 40 0))
    (by simp [Val.Supported, Val.All, Val.SupportedHere, Val.sizes]) (by decide)
  have h5 : wire' = wire := by
    rw [h1] at h3
    simp only [List.nil_append] at h3
    injection h3 with h3; injection h3 with h3; exact h3.symm
  subst h5
  refine ⟨wire', by simpa using h1, h4, ?_⟩
  rw [h2]
  decide

/-! ## C08 -/

/-- C08: on a stream that does not fail, Encode returns no error if and only if the value contains nothing
unsupported at any depth. -/
theorem c08_rejects_iff (cs : Nat) (out : Bytes) (v : Val) :
    (encodeTo cs ⟨out, none⟩ v).2 = none ↔ v.Supported := by
  refine ⟨fun h => (acc v).mp (ok_of_encodeTo h), fun h => ?_⟩
  obtain ⟨cks, buf, _, _, _, h4⟩ := encodeTo_unlimited cs out v
  rw [h4, (acc v).mpr h]

/-- C08: on any stream, an unsupported part anywhere makes Encode return an error. -/
theorem c08_unsupported_reported (cs : Nat) (w : Sink) (v : Val) (h : ¬ v.Supported) : (encodeTo cs w v).2 ≠ none :=
  fun hn => h ((acc v).mp (ok_of_encodeTo hn))

/-- An unsupported value three levels down. -/
example : (encodeTo 16 ⟨[], some 100⟩ (.list [.int .int 1, .map [([97], .list [.other 3])]])).2 ≠ none :=
  c08_unsupported_reported _ _ _ (by simp [Val.Supported, Val.All, Val.AllList, Val.AllKVs, Val.SupportedHere])

example : (encodeTo 16 ⟨[], none⟩ sample).2 = none := (c08_rejects_iff _ _ _).mpr sample_supported

/-! ## C09 -/

/-- C09: a rejected value that would fit in one chunk leaves the stream untouched, whatever the stream.
Missing: values whose encoding reaches the chunk size before the unsupported part. -/
theorem c09_stream_untouched_partial (cs : Nat) (w : Sink) (v : Val) (h : ¬ v.Supported) (hf : v.footprint < cs) :
    ∃ e, encodeTo cs w v = (w, some e) := by
  have h1 := payload_footprint v
  have h2 := run_short (cs := cs) (encOps v).writes [] w (by unfold payload at h1; simp only [List.length_nil, Nat.zero_add]; omega)
  have h3 : (encOps v).err ≠ none := fun he => h ((acc v).mp he)
  unfold encodeTo
  dsimp only
  rw [h2]
  cases he : (encOps v).err with
  | none => exact absurd he h3
  | some e => exact ⟨e, by simp⟩

/-- C09, what holds for every rejected value on a stream that does not fail: only complete chunks holding
a prefix of the payload have been written, never an end marker. -/
theorem c09_only_whole_chunks_partial {cs : Nat} (hc : 0 < cs) (hc' : cs ≤ 65535) (out : Bytes) (v : Val)
    (h : ¬ v.Supported) :
    ∃ cks : List Bytes, (∀ c ∈ cks, c.length = cs) ∧ cks.flatten <+: payload v ∧
      (encodeTo cs ⟨out, none⟩ v).1.out = out ++ (cks.map (be 2 cs ++ ·)).flatten := by
  obtain ⟨cks, buf, h1, h2, _, h4⟩ := encodeTo_unlimited cs out v
  refine ⟨cks, h1, ⟨buf, h2.symm⟩, ?_⟩
  have h3 : (encOps v).err ≠ none := fun he => h ((acc v).mp he)
  rw [h4]
  cases he : (encOps v).err with
  | none => exact absurd he h3
  | some e => simp [chunksOf]

example : ∃ e, encodeTo 65535 ⟨[1, 2], none⟩ (.map [([97], .str [1, 2, 3]), ([98], .other 1)]) = (⟨[1, 2], none⟩, some e) :=
  c09_stream_untouched_partial _ _ _ (by simp [Val.Supported, Val.All, Val.AllKVs, Val.SupportedHere]) (by decide)

/-- C09 is false with the default chunk size: a parameter list of a long string and an unsupported value is
rejected after 65537 bytes have been sent. -/
theorem c09_false (s : Str) (hs : s.length = 65535) :
    (encodeTo 65535 ⟨[], none⟩ (.list [.str s, .other 0])).2 ≠ none ∧
    (encodeTo 65535 ⟨[], none⟩ (.list [.str s, .other 0])).1.out.length = 65537 := by
  have hw : (encOps (.list [.str s, .other 0])).writes = [[0x92], [0xD1], be 2 65535, s] := by
    simp only [encOps, encList, encodeString, sliceHeader, hs]
    simp [Ops.seq, Ops.write, Ops.fail, String16Marker, TinySliceMarker, Ops.wrapErr]
  refine ⟨c08_unsupported_reported _ _ _ (by simp [Val.Supported, Val.All, Val.AllList, Val.SupportedHere]), ?_⟩
  obtain ⟨cks, buf, h1, h2, h3, h4⟩ := encodeTo_unlimited 65535 [] (.list [.str s, .other 0])
  have he : (encOps (.list [.str s, .other 0])).err ≠ none := by
    intro he; have := (acc _).mp he; simp [Val.All, Val.AllList, Val.SupportedHere] at this
  have h5 : buf.length = 4 := by rw [h3, hw]; simp [tailLen, hs]
  have h6 : (payload (.list [.str s, .other 0])).length = 65539 := by unfold payload; rw [hw]; simp [hs]
  have h7 : cks.flatten.length = 65535 := by
    have := congrArg List.length h2
    rw [h6, List.length_append, h5] at this; omega
  have h8 : cks.length = 1 := by
    have h9 : cks.flatten.length = cks.length * 65535 := by
      clear h2 h4 h7
      induction cks with
      | nil => rfl
      | cons c cs ih =>
        rw [List.flatten_cons, List.length_append, ih (fun c hc => h1 c (by simp [hc])), h1 c (by simp), List.length_cons]
        omega
    omega
  match cks, h8 with
  | [c], _ =>
    rw [h4]
    cases h : (encOps (.list [.str s, .other 0])).err with
    | none => exact absurd h he
    | some e => simp [chunksOf, h1]

example : ∃ s : Str, s.length = 65535 := ⟨List.replicate 65535 0, List.length_replicate⟩

/-! ## C10 -/

/-- C10: on a stream that fails after `k` more bytes, what reaches the stream is the first `k` bytes of what
a working stream would have received, and Encode returns no error if and only if it would have returned
none on the working stream and all of its bytes were accepted. -/
theorem c10_failed_write_reported (cs k : Nat) (out : Bytes) (v : Val) :
    ∃ full, (encodeTo cs ⟨out, none⟩ v).1.out = out ++ full ∧
      (encodeTo cs ⟨out, some k⟩ v).1.out = out ++ full.take k ∧
      ((encodeTo cs ⟨out, some k⟩ v).2 = none ↔ (encodeTo cs ⟨out, none⟩ v).2 = none ∧ full.length ≤ k) :=
  encodeTo_inStep cs k out v

/-- The stream fails inside the message: an error is returned and 5 bytes were sent. -/
example : (encodeTo 4 ⟨[], some 5⟩ sample).2 ≠ none ∧ (encodeTo 4 ⟨[], some 5⟩ sample).1.out.length = 5 := by
  constructor <;> decide

end Bolt
