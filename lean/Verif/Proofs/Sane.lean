import Verif.Proofs.Decode

/-! For every input: decoding consumes a prefix, never runs out of fuel, and panics only for the listed
causes. -/

namespace Bolt

/-- Outcome of a decoder step started on buffer `b`: at least `k` bytes of a prefix consumed, or an
error, or a panic with cause `C`; never out of fuel. -/
def Sane (C : Panic → Prop) (k : Nat) (x : Except Fault (α × Bytes)) (b : Bytes) : Prop :=
  match x with
  | .ok (_, b') => b' <:+ b ∧ b'.length + k ≤ b.length
  | .error .fuel => False
  | .error (.panic p) => C p
  | .error (.err _) => True

theorem Sane.bind {C : Panic → Prop} {k j : Nat} {x : Dec α} {g : α → Dec β} {b : Bytes}
    (hx : Sane C k (x b) b)
    (hg : ∀ a b', x b = .ok (a, b') → b' <:+ b → Sane C j (g a b') b') :
    Sane C (k + j) ((x >>= g) b) b := by
  simp only [Dec.bind_eq]
  cases h : x b with
  | error e => rw [h] at hx; cases e <;> simp_all [Sane]
  | ok p =>
    obtain ⟨a, b'⟩ := p
    rw [h] at hx
    have h1 : b' <:+ b := hx.1
    have h2 : b'.length + k ≤ b.length := hx.2
    have := hg a b' h h1
    simp only [h]
    cases h3 : g a b' with
    | error e => rw [h3] at this; cases e <;> simp_all [Sane]
    | ok q =>
      obtain ⟨c, b''⟩ := q
      rw [h3] at this
      have h4 : b'' <:+ b' := this.1
      have h5 : b''.length + j ≤ b'.length := this.2
      exact ⟨h4.trans h1, by omega⟩

theorem Sane.mono {C : Panic → Prop} {k j : Nat} {x : Except Fault (α × Bytes)} {b : Bytes}
    (h : Sane C k x b) (hj : j ≤ k) : Sane C j x b := by
  unfold Sane at *
  split at h <;> first | exact ⟨h.1, by omega⟩ | exact h

theorem sane_pure {C : Panic → Prop} (a : α) (b : Bytes) : Sane C 0 (Dec.pure a b) b :=
  ⟨List.suffix_refl b, Nat.le_refl _⟩

theorem sane_throw {C : Panic → Prop} {k : Nat} (e : GoErr) (b : Bytes) :
    Sane C k ((Dec.throw e : Dec α) b) b := trivial

theorem sane_panic {C : Panic → Prop} {k : Nat} {p : Panic} (h : C p) (b : Bytes) :
    Sane C k ((Dec.panic p : Dec α) b) b := h

theorem sane_readRaw {C : Panic → Prop} (w : Nat) (b : Bytes) : Sane C w (readRaw w b) b := by
  unfold readRaw
  split
  · exact ⟨List.drop_suffix w b, by simp only [List.length_drop]; omega⟩
  · split <;> trivial

theorem sane_readSize {C : Panic → Prop} (w : Nat) (m : String) (b : Bytes) : Sane C w (readSize w m b) b := by
  have := sane_readRaw (C := C) w b
  unfold readSize
  cases h : readRaw w b with
  | ok p => rw [h] at this; exact this
  | error e => rw [h] at this; cases e <;> simp_all [Sane]

theorem sane_readInt {C : Panic → Prop} (w : Nat) (b : Bytes) : Sane C w (readInt w b) b :=
  Sane.bind (j := 0) (sane_readRaw w b) fun _ _ _ _ => sane_pure _ _

theorem sane_readByte {C : Panic → Prop} (m : String) (b : Bytes) : Sane C 1 (readByte m b) b := by
  cases b with
  | nil => trivial
  | cons x b => exact ⟨List.suffix_cons x b, by simp⟩

theorem sane_next {C : Panic → Prop} {n : Int} (h : n < 0 → C .negNext) (b : Bytes) : Sane C 0 (next n b) b := by
  unfold next
  split
  · rename_i hn; exact h hn
  · exact ⟨List.drop_suffix _ b, by simp only [List.length_drop]; omega⟩

section
variable {C : Panic → Prop} {dec : Dec Val}

theorem sane_items {b : Bytes} (H : ∀ b', b' <:+ b → Sane C 1 (dec b') b') (n : Nat) :
    ∀ b', b' <:+ b → Sane C n (decodeItems dec n b') b' := by
  induction n with
  | zero => intro b' _; exact sane_pure _ _
  | succ n ih =>
    intro b' hb
    refine Sane.mono (k := 1 + (n + 0)) (Sane.bind (H b' hb) fun x b1 _ h1 => ?_) (by omega)
    exact Sane.bind (j := 0) (ih b1 (h1.trans hb)) fun _ _ _ _ => sane_pure _ _

theorem sane_asKey (v : Val) (b : Bytes) : Sane C 0 (asKey v b) b := by
  cases v <;> first | exact sane_pure _ _ | trivial

theorem sane_entries {b : Bytes} (H : ∀ b', b' <:+ b → Sane C 1 (dec b') b') (n : Nat) :
    ∀ m b', b' <:+ b → Sane C (2 * n) (decodeEntries dec n m b') b' := by
  induction n with
  | zero => intro m b' _; exact sane_pure _ _
  | succ n ih =>
    intro m b' hb
    rw [show 2 * (n + 1) = 1 + (1 + (0 + 2 * n)) by omega]
    refine Sane.bind (H b' hb) fun x b1 _ h1 => ?_
    refine Sane.bind (H b1 (h1.trans hb)) fun x b2 _ h2 => ?_
    refine Sane.bind (sane_asKey _ _) fun x b3 _ h3 => ?_
    exact ih _ b3 (h3.trans (h2.trans (h1.trans hb)))

theorem sane_slice {b : Bytes} (H : ∀ b', b' <:+ b → Sane C 1 (dec b') b') {n : Int}
    (hn : n < 0 → C .negMake) (b' : Bytes) (hb : b' <:+ b) : Sane C 0 (decodeSlice dec n b') b' := by
  unfold decodeSlice
  split
  · rename_i h; exact hn h
  · exact (Sane.bind (j := 0) (sane_items H _ b' hb) fun _ _ _ _ => sane_pure _ _).mono (Nat.zero_le _)

theorem sane_map {b : Bytes} (H : ∀ b', b' <:+ b → Sane C 1 (dec b') b') (n : Int)
    (b' : Bytes) (hb : b' <:+ b) : Sane C 0 (decodeMap dec n b') b' :=
  (Sane.bind (j := 0) (sane_entries H _ _ b' hb) fun _ _ _ _ => sane_pure _ _).mono (Nat.zero_le _)

theorem sane_assert (hC : C .typeAssert) (v : Val) (b : Bytes) : Sane C 0 (assertInt64 v b) b := by
  unfold assertInt64
  split
  · exact sane_pure _ _
  · exact hC

theorem sane_asList (m : String) (v : Val) (b : Bytes) : Sane C 0 (asList m v b) b := by
  cases v <;> first | exact sane_pure _ _ | trivial

theorem sane_asMap (m : String) (v : Val) (b : Bytes) : Sane C 0 (asMap m v b) b := by
  cases v <;> first | exact sane_pure _ _ | trivial

theorem sane_asStr (m : String) (v : Val) (b : Bytes) : Sane C 0 (asStr m v b) b := by
  cases v <;> first | exact sane_pure _ _ | trivial

theorem sane_sliceToString (l : List Val) (b : Bytes) : Sane C 0 (sliceToString l b) b := by
  induction l generalizing b with
  | nil => exact sane_pure _ _
  | cons v l ih =>
    cases v <;> first | exact trivial | exact Sane.bind (j := 0) (ih b) fun _ _ _ _ => sane_pure _ _

theorem sane_sliceToNode (l : List Val) (b : Bytes) : Sane C 0 (sliceToNode l b) b := by
  induction l generalizing b with
  | nil => exact sane_pure _ _
  | cons v l ih =>
    cases v <;> first | exact trivial | exact Sane.bind (j := 0) (ih b) fun _ _ _ _ => sane_pure _ _

theorem sane_sliceToUnbound (l : List Val) (b : Bytes) : Sane C 0 (sliceToUnbound l b) b := by
  induction l generalizing b with
  | nil => exact sane_pure _ _
  | cons v l ih =>
    cases v <;> first | exact trivial | exact Sane.bind (j := 0) (ih b) fun _ _ _ _ => sane_pure _ _

theorem sane_sliceToInt (hC : C .typeAssert) (l : List Val) (b : Bytes) : Sane C 0 (sliceToInt l b) b := by
  induction l generalizing b with
  | nil => exact sane_pure _ _
  | cons v l ih =>
    cases v <;> try exact hC
    rename_i k v
    cases k <;> first | exact hC | exact Sane.bind (j := 0) (ih b) fun _ _ _ _ => sane_pure _ _

theorem sane_node {b : Bytes} (H : ∀ b', b' <:+ b → Sane C 1 (dec b') b') (hC : C .typeAssert) :
    Sane C 0 (decodeNode dec b) b := by
  refine Sane.mono (k := 1 + (0 + (1 + (0 + (0 + (1 + (0 + 0))))))) ?_ (Nat.zero_le _)
  refine Sane.bind (H b (List.suffix_refl b)) fun _ b1 _ h1 => ?_
  refine Sane.bind (sane_assert hC _ _) fun _ b2 _ h2 => ?_
  refine Sane.bind (H b2 (h2.trans h1)) fun _ b3 _ h3 => ?_
  refine Sane.bind (sane_asList _ _ _) fun _ b4 _ h4 => ?_
  refine Sane.bind (sane_sliceToString _ _) fun _ b5 _ h5 => ?_
  refine Sane.bind (H b5 (h5.trans (h4.trans (h3.trans (h2.trans h1))))) fun _ b6 _ h6 => ?_
  exact Sane.bind (sane_asMap _ _ _) fun _ b7 _ h7 => sane_pure _ _

theorem sane_rel {b : Bytes} (H : ∀ b', b' <:+ b → Sane C 1 (dec b') b') (hC : C .typeAssert) :
    Sane C 0 (decodeRelationship dec b) b := by
  refine Sane.mono (k := 1 + (0 + (1 + (0 + (1 + (0 + (1 + (0 + (1 + (0 + 0)))))))))) ?_ (Nat.zero_le _)
  refine Sane.bind (H b (List.suffix_refl b)) fun _ b1 _ h1 => ?_
  refine Sane.bind (sane_assert hC _ _) fun _ b2 _ h2 => ?_
  have h2 := h2.trans h1
  refine Sane.bind (H b2 h2) fun _ b3 _ h3 => ?_
  have h3 := h3.trans h2
  refine Sane.bind (sane_assert hC _ _) fun _ b4 _ h4 => ?_
  have h4 := h4.trans h3
  refine Sane.bind (H b4 h4) fun _ b5 _ h5 => ?_
  have h5 := h5.trans h4
  refine Sane.bind (sane_assert hC _ _) fun _ b6 _ h6 => ?_
  have h6 := h6.trans h5
  refine Sane.bind (H b6 h6) fun _ b7 _ h7 => ?_
  have h7 := h7.trans h6
  refine Sane.bind (sane_asStr _ _ _) fun _ b8 _ h8 => ?_
  have h8 := h8.trans h7
  refine Sane.bind (H b8 h8) fun _ b9 _ h9 => ?_
  exact Sane.bind (sane_asMap _ _ _) fun _ _ _ _ => sane_pure _ _

theorem sane_path {b : Bytes} (H : ∀ b', b' <:+ b → Sane C 1 (dec b') b') (hC : C .typeAssert) :
    Sane C 0 (decodePath dec b) b := by
  refine Sane.mono (k := 1 + (0 + (0 + (1 + (0 + (0 + (1 + (0 + (0 + 0))))))))) ?_ (Nat.zero_le _)
  refine Sane.bind (H b (List.suffix_refl b)) fun _ b1 _ h1 => ?_
  refine Sane.bind (sane_asList _ _ _) fun _ b2 _ h2 => ?_
  have h2 := h2.trans h1
  refine Sane.bind (sane_sliceToNode _ _) fun _ b3 _ h3 => ?_
  have h3 := h3.trans h2
  refine Sane.bind (H b3 h3) fun _ b4 _ h4 => ?_
  have h4 := h4.trans h3
  refine Sane.bind (sane_asList _ _ _) fun _ b5 _ h5 => ?_
  have h5 := h5.trans h4
  refine Sane.bind (sane_sliceToUnbound _ _) fun _ b6 _ h6 => ?_
  have h6 := h6.trans h5
  refine Sane.bind (H b6 h6) fun _ b7 _ h7 => ?_
  refine Sane.bind (sane_asList _ _ _) fun _ b8 _ h8 => ?_
  exact Sane.bind (sane_sliceToInt hC _ _) fun _ _ _ _ => sane_pure _ _

theorem sane_unbound {b : Bytes} (H : ∀ b', b' <:+ b → Sane C 1 (dec b') b') (hC : C .typeAssert) :
    Sane C 0 (decodeUnbound dec b) b := by
  refine Sane.mono (k := 1 + (0 + (1 + (0 + (1 + (0 + 0)))))) ?_ (Nat.zero_le _)
  refine Sane.bind (H b (List.suffix_refl b)) fun _ b1 _ h1 => ?_
  refine Sane.bind (sane_assert hC _ _) fun _ b2 _ h2 => ?_
  have h2 := h2.trans h1
  refine Sane.bind (H b2 h2) fun _ b3 _ h3 => ?_
  have h3 := h3.trans h2
  refine Sane.bind (sane_asStr _ _ _) fun _ b4 _ h4 => ?_
  have h4 := h4.trans h3
  refine Sane.bind (H b4 h4) fun _ b5 _ h5 => ?_
  exact Sane.bind (sane_asMap _ _ _) fun _ _ _ _ => sane_pure _ _

theorem sane_sig {b : Bytes} (H : ∀ b', b' <:+ b → Sane C 1 (dec b') b') (sig : UInt8)
    (hC : sig = 0x4E ∨ sig = 0x52 ∨ sig = 0x50 ∨ sig = 0x72 → C .typeAssert) :
    Sane C 0 (decodeSig dec sig b) b := by
  have h0 := H b (List.suffix_refl b)
  unfold decodeSig
  by_cases h : sig = NodeSignature
  · rw [if_pos h]; exact sane_node H (hC (.inl h))
  rw [if_neg h]; clear h
  by_cases h : sig = RelationshipSignature
  · rw [if_pos h]; exact sane_rel H (hC (.inr (.inl h)))
  rw [if_neg h]; clear h
  by_cases h : sig = PathSignature
  · rw [if_pos h]; exact sane_path H (hC (.inr (.inr (.inl h))))
  rw [if_neg h]; clear h
  by_cases h : sig = UnboundRelationshipSignature
  · rw [if_pos h]; exact sane_unbound H (hC (.inr (.inr (.inr h))))
  rw [if_neg h]; clear h
  by_cases h : sig = RecordMessageSignature
  · rw [if_pos h]
    exact Sane.mono (k := 1 + (0 + 0)) (Sane.bind h0 fun _ _ _ _ =>
      Sane.bind (sane_asList _ _ _) fun _ _ _ _ => sane_pure _ _) (Nat.zero_le _)
  rw [if_neg h]; clear h
  by_cases h : sig = FailureMessageSignature
  · rw [if_pos h]
    exact Sane.mono (k := 1 + (0 + 0)) (Sane.bind h0 fun _ _ _ _ =>
      Sane.bind (sane_asMap _ _ _) fun _ _ _ _ => sane_pure _ _) (Nat.zero_le _)
  rw [if_neg h]; clear h
  by_cases h : sig = IgnoredMessageSignature
  · rw [if_pos h]; exact sane_pure _ _
  rw [if_neg h]; clear h
  by_cases h : sig = SuccessMessageSignature
  · rw [if_pos h]
    exact Sane.mono (k := 1 + (0 + 0)) (Sane.bind h0 fun _ _ _ _ =>
      Sane.bind (sane_asMap _ _ _) fun _ _ _ _ => sane_pure _ _) (Nat.zero_le _)
  rw [if_neg h]; clear h
  by_cases h : sig = AckFailureMessageSignature
  · rw [if_pos h]; exact sane_pure _ _
  rw [if_neg h]; clear h
  by_cases h : sig = DiscardAllMessageSignature
  · rw [if_pos h]; exact sane_pure _ _
  rw [if_neg h]; clear h
  by_cases h : sig = PullAllMessageSignature
  · rw [if_pos h]; exact sane_pure _ _
  rw [if_neg h]; clear h
  by_cases h : sig = ResetMessageSignature
  · rw [if_pos h]; exact sane_pure _ _
  rw [if_neg h]; trivial

theorem sane_struct {b : Bytes} (H : ∀ b', b' <:+ b → Sane C 1 (dec b') b') (n : Int)
    (hC : ∀ sig ∈ b, sig = 0x4E ∨ sig = 0x52 ∨ sig = 0x50 ∨ sig = 0x72 → C .typeAssert)
    (b' : Bytes) (hb : b' <:+ b) : Sane C 0 (decodeStruct dec n b') b' := by
  refine Sane.mono (k := 1 + 0) (Sane.bind (sane_readByte _ _) fun sig b1 h h1 => ?_) (Nat.zero_le _)
  refine sane_sig (fun b2 h2 => H b2 (h2.trans (h1.trans hb))) sig (hC sig ?_)
  cases b' with
  | nil => simp [readByte] at h
  | cons x b' =>
    simp only [readByte, Except.ok.injEq, Prod.mk.injEq] at h
    rw [← h.1]
    exact hb.subset (by simp)

end

/-- `b` contains one of the markers `ms` followed by a byte with its top bit set. -/
def HasNegSize (ms : List UInt8) (b : Bytes) : Prop :=
  ∃ pre m c post, b = pre ++ m :: c :: post ∧ m ∈ ms ∧ 0x80 ≤ c

/-- Why a decoder run on `b` can panic. -/
def PanicCause (b : Bytes) : Panic → Prop
  | .negNext => HasNegSize [0xD0, 0xD1, 0xD2] b
  | .negMake => HasNegSize [0xD4, 0xD5, 0xD6] b
  | .typeAssert => ∃ sig ∈ b, sig = 0x4E ∨ sig = 0x52 ∨ sig = 0x50 ∨ sig = 0x72
  | _ => False

/-- A negative size was read from bytes starting with a byte that has its top bit set. -/
theorem readSize_neg {w : Nat} {msg : String} {b b' : Bytes} {n : Int} (hw : 0 < w)
    (h : readSize w msg b = .ok (n, b')) (hn : n < 0) : ∃ c post, b = c :: post ∧ 0x80 ≤ c := by
  unfold readSize readRaw at h
  split at h
  · rename_i bs b1 heq
    split at heq
    · rename_i hl
      simp only [Except.ok.injEq, Prod.mk.injEq] at heq h
      obtain ⟨rfl, rfl⟩ := heq
      obtain ⟨rfl, rfl⟩ := h
      cases b with
      | nil => simp at hl; omega
      | cons c post =>
        refine ⟨c, post, rfl, ?_⟩
        rw [UInt8.le_iff_toNat_le]
        obtain ⟨w, rfl⟩ : ∃ k, w = k + 1 := ⟨w - 1, by omega⟩
        simp only [List.take_succ_cons, signedOf, beNat_eq, PackStream.ofBytes, wrapSigned] at hn
        simp only [List.length_cons] at hl
        have hlt : (List.take w post).length = w := by simp; omega
        rw [hlt] at hn
        have hb := ofBytes_lt (List.take w post)
        rw [hlt] at hb
        have hc := c.toNat_lt
        have hp : 256 ^ (w + 1) = 256 * 256 ^ w := by rw [Nat.pow_succ, Nat.mul_comm]
        rw [hp] at hn
        generalize hM : 256 ^ w = M at *
        generalize PackStream.ofBytes (List.take w post) = o at *
        show 128 ≤ c.toNat
        rcases Nat.lt_or_ge c.toNat 128 with hlt' | hge
        · exfalso
          have h1 : c.toNat * M ≤ 127 * M := Nat.mul_le_mul_right M (by omega)
          have h2 : ((c.toNat * M + o : Nat) : Int) % ((256 * M : Nat) : Int) = ((c.toNat * M + o : Nat) : Int) :=
            Int.emod_eq_of_lt (by omega) (by omega)
          rw [h2] at hn
          rw [if_pos (by omega)] at hn
          omega
        · exact hge
    · split at heq <;> simp at heq
  · simp at h
  · simp at h

theorem sane_ite {C : Panic → Prop} {k : Nat} {c : Prop} [Decidable c] {x y : Dec α} {b : Bytes}
    (h1 : c → Sane C k (x b) b) (h2 : ¬ c → Sane C k (y b) b) :
    Sane C k ((if c then x else y) b) b := by
  split
  · rename_i h; exact h1 h
  · rename_i h; exact h2 h

set_option maxRecDepth 8000 in
theorem sane_marker {dec : Dec Val} {b0 b : Bytes} (m : UInt8) (hb : m :: b <:+ b0)
    (H : ∀ b', b' <:+ b → Sane (PanicCause b0) 1 (dec b') b') :
    Sane (PanicCause b0) 0 (decodeMarker dec m b) b := by
  have hr := List.suffix_refl b
  have hsub : b <:+ b0 := (List.suffix_cons m b).trans hb
  have hstr : ∀ {w : Nat} {msg : String}, 0 < w → m ∈ [(0xD0 : UInt8), 0xD1, 0xD2] →
      Sane (PanicCause b0) 0 ((do let size ← readSize w msg; next size : Dec Val) b) b := by
    intro w msg hw hm
    refine Sane.mono (k := w + 0) (Sane.bind (sane_readSize _ _ _) fun n b1 h h1 => ?_) (Nat.zero_le _)
    refine sane_next (fun hn => ?_) _
    obtain ⟨c, post, rfl, hc⟩ := readSize_neg hw h hn
    obtain ⟨pre, rfl⟩ := hb
    exact ⟨pre, m, c, post, rfl, hm, hc⟩
  have hsl : ∀ {w : Nat} {msg : String}, 0 < w → m ∈ [(0xD4 : UInt8), 0xD5, 0xD6] →
      Sane (PanicCause b0) 0 ((do let size ← readSize w msg; decodeSlice dec size : Dec Val) b) b := by
    intro w msg hw hm
    refine Sane.mono (k := w + 0) (Sane.bind (sane_readSize _ _ _) fun n b1 h h1 => ?_) (Nat.zero_le _)
    refine sane_slice H (fun hn => ?_) _ h1
    obtain ⟨c, post, rfl, hc⟩ := readSize_neg hw h hn
    obtain ⟨pre, rfl⟩ := hb
    exact ⟨pre, m, c, post, rfl, hm, hc⟩
  have hmap : ∀ {w : Nat} {msg : String},
      Sane (PanicCause b0) 0 ((do let size ← readSize w msg; decodeMap dec size : Dec Val) b) b := by
    intro w msg
    exact Sane.mono (k := w + 0) (Sane.bind (sane_readSize _ _ _) fun n b1 h h1 => sane_map H _ _ h1) (Nat.zero_le _)
  have hstc : ∀ sig ∈ b, sig = 0x4E ∨ sig = 0x52 ∨ sig = 0x50 ∨ sig = 0x72 →
      PanicCause b0 .typeAssert := fun sig hs h => ⟨sig, hsub.subset hs, h⟩
  have hst : ∀ {w : Nat} {msg : String},
      Sane (PanicCause b0) 0 ((do let size ← readSize w msg; decodeStruct dec size : Dec Val) b) b := by
    intro w msg
    exact Sane.mono (k := w + 0) (Sane.bind (sane_readSize _ _ _) fun n b1 h h1 =>
      sane_struct H _ hstc _ h1) (Nat.zero_le _)
  unfold decodeMarker
  by_cases h : m = NilMarker
  · rw [if_pos h]; exact sane_pure _ _
  rw [if_neg h]; clear h
  by_cases h : m = TrueMarker
  · rw [if_pos h]; exact sane_pure _ _
  rw [if_neg h]; clear h
  by_cases h : m = FalseMarker
  · rw [if_pos h]; exact sane_pure _ _
  rw [if_neg h]; clear h
  refine sane_ite (fun _ => sane_pure _ _) (fun _ => ?_)
  by_cases h : m = Int8Marker
  · rw [if_pos h]; exact (sane_readInt _ _).mono (Nat.zero_le _)
  rw [if_neg h]; clear h
  by_cases h : m = Int16Marker
  · rw [if_pos h]; exact (sane_readInt _ _).mono (Nat.zero_le _)
  rw [if_neg h]; clear h
  by_cases h : m = Int32Marker
  · rw [if_pos h]; exact (sane_readInt _ _).mono (Nat.zero_le _)
  rw [if_neg h]; clear h
  by_cases h : m = Int64Marker
  · rw [if_pos h]; exact (sane_readInt _ _).mono (Nat.zero_le _)
  rw [if_neg h]; clear h
  by_cases h : m = FloatMarker
  · rw [if_pos h]
    exact Sane.mono (k := 8 + 0) (Sane.bind (sane_readRaw _ _) fun _ _ _ _ => sane_pure _ _) (Nat.zero_le _)
  rw [if_neg h]; clear h
  by_cases h : m ≥ TinyStringMarker ∧ m ≤ TinyStringMarker + 0x0F
  · rw [if_pos h]
    exact sane_ite (fun _ => sane_pure _ _) (fun _ => sane_next (fun hn => absurd hn (by omega)) _)
  rw [if_neg h]; clear h
  by_cases h : m = String8Marker
  · rw [if_pos h]; exact hstr (by decide) (by subst h; decide)
  rw [if_neg h]; clear h
  by_cases h : m = String16Marker
  · rw [if_pos h]; exact hstr (by decide) (by subst h; decide)
  rw [if_neg h]; clear h
  by_cases h : m = String32Marker
  · rw [if_pos h]; exact hstr (by decide) (by subst h; decide)
  rw [if_neg h]; clear h
  by_cases h : m ≥ TinySliceMarker ∧ m ≤ TinySliceMarker + 0x0F
  · rw [if_pos h]; exact sane_slice H (fun hn => absurd hn (by omega)) _ hr
  rw [if_neg h]; clear h
  by_cases h : m = Slice8Marker
  · rw [if_pos h]; exact hsl (by decide) (by subst h; decide)
  rw [if_neg h]; clear h
  by_cases h : m = Slice16Marker
  · rw [if_pos h]; exact hsl (by decide) (by subst h; decide)
  rw [if_neg h]; clear h
  by_cases h : m = Slice32Marker
  · rw [if_pos h]; exact hsl (by decide) (by subst h; decide)
  rw [if_neg h]; clear h
  by_cases h : m ≥ TinyMapMarker ∧ m ≤ TinyMapMarker + 0x0F
  · rw [if_pos h]; exact sane_map H _ _ hr
  rw [if_neg h]; clear h
  by_cases h : m = Map8Marker
  · rw [if_pos h]; exact hmap
  rw [if_neg h]; clear h
  by_cases h : m = Map16Marker
  · rw [if_pos h]; exact hmap
  rw [if_neg h]; clear h
  by_cases h : m = Map32Marker
  · rw [if_pos h]; exact hmap
  rw [if_neg h]; clear h
  by_cases h : m ≥ TinyStructMarker ∧ m ≤ TinyStructMarker + 0x0F
  · rw [if_pos h]; exact sane_struct H _ hstc _ hr
  rw [if_neg h]; clear h
  by_cases h : m = Struct8Marker
  · rw [if_pos h]; exact hst
  rw [if_neg h]; clear h
  by_cases h : m = Struct16Marker
  · rw [if_pos h]; exact hst
  rw [if_neg h]; trivial

/-- Every decoder run with enough fuel is sane. -/
theorem decode_sane (b0 : Bytes) (f : Nat) :
    ∀ b, b <:+ b0 → b.length < f → Sane (PanicCause b0) 1 (decode f b) b := by
  induction f with
  | zero => intro b _ h; omega
  | succ f ih =>
    intro b hb hf
    cases b with
    | nil => trivial
    | cons m b =>
      rw [decode_cons]
      simp only [List.length_cons] at hf
      have := sane_marker (dec := decode f) m hb fun b' h' => by
        refine ih b' (h'.trans ((List.suffix_cons m b).trans hb)) ?_
        have := h'.length_le
        omega
      unfold Sane at this ⊢
      split at this <;> first
        | exact ⟨this.1.trans (List.suffix_cons m b), by
            have := this.2; simp only [List.length_cons]; omega⟩
        | exact this

theorem decodePayload_sane (b : Bytes) : Sane (PanicCause b) 1 (decodePayload b) b :=
  decode_sane b (b.length + 1) b (List.suffix_refl b) (Nat.lt_succ_self _)

/-! ## Fuel does not matter -/

/-- Wherever `x` does not run out of fuel, `y` does the same. -/
def Dec.Le (x y : Dec α) : Prop := ∀ b, (x b = .error .fuel → False) → y b = x b

theorem Dec.Le.refl (x : Dec α) : Dec.Le x x := fun _ _ => rfl

theorem Dec.Le.bind {x y : Dec α} {g h : α → Dec β} (h1 : Dec.Le x y) (h2 : ∀ a, Dec.Le (g a) (h a)) :
    Dec.Le (x >>= g) (y >>= h) := by
  intro b hb
  simp only [Dec.bind_eq] at hb ⊢
  cases hx : x b with
  | error e =>
    have : y b = x b := h1 b (fun h => hb (by rw [h]))
    rw [this, hx]
  | ok p =>
    obtain ⟨a, b'⟩ := p
    have : y b = x b := h1 b (fun h => by rw [hx] at h; simp at h)
    rw [this, hx]
    simp only [hx] at hb
    exact h2 a b' hb

section
variable {x y : Dec Val} (hle : Dec.Le x y)
include hle

theorem le_items (n : Nat) : Dec.Le (decodeItems x n) (decodeItems y n) := by
  induction n with
  | zero => exact .refl _
  | succ n ih => exact .bind hle fun _ => .bind ih fun _ => .refl _

theorem le_entries (n : Nat) (m : KVs) : Dec.Le (decodeEntries x n m) (decodeEntries y n m) := by
  induction n generalizing m with
  | zero => exact .refl _
  | succ n ih => exact .bind hle fun _ => .bind hle fun _ => .bind (.refl _) fun _ => ih _

theorem le_slice (n : Int) : Dec.Le (decodeSlice x n) (decodeSlice y n) := by
  unfold decodeSlice
  split
  · exact .refl _
  · exact .bind (le_items hle _) fun _ => .refl _

theorem le_map (n : Int) : Dec.Le (decodeMap x n) (decodeMap y n) :=
  .bind (le_entries hle _ _) fun _ => .refl _

theorem le_sig (sig : UInt8) : Dec.Le (decodeSig x sig) (decodeSig y sig) := by
  unfold decodeSig
  by_cases h : sig = NodeSignature
  · rw [if_pos h, if_pos h]
    exact .bind hle fun _ => .bind (.refl _) fun _ => .bind hle fun _ => .bind (.refl _) fun _ =>
      .bind (.refl _) fun _ => .bind hle fun _ => .refl _
  rw [if_neg h, if_neg h]; clear h
  by_cases h : sig = RelationshipSignature
  · rw [if_pos h, if_pos h]
    exact .bind hle fun _ => .bind (.refl _) fun _ => .bind hle fun _ => .bind (.refl _) fun _ =>
      .bind hle fun _ => .bind (.refl _) fun _ => .bind hle fun _ => .bind (.refl _) fun _ =>
      .bind hle fun _ => .refl _
  rw [if_neg h, if_neg h]; clear h
  by_cases h : sig = PathSignature
  · rw [if_pos h, if_pos h]
    exact .bind hle fun _ => .bind (.refl _) fun _ => .bind (.refl _) fun _ =>
      .bind hle fun _ => .bind (.refl _) fun _ => .bind (.refl _) fun _ => .bind hle fun _ => .refl _
  rw [if_neg h, if_neg h]; clear h
  by_cases h : sig = UnboundRelationshipSignature
  · rw [if_pos h, if_pos h]
    exact .bind hle fun _ => .bind (.refl _) fun _ => .bind hle fun _ => .bind (.refl _) fun _ =>
      .bind hle fun _ => .refl _
  rw [if_neg h, if_neg h]; clear h
  by_cases h : sig = RecordMessageSignature
  · rw [if_pos h, if_pos h]; exact .bind hle fun _ => .refl _
  rw [if_neg h, if_neg h]; clear h
  by_cases h : sig = FailureMessageSignature
  · rw [if_pos h, if_pos h]; exact .bind hle fun _ => .refl _
  rw [if_neg h, if_neg h]; clear h
  by_cases h : sig = IgnoredMessageSignature
  · rw [if_pos h, if_pos h]; exact .refl _
  rw [if_neg h, if_neg h]; clear h
  by_cases h : sig = SuccessMessageSignature
  · rw [if_pos h, if_pos h]; exact .bind hle fun _ => .refl _
  rw [if_neg h, if_neg h]; exact .refl _

theorem le_struct (n : Int) : Dec.Le (decodeStruct x n) (decodeStruct y n) :=
  .bind (.refl _) fun _ => le_sig hle _

theorem le_marker (m : UInt8) : Dec.Le (decodeMarker x m) (decodeMarker y m) := by
  unfold decodeMarker
  iterate 9
    refine ite_le (.refl _) ?_
  refine ite_le (.refl _) ?_
  iterate 3 refine ite_le (.refl _) ?_
  refine ite_le (le_slice hle _) ?_
  iterate 3 refine ite_le (.bind (.refl _) fun _ => le_slice hle _) ?_
  refine ite_le (le_map hle _) ?_
  iterate 3 refine ite_le (.bind (.refl _) fun _ => le_map hle _) ?_
  refine ite_le (le_struct hle _) ?_
  iterate 2 refine ite_le (.bind (.refl _) fun _ => le_struct hle _) ?_
  exact .refl _
where
  ite_le {c : Prop} [Decidable c] {a b a' b' : Dec Val} (h1 : Dec.Le a a') (h2 : Dec.Le b b') :
      Dec.Le (if c then a else b) (if c then a' else b') := by
    split
    · exact h1
    · exact h2

end

theorem decode_le_succ (f : Nat) : Dec.Le (decode f) (decode (f + 1)) := by
  induction f with
  | zero => intro b h; exact (h rfl).elim
  | succ f ih => exact .bind (.refl _) fun _ => le_marker ih _

/-- The result does not depend on the fuel once it exceeds the length of the buffer. -/
theorem decode_fuel (b : Bytes) (f : Nat) (h : b.length < f) : decode f b = decodePayload b := by
  unfold decodePayload
  obtain ⟨k, rfl⟩ : ∃ k, f = b.length + 1 + k := ⟨f - (b.length + 1), by omega⟩
  clear h
  induction k with
  | zero => rfl
  | succ k ih =>
    rw [← ih]
    refine decode_le_succ _ b fun h => ?_
    have := decode_sane b (b.length + 1 + k) b (List.suffix_refl b) (by omega)
    rw [show decode (b.length + 1 + k) b = .error .fuel from h] at this
    exact this

end Bolt
