import Verif.Props.Lenient
import Verif.Spec.Chokes

/-! # Which payloads make the decoder panic (auxiliary lemmas for C14) -/

namespace Bolt
open PackStream Lenient

/-- The decoder panics on these bytes. -/
def Panics {α : Type} (d : Dec α) (b : Bytes) : Prop := ∃ k, d b = .error (.panic k)

section
variable {α β γ : Type}

theorem bind_panics {x : Dec α} {g : α → Dec β} {b : Bytes} :
    Panics (x >>= g) b ↔ Panics x b ∨ ∃ a c, x b = .ok (a, c) ∧ Panics (g a) c := by
  unfold Panics
  rw [Dec.bind_eq]
  cases h : x b with
  | error e => cases e <;> simp
  | ok a => obtain ⟨a, c⟩ := a; simp

theorem pure_panics {a : α} {b : Bytes} : ¬ Panics (Dec.pure a) b := fun ⟨_, h⟩ => by cases h
theorem throw_panics {e : GoErr} {b : Bytes} : ¬ Panics (Dec.throw e : Dec α) b := fun ⟨_, h⟩ => by cases h

theorem bind_assoc' (x : Dec α) (g : α → Dec β) (k : β → Dec γ) : ((x >>= g) >>= k) = x >>= fun a => g a >>= k := by
  funext b
  rw [Dec.bind_eq, Dec.bind_eq, Dec.bind_eq]
  cases h : x b with
  | error e => rfl
  | ok a => simp [Dec.bind_eq]

theorem readRaw_panics {w : Nat} {b : Bytes} : ¬ Panics (readRaw w) b := by
  rintro ⟨k, h⟩
  unfold readRaw at h
  split at h
  · cases h
  · split at h <;> cases h

theorem readSize_panics {w : Nat} {m : String} {b : Bytes} : ¬ Panics (readSize w m) b := by
  rintro ⟨k, h⟩
  unfold readSize at h
  cases hr : readRaw w b with
  | ok a => rw [hr] at h; cases h
  | error e => rw [hr] at h; cases e <;> cases h; exact readRaw_panics ⟨_, hr⟩

theorem next_panics {n : Nat} {b : Bytes} : ¬ Panics (next n) b := by
  rintro ⟨k, h⟩
  unfold next at h
  rw [if_neg (by omega)] at h
  cases h

end

/-! ## Fields -/

section
variable {α β : Type} {dec : Dec Val}

/-- What a check of a field does. -/
def Checks (f : Field) (chk : Val → Dec α) : Prop :=
  ∀ v, (f.fits v ∧ ¬ f.unchecked v ∧ ∃ a, ∀ c, chk v c = .ok (a, c)) ∨ (¬ f.fits v ∧ f.unchecked v ∧ ∀ c, Panics (chk v) c) ∨
    (¬ f.fits v ∧ ¬ f.unchecked v ∧ ∀ c, ∃ e, chk v c = .error (.err e))

theorem step_panics {f : Field} {chk : Val → Dec α} (hc : Checks f chk) {g : α → Dec β} {P : Bytes → Prop} (hg : ∀ a c, Panics (g a) c ↔ P c)
    (b : Bytes) : Panics (dec >>= fun v => chk v >>= g) b ↔ Panics dec b ∨ ∃ v c, dec b = .ok (v, c) ∧ (f.unchecked v ∨ f.fits v ∧ P c) := by
  rw [bind_panics]
  refine or_congr Iff.rfl ⟨?_, ?_⟩
  · rintro ⟨v, c, h1, h2⟩
    refine ⟨v, c, h1, ?_⟩
    rw [bind_panics] at h2
    rcases hc v with ⟨h3, _, a, h4⟩ | ⟨_, h3, _⟩ | ⟨_, _, h4⟩
    · rcases h2 with ⟨k, h2⟩ | ⟨a', c', h5, h6⟩
      · rw [h4] at h2; cases h2
      · rw [h4] at h5; cases h5
        exact .inr ⟨h3, (hg _ _).mp h6⟩
    · exact .inl h3
    · obtain ⟨e, h4⟩ := h4 c
      rcases h2 with ⟨k, h2⟩ | ⟨a', c', h5, _⟩
      · rw [h4] at h2; cases h2
      · rw [h4] at h5; cases h5
  · rintro ⟨v, c, h1, h2⟩
    refine ⟨v, c, h1, bind_panics.mpr ?_⟩
    rcases hc v with ⟨h3, h5, a, h4⟩ | ⟨h5, h3, h4⟩ | ⟨h3, h5, h4⟩
    · rcases h2 with h2 | ⟨_, h2⟩
      · exact absurd h2 h5
      · exact .inr ⟨a, c, h4 c, (hg _ _).mpr h2⟩
    · exact .inl (h4 c)
    · rcases h2 with h2 | ⟨h2, _⟩
      · exact absurd h2 h5
      · exact absurd h2 h3

/-- The fields are read one after the other and checked. -/
def FieldsPanic (dec : Dec Val) : List Field → Bytes → Prop
  | [], _ => False
  | f :: fs, b => Panics dec b ∨ ∃ v c, dec b = .ok (v, c) ∧ (f.unchecked v ∨ f.fits v ∧ FieldsPanic dec fs c)

theorem last_panics {a : α} (b : Bytes) : Panics (Dec.pure a : Dec α) b ↔ FieldsPanic dec [] b :=
  ⟨fun h => absurd h pure_panics, fun h => h.elim⟩

theorem checks_int : Checks .int assertInt64 := by
  intro v
  by_cases h : ∃ n, v = .int .int64 n
  · obtain ⟨n, rfl⟩ := h
    exact .inl ⟨⟨n, rfl⟩, fun h => h ⟨n, rfl⟩, n, fun _ => rfl⟩
  · refine .inr (.inl ⟨h, h, fun c => ?_⟩)
    cases v with
    | int k n => cases k <;> first | exact absurd ⟨n, rfl⟩ h | exact ⟨_, rfl⟩
    | _ => exact ⟨_, rfl⟩

theorem checks_str (m : String) : Checks .str (asStr m) := by
  intro v
  cases v with
  | str s => exact .inl ⟨⟨s, rfl⟩, id, s, fun _ => rfl⟩
  | _ => exact .inr (.inr ⟨fun ⟨_, h⟩ => (by cases h), id, fun _ => ⟨_, rfl⟩⟩)

theorem checks_list (m : String) : Checks .list (asList m) := by
  intro v
  cases v with
  | list s => exact .inl ⟨⟨s, rfl⟩, id, s, fun _ => rfl⟩
  | _ => exact .inr (.inr ⟨fun ⟨_, h⟩ => (by cases h), id, fun _ => ⟨_, rfl⟩⟩)

theorem checks_map (m : String) : Checks .map (asMap m) := by
  intro v
  cases v with
  | map s => exact .inl ⟨⟨s, rfl⟩, id, s, fun _ => rfl⟩
  | _ => exact .inr (.inr ⟨fun ⟨_, h⟩ => (by cases h), id, fun _ => ⟨_, rfl⟩⟩)

theorem sliceToString_some (xs : List Val) : (∃ ss, allStr xs = some ss ∧ ∀ c, sliceToString xs c = .ok (ss, c)) ∨
    (allStr xs = none ∧ ∀ c, ∃ e, sliceToString xs c = .error (.err e)) := by
  induction xs with
  | nil => exact .inl ⟨[], rfl, fun _ => rfl⟩
  | cons x xs ih =>
    cases x with
    | str s =>
      rcases ih with ⟨ss, h1, h2⟩ | ⟨h1, h2⟩
      · exact .inl ⟨s :: ss, by simp [allStr, h1], fun c => by simp [sliceToString, h2]⟩
      · refine .inr ⟨by simp [allStr, h1], fun c => ?_⟩
        obtain ⟨e, h⟩ := h2 c
        exact ⟨e, by simp [sliceToString, h]⟩
    | _ => exact .inr ⟨rfl, fun _ => ⟨_, rfl⟩⟩

theorem sliceToNode_some (xs : List Val) : (allNode xs = true ∧ ∀ c, sliceToNode xs c = .ok (xs, c)) ∨
    (allNode xs = false ∧ ∀ c, ∃ e, sliceToNode xs c = .error (.err e)) := by
  induction xs with
  | nil => exact .inl ⟨rfl, fun _ => rfl⟩
  | cons x xs ih =>
    cases x with
    | node id ls m =>
      rcases ih with ⟨h1, h2⟩ | ⟨h1, h2⟩
      · exact .inl ⟨by simp [allNode, h1], fun c => by simp [sliceToNode, h2]⟩
      · refine .inr ⟨by simp [allNode, h1], fun c => ?_⟩
        obtain ⟨e, h⟩ := h2 c
        exact ⟨e, by simp [sliceToNode, h]⟩
    | _ => exact .inr ⟨rfl, fun _ => ⟨_, rfl⟩⟩

theorem sliceToUnbound_some (xs : List Val) : (allUnbound xs = true ∧ ∀ c, sliceToUnbound xs c = .ok (xs, c)) ∨
    (allUnbound xs = false ∧ ∀ c, ∃ e, sliceToUnbound xs c = .error (.err e)) := by
  induction xs with
  | nil => exact .inl ⟨rfl, fun _ => rfl⟩
  | cons x xs ih =>
    cases x with
    | unbound id t m =>
      rcases ih with ⟨h1, h2⟩ | ⟨h1, h2⟩
      · exact .inl ⟨by simp [allUnbound, h1], fun c => by simp [sliceToUnbound, h2]⟩
      · refine .inr ⟨by simp [allUnbound, h1], fun c => ?_⟩
        obtain ⟨e, h⟩ := h2 c
        exact ⟨e, by simp [sliceToUnbound, h]⟩
    | _ => exact .inr ⟨rfl, fun _ => ⟨_, rfl⟩⟩

theorem sliceToInt_some (xs : List Val) : (∃ is, allInt xs = some is ∧ ∀ c, sliceToInt xs c = .ok (is, c)) ∨
    (allInt xs = none ∧ ∀ c, Panics (sliceToInt xs) c) := by
  induction xs with
  | nil => exact .inl ⟨[], rfl, fun _ => rfl⟩
  | cons x xs ih =>
    cases x with
    | int k s =>
      cases k with
      | int64 =>
        rcases ih with ⟨ss, h1, h2⟩ | ⟨h1, h2⟩
        · exact .inl ⟨s :: ss, by simp [allInt, h1], fun c => by simp [sliceToInt, h2]⟩
        · refine .inr ⟨by simp [allInt, h1], fun c => ?_⟩
          obtain ⟨e, h⟩ := h2 c
          exact ⟨e, by simp [sliceToInt, h]⟩
      | _ => exact .inr ⟨rfl, fun _ => ⟨_, rfl⟩⟩
    | _ => exact .inr ⟨rfl, fun _ => ⟨_, rfl⟩⟩

theorem not_list_err {m : String} {g : List Val → Dec α} {v : Val} (h : ∀ xs, v ≠ .list xs) (c : Bytes) :
    ∃ e, (asList m v >>= g) c = .error (.err e) := by
  cases v with
  | list xs => exact absurd rfl (h xs)
  | _ => exact ⟨_, rfl⟩

theorem list_chk {m : String} {g : List Val → Dec α} {xs : List Val} (c : Bytes) : (asList m (.list xs) >>= g) c = g xs c := rfl

theorem checks_strs (m : String) : Checks .strs (fun v => asList m v >>= sliceToString) := by
  intro v
  by_cases hv : ∃ xs, v = .list xs
  · obtain ⟨xs, rfl⟩ := hv
    rcases sliceToString_some xs with ⟨ss, h1, h2⟩ | ⟨h1, h2⟩
    · exact .inl ⟨⟨xs, ss, rfl, h1⟩, id, ss, fun c => h2 c⟩
    · refine .inr (.inr ⟨?_, id, fun c => h2 c⟩)
      rintro ⟨_, _, h3, h4⟩; cases h3; rw [h1] at h4; cases h4
  · exact .inr (.inr ⟨fun ⟨xs, _, h, _⟩ => hv ⟨xs, h⟩, id, fun c => not_list_err (fun xs h => hv ⟨xs, h⟩) c⟩)

theorem checks_nodes (m : String) : Checks .nodes (fun v => asList m v >>= sliceToNode) := by
  intro v
  by_cases hv : ∃ xs, v = .list xs
  · obtain ⟨xs, rfl⟩ := hv
    rcases sliceToNode_some xs with ⟨h1, h2⟩ | ⟨h1, h2⟩
    · exact .inl ⟨⟨xs, rfl, h1⟩, id, xs, fun c => h2 c⟩
    · refine .inr (.inr ⟨?_, id, fun c => h2 c⟩)
      rintro ⟨_, h3, h4⟩; cases h3; rw [h1] at h4; cases h4
  · exact .inr (.inr ⟨fun ⟨xs, h, _⟩ => hv ⟨xs, h⟩, id, fun c => not_list_err (fun xs h => hv ⟨xs, h⟩) c⟩)

theorem checks_unbounds (m : String) : Checks .unbounds (fun v => asList m v >>= sliceToUnbound) := by
  intro v
  by_cases hv : ∃ xs, v = .list xs
  · obtain ⟨xs, rfl⟩ := hv
    rcases sliceToUnbound_some xs with ⟨h1, h2⟩ | ⟨h1, h2⟩
    · exact .inl ⟨⟨xs, rfl, h1⟩, id, xs, fun c => h2 c⟩
    · refine .inr (.inr ⟨?_, id, fun c => h2 c⟩)
      rintro ⟨_, h3, h4⟩; cases h3; rw [h1] at h4; cases h4
  · exact .inr (.inr ⟨fun ⟨xs, h, _⟩ => hv ⟨xs, h⟩, id, fun c => not_list_err (fun xs h => hv ⟨xs, h⟩) c⟩)

theorem checks_ints (m : String) : Checks .ints (fun v => asList m v >>= sliceToInt) := by
  intro v
  by_cases hv : ∃ xs, v = .list xs
  · obtain ⟨xs, rfl⟩ := hv
    rcases sliceToInt_some xs with ⟨is, h1, h2⟩ | ⟨h1, h2⟩
    · refine .inl ⟨⟨xs, is, rfl, h1⟩, ?_, is, fun c => h2 c⟩
      rintro ⟨_, h3, h4⟩; cases h3; rw [h1] at h4; cases h4
    · refine .inr (.inl ⟨?_, ⟨xs, rfl, h1⟩, fun c => ?_⟩)
      · rintro ⟨_, _, h3, h4⟩; cases h3; rw [h1] at h4; cases h4
      · obtain ⟨k, h⟩ := h2 c
        exact ⟨k, h⟩
  · exact .inr (.inr ⟨fun ⟨xs, _, h, _⟩ => hv ⟨xs, h⟩, fun ⟨xs, h, _⟩ => hv ⟨xs, h⟩, fun c => not_list_err (fun xs h => hv ⟨xs, h⟩) c⟩)

theorem node_panics (b : Bytes) : Panics (decodeNode dec) b ↔ FieldsPanic dec [.int, .strs, .map] b := by
  unfold decodeNode
  refine step_panics checks_int (fun _ c => ?_) b
  simp only [← bind_assoc' (asList _ _) sliceToString]
  refine step_panics (checks_strs _) (fun _ c => ?_) c
  exact step_panics (checks_map _) (fun _ c => last_panics c) c

theorem rel_panics (b : Bytes) : Panics (decodeRelationship dec) b ↔ FieldsPanic dec [.int, .int, .int, .str, .map] b := by
  unfold decodeRelationship
  refine step_panics checks_int (fun _ c => ?_) b
  refine step_panics checks_int (fun _ c => ?_) c
  refine step_panics checks_int (fun _ c => ?_) c
  refine step_panics (checks_str _) (fun _ c => ?_) c
  exact step_panics (checks_map _) (fun _ c => last_panics c) c

theorem unbound_panics (b : Bytes) : Panics (decodeUnbound dec) b ↔ FieldsPanic dec [.int, .str, .map] b := by
  unfold decodeUnbound
  refine step_panics checks_int (fun _ c => ?_) b
  refine step_panics (checks_str _) (fun _ c => ?_) c
  exact step_panics (checks_map _) (fun _ c => last_panics c) c

theorem path_panics (b : Bytes) : Panics (decodePath dec) b ↔ FieldsPanic dec [.nodes, .unbounds, .ints] b := by
  unfold decodePath
  simp only [← bind_assoc' (asList _ _)]
  refine step_panics (checks_nodes _) (fun _ c => ?_) b
  refine step_panics (checks_unbounds _) (fun _ c => ?_) c
  exact step_panics (checks_ints _) (fun _ c => last_panics c) c

theorem record_panics (b : Bytes) : Panics (decodeRecord dec) b ↔ FieldsPanic dec [.list] b :=
  step_panics (checks_list _) (fun _ c => last_panics c) b
theorem success_panics (b : Bytes) : Panics (decodeSuccess dec) b ↔ FieldsPanic dec [.map] b :=
  step_panics (checks_map _) (fun _ c => last_panics c) b
theorem failure_panics (b : Bytes) : Panics (decodeFailure dec) b ↔ FieldsPanic dec [.map] b :=
  step_panics (checks_map _) (fun _ c => last_panics c) b

theorem sig_panics (sig : UInt8) (b : Bytes) : Panics (decodeSig dec sig) b ↔ FieldsPanic dec (structFields sig) b := by
  unfold decodeSig
  by_cases h : sig = NodeSignature
  · rw [if_pos h, h]; exact node_panics b
  rw [if_neg h]
  by_cases h1 : sig = RelationshipSignature
  · rw [if_pos h1, h1]; exact rel_panics b
  rw [if_neg h1]
  by_cases h2 : sig = PathSignature
  · rw [if_pos h2, h2]; exact path_panics b
  rw [if_neg h2]
  by_cases h3 : sig = UnboundRelationshipSignature
  · rw [if_pos h3, h3]; exact unbound_panics b
  rw [if_neg h3]
  by_cases h4 : sig = RecordMessageSignature
  · rw [if_pos h4, h4]; exact record_panics b
  rw [if_neg h4]
  by_cases h5 : sig = FailureMessageSignature
  · rw [if_pos h5, h5]; exact failure_panics b
  rw [if_neg h5]
  by_cases h6 : sig = IgnoredMessageSignature
  · rw [if_pos h6, h6]; exact last_panics b
  rw [if_neg h6]
  by_cases h7 : sig = SuccessMessageSignature
  · rw [if_pos h7, h7]; exact success_panics b
  rw [if_neg h7]
  have hs : structFields sig = [] := by
    unfold structFields
    rw [if_neg (c := sig = 0x4E) h, if_neg (c := sig = 0x52) h1, if_neg (c := sig = 0x72) h3, if_neg (c := sig = 0x50) h2,
      if_neg (c := sig = 0x71) h4, if_neg (c := sig = 0x70) h7, if_neg (c := sig = 0x7F) h5]
  rw [hs]
  by_cases h8 : sig = AckFailureMessageSignature
  · rw [if_pos h8]; exact last_panics b
  rw [if_neg h8]
  by_cases h8 : sig = DiscardAllMessageSignature
  · rw [if_pos h8]; exact last_panics b
  rw [if_neg h8]
  by_cases h8 : sig = PullAllMessageSignature
  · rw [if_pos h8]; exact last_panics b
  rw [if_neg h8]
  by_cases h8 : sig = ResetMessageSignature
  · rw [if_pos h8]; exact last_panics b
  rw [if_neg h8]
  exact ⟨fun h => absurd h throw_panics, fun h => h.elim⟩

end

/-! ## From the panic to its cause -/

section
variable {dec : Dec Val}

/-- The fields before the panic. -/
theorem fields_split (H : Expl dec) : ∀ (fs : List Field) (b : Bytes), FieldsPanic dec fs b →
    ∃ ps xs c, ReadsList ps b c ∧ ofPSList ps = some xs ∧
      ((Fit fs xs ∧ xs.length < fs.length ∧ Panics dec c) ∨
       ∃ ys y f, xs = ys ++ [y] ∧ Fit fs ys ∧ fs[ys.length]? = some f ∧ f.unchecked y)
  | [], b, h => h.elim
  | f :: fs, b, h => by
    rcases h with h | ⟨v, c, h1, h2 | ⟨h2, h3⟩⟩
    · exact ⟨[], [], b, by simp [ReadsList], rfl, .inl ⟨trivial, by simp, h⟩⟩
    · obtain ⟨p, h4, h5⟩ := H _ _ _ h1
      exact ⟨[p], [v], c, by simp only [ReadsList]; exact ⟨c, h4, rfl⟩, by simp [ofPSList, h5], .inr ⟨[], v, f, rfl, trivial, rfl, h2⟩⟩
    · obtain ⟨p, h4, h5⟩ := H _ _ _ h1
      obtain ⟨ps, xs, d, h6, h7, h8⟩ := fields_split H fs c h3
      refine ⟨p :: ps, v :: xs, d, by simp only [ReadsList]; exact ⟨c, h4, h6⟩, by simp [ofPSList, h5, h7], ?_⟩
      rcases h8 with ⟨h8, h9, h10⟩ | ⟨ys, y, g, rfl, h8, h9, h10⟩
      · exact .inl ⟨⟨h2, h8⟩, by simpa using h9, h10⟩
      · exact .inr ⟨v :: ys, y, g, rfl, ⟨h2, h8⟩, by simpa using h9, h10⟩

variable (H : Expl dec) (G : ∀ b, Panics dec b → Chokes b)
include H G

theorem struct_chokes {n : Nat} {k : Int} {hd b : Bytes} (hh : Hdr fullRange .struct n hd) (h : Panics (decodeStruct dec k) b) : Chokes (hd ++ b) := by
  unfold decodeStruct at h
  rcases bind_panics.mp h with ⟨k, h⟩ | ⟨sig, c, h1, h2⟩
  · cases b <;> cases h
  · cases b with
    | nil => cases h1
    | cons x b =>
      cases h1
      obtain ⟨ps, xs, d, h3, h4, h5⟩ := fields_split H _ _ ((sig_panics sig c).mp h2)
      rcases h5 with ⟨h5, h6, h7⟩ | ⟨ys, y, f, rfl, h5, h6, h7⟩
      · exact .field hh h3 h4 h5 h6 (G _ h7)
      · exact .wrong hh h3 h4 h5 h6 h7

theorem items_chokes : ∀ (n : Nat) (b : Bytes), Panics (decodeItems dec n) b →
    ∃ ps xs c, ReadsList ps b c ∧ ofPSList ps = some xs ∧ ps.length < n ∧ Chokes c
  | 0, b, h => absurd h pure_panics
  | n + 1, b, h => by
    unfold decodeItems at h
    rcases bind_panics.mp h with h | ⟨v, c, h1, h2⟩
    · exact ⟨[], [], b, by simp [ReadsList], rfl, by simp, G _ h⟩
    · rcases bind_panics.mp h2 with h2 | ⟨_, _, _, h2⟩
      · obtain ⟨p, h4, h5⟩ := H _ _ _ h1
        obtain ⟨ps, xs, d, h6, h7, h8, h9⟩ := items_chokes n c h2
        exact ⟨p :: ps, v :: xs, d, by simp only [ReadsList]; exact ⟨c, h4, h6⟩, by simp [ofPSList, h5, h7], by simpa using h8, h9⟩
      · exact absurd h2 pure_panics

theorem slice_chokes {n : Nat} {hd b : Bytes} (hh : Hdr halfRange .list n hd) (h : Panics (decodeSlice dec n) b) : Chokes (hd ++ b) := by
  unfold decodeSlice at h
  rw [if_neg (by omega)] at h
  rcases bind_panics.mp h with h | ⟨_, _, _, h2⟩
  · obtain ⟨ps, xs, c, h1, h2, h3, h4⟩ := items_chokes H G _ _ h
    exact .item hh h1 h2 h3 h4
  · exact absurd h2 pure_panics

theorem entries_chokes : ∀ (n : Nat) (m : KVs) (b : Bytes), Panics (decodeEntries dec n m) b →
    ∃ ps xs c, ReadsKVs ps b c ∧ ofPSKVs ps = some xs ∧ ps.length < n ∧ (Chokes c ∨ ∃ k x d, Reads k c d ∧ ofPS k = some x ∧ Chokes d)
  | 0, m, b, h => absurd h pure_panics
  | n + 1, m, b, h => by
    unfold decodeEntries at h
    rcases bind_panics.mp h with h | ⟨v, c, h1, h2⟩
    · exact ⟨[], [], b, by simp [ReadsKVs], rfl, by simp, .inl (G _ h)⟩
    · obtain ⟨p, h4, h5⟩ := H _ _ _ h1
      rcases bind_panics.mp h2 with h2 | ⟨w, d, h6, h2⟩
      · exact ⟨[], [], b, by simp [ReadsKVs], rfl, by simp, .inr ⟨p, v, c, h4, h5, G _ h2⟩⟩
      · rcases bind_panics.mp h2 with ⟨k, h2⟩ | ⟨s, d', h7, h8⟩
        · cases v <;> cases h2
        · obtain ⟨rfl, rfl⟩ := asKey_ok h7
          obtain rfl := ofPS_str h5
          obtain ⟨q, h9, h10⟩ := H _ _ _ h6
          obtain ⟨ps, xs, e, h11, h12, h13, h14⟩ := entries_chokes n _ _ h8
          exact ⟨(s, q) :: ps, (s, w) :: xs, e, by simp only [ReadsKVs]; exact ⟨_, _, h4, h9, h11⟩, by simp [ofPSKVs, h10, h12], by simpa using h13, h14⟩

theorem map_chokes {n : Nat} {hd b : Bytes} (hh : Hdr halfRange .map n hd) (h : Panics (decodeMap dec n) b) : Chokes (hd ++ b) := by
  unfold decodeMap at h
  rcases bind_panics.mp h with h | ⟨_, _, _, h2⟩
  · obtain ⟨ps, xs, c, h1, h2, h3, h4 | ⟨k, x, d, h4, h5, h6⟩⟩ := entries_chokes H G _ _ _ h
    · exact .key hh h1 h2 h3 h4
    · exact .value hh h1 h2 h3 h4 h5 h6
  · exact absurd h2 pure_panics

omit H G in
theorem str_field_chokes {w : Nat} {m : UInt8} {msg : String} {b : Bytes} (hw : 0 < w) (hm : Kind.str.marker w = some m)
    (h : Panics (readSize w msg >>= fun size => next size) b) : Chokes (m :: b) := by
  rcases bind_panics.mp h with h | ⟨n, c, h1, h2⟩
  · exact absurd h readSize_panics
  · obtain ⟨a, rfl, h4, rfl⟩ := readSize_ok h1
    by_cases hn : 0 ≤ signedOf w a
    · obtain ⟨n, h5, h6, h7⟩ := (size_field hw h4).1 hn
      rw [h5] at h2
      exact absurd h2 next_panics
    · obtain ⟨n, h5, h6⟩ := (size_field hw h4).2 (by omega)
      exact .size c (.inl rfl) hm h5 h6

theorem list_field_chokes {w : Nat} {m : UInt8} {msg : String} {b : Bytes} (hw : 0 < w) (hm : Kind.list.marker w = some m)
    (h : Panics (readSize w msg >>= fun size => decodeSlice dec size) b) : Chokes (m :: b) := by
  rcases bind_panics.mp h with h | ⟨n, c, h1, h2⟩
  · exact absurd h readSize_panics
  · obtain ⟨a, rfl, h4, rfl⟩ := readSize_ok h1
    by_cases hn : 0 ≤ signedOf w a
    · obtain ⟨n, h5, h6, h7⟩ := (size_field hw h4).1 hn
      rw [h5] at h2
      exact slice_chokes (hd := m :: a) H G (.inr ⟨w, m, a, hm, h6, h7, rfl⟩) h2
    · obtain ⟨n, h5, h6⟩ := (size_field hw h4).2 (by omega)
      exact .size c (.inr rfl) hm h5 h6

theorem map_field_chokes {w : Nat} {m : UInt8} {msg : String} {b : Bytes} (hw : 0 < w) (hm : Kind.map.marker w = some m)
    (h : Panics (readSize w msg >>= fun size => decodeMap dec size) b) : Chokes (m :: b) := by
  rcases bind_panics.mp h with h | ⟨n, c, h1, h2⟩
  · exact absurd h readSize_panics
  · obtain ⟨a, rfl, h4, rfl⟩ := readSize_ok h1
    by_cases hn : 0 ≤ signedOf w a
    · obtain ⟨n, h5, h6, h7⟩ := (size_field hw h4).1 hn
      rw [h5] at h2
      exact map_chokes (hd := m :: a) H G (.inr ⟨w, m, a, hm, h6, h7, rfl⟩) h2
    · exfalso
      unfold decodeMap at h2
      rw [show (signedOf w a).toNat = 0 by omega] at h2
      rcases bind_panics.mp h2 with h2 | ⟨_, _, _, h2⟩ <;> exact pure_panics h2

theorem struct_field_chokes {w : Nat} {m : UInt8} {msg : String} {b : Bytes} (hm : Kind.struct.marker w = some m)
    (h : Panics (readSize w msg >>= fun size => decodeStruct dec size) b) : Chokes (m :: b) := by
  rcases bind_panics.mp h with h | ⟨n, c, h1, h2⟩
  · exact absurd h readSize_panics
  · obtain ⟨a, rfl, h4, rfl⟩ := readSize_ok h1
    exact struct_chokes (hd := m :: a) H G (.inr ⟨w, m, a, hm, ⟨h4, rfl⟩, by rw [← h4]; exact ofBytes_lt a, rfl⟩) h2

theorem marker_chokes (m : UInt8) {b : Bytes} (h : Panics (decodeMarker dec m) b) : Chokes (m :: b) := by
  have hi : ∀ w, ¬ Panics (readInt w) b := by
    intro w h
    rcases bind_panics.mp h with h | ⟨_, _, _, h⟩
    · exact readRaw_panics h
    · exact pure_panics h
  unfold decodeMarker at h
  by_cases hm : m = NilMarker
  · rw [if_pos hm] at h; exact absurd h pure_panics
  rw [if_neg hm] at h; clear hm
  by_cases hm : m = TrueMarker
  · rw [if_pos hm] at h; exact absurd h pure_panics
  rw [if_neg hm] at h; clear hm
  by_cases hm : m = FalseMarker
  · rw [if_pos hm] at h; exact absurd h pure_panics
  rw [if_neg hm] at h; clear hm
  by_cases hm : wrapSigned 1 m.toNat ≥ -16 ∧ wrapSigned 1 m.toNat ≤ 127
  · rw [if_pos hm] at h; exact absurd h pure_panics
  rw [if_neg hm] at h; clear hm
  by_cases hm : m = Int8Marker
  · rw [if_pos hm] at h; exact absurd h (hi 1)
  rw [if_neg hm] at h; clear hm
  by_cases hm : m = Int16Marker
  · rw [if_pos hm] at h; exact absurd h (hi 2)
  rw [if_neg hm] at h; clear hm
  by_cases hm : m = Int32Marker
  · rw [if_pos hm] at h; exact absurd h (hi 4)
  rw [if_neg hm] at h; clear hm
  by_cases hm : m = Int64Marker
  · rw [if_pos hm] at h; exact absurd h (hi 8)
  rw [if_neg hm] at h; clear hm
  by_cases hm : m = FloatMarker
  · rw [if_pos hm] at h
    rcases bind_panics.mp h with h | ⟨_, _, _, h⟩
    · exact absurd h readRaw_panics
    · exact absurd h pure_panics
  rw [if_neg hm] at h; clear hm
  by_cases hm : m ≥ TinyStringMarker ∧ m ≤ TinyStringMarker + 0x0F
  · rw [if_pos hm] at h
    simp only [] at h
    split at h
    · exact absurd h pure_panics
    · exact absurd h next_panics
  rw [if_neg hm] at h; clear hm
  by_cases hm : m = String8Marker
  · rw [if_pos hm] at h; subst hm; exact str_field_chokes (w := 1) (by decide) rfl h
  rw [if_neg hm] at h; clear hm
  by_cases hm : m = String16Marker
  · rw [if_pos hm] at h; subst hm; exact str_field_chokes (w := 2) (by decide) rfl h
  rw [if_neg hm] at h; clear hm
  by_cases hm : m = String32Marker
  · rw [if_pos hm] at h; subst hm; exact str_field_chokes (w := 4) (by decide) rfl h
  rw [if_neg hm] at h; clear hm
  by_cases hm : m ≥ TinySliceMarker ∧ m ≤ TinySliceMarker + 0x0F
  · rw [if_pos hm] at h
    have hm : 0x90 ≤ m.toNat ∧ m.toNat ≤ 0x9F := ⟨UInt8.le_iff_toNat_le.1 hm.1, UInt8.le_iff_toNat_le.1 hm.2⟩
    exact slice_chokes (hd := [m]) H G (tiny_hdr halfRange (by simp only [Kind.tiny, show TinySliceMarker.toNat = 0x90 from rfl]; omega) (by simp only [show TinySliceMarker.toNat = 0x90 from rfl]; omega)) h
  rw [if_neg hm] at h; clear hm
  by_cases hm : m = Slice8Marker
  · rw [if_pos hm] at h; subst hm; exact list_field_chokes H G (w := 1) (by decide) rfl h
  rw [if_neg hm] at h; clear hm
  by_cases hm : m = Slice16Marker
  · rw [if_pos hm] at h; subst hm; exact list_field_chokes H G (w := 2) (by decide) rfl h
  rw [if_neg hm] at h; clear hm
  by_cases hm : m = Slice32Marker
  · rw [if_pos hm] at h; subst hm; exact list_field_chokes H G (w := 4) (by decide) rfl h
  rw [if_neg hm] at h; clear hm
  by_cases hm : m ≥ TinyMapMarker ∧ m ≤ TinyMapMarker + 0x0F
  · rw [if_pos hm] at h
    have hm : 0xA0 ≤ m.toNat ∧ m.toNat ≤ 0xAF := ⟨UInt8.le_iff_toNat_le.1 hm.1, UInt8.le_iff_toNat_le.1 hm.2⟩
    exact map_chokes (hd := [m]) H G (tiny_hdr halfRange (by simp only [Kind.tiny, show TinyMapMarker.toNat = 0xA0 from rfl]; omega) (by simp only [show TinyMapMarker.toNat = 0xA0 from rfl]; omega)) h
  rw [if_neg hm] at h; clear hm
  by_cases hm : m = Map8Marker
  · rw [if_pos hm] at h; subst hm; exact map_field_chokes H G (w := 1) (by decide) rfl h
  rw [if_neg hm] at h; clear hm
  by_cases hm : m = Map16Marker
  · rw [if_pos hm] at h; subst hm; exact map_field_chokes H G (w := 2) (by decide) rfl h
  rw [if_neg hm] at h; clear hm
  by_cases hm : m = Map32Marker
  · rw [if_pos hm] at h; subst hm; exact map_field_chokes H G (w := 4) (by decide) rfl h
  rw [if_neg hm] at h; clear hm
  by_cases hm : m ≥ TinyStructMarker ∧ m ≤ TinyStructMarker + 0x0F
  · rw [if_pos hm] at h
    have hm : 0xB0 ≤ m.toNat ∧ m.toNat ≤ 0xBF := ⟨UInt8.le_iff_toNat_le.1 hm.1, UInt8.le_iff_toNat_le.1 hm.2⟩
    exact struct_chokes (hd := [m]) H G (tiny_hdr fullRange (n := m.toNat - 0xB0) (by simp only [Kind.tiny]; omega) (by omega)) h
  rw [if_neg hm] at h; clear hm
  by_cases hm : m = Struct8Marker
  · rw [if_pos hm] at h; subst hm; exact struct_field_chokes H G (w := 1) rfl h
  rw [if_neg hm] at h; clear hm
  by_cases hm : m = Struct16Marker
  · rw [if_pos hm] at h; subst hm; exact struct_field_chokes H G (w := 2) rfl h
  rw [if_neg hm] at h
  exact absurd h throw_panics

end

theorem decode_chokes : ∀ (f : Nat) (b : Bytes), Panics (decode f) b → Chokes b
  | 0, b, ⟨k, h⟩ => by cases h
  | f + 1, [], ⟨k, h⟩ => by cases h
  | f + 1, m :: b, ⟨k, h⟩ => by
    rw [decode_cons] at h
    exact marker_chokes (decode_expl f) (decode_chokes f) m ⟨k, h⟩

/-! ## From the cause to the panic -/

theorem items_panic {dec : Dec Val} : ∀ (n : Nat) (m : Nat) (b c : Bytes) (xs : List Val), decodeItems dec n b = .ok (xs, c) → n < m → Panics dec c →
    Panics (decodeItems dec m) b
  | 0, m, b, c, xs, h, hm, hp => by
    obtain ⟨rfl, rfl⟩ := pure_ok.mp h
    obtain ⟨m, rfl⟩ : ∃ k, m = k + 1 := ⟨m - 1, by omega⟩
    unfold decodeItems
    exact bind_panics.mpr (.inl hp)
  | n + 1, m, b, c, xs, h, hm, hp => by
    obtain ⟨m, rfl⟩ : ∃ k, m = k + 1 := ⟨m - 1, by omega⟩
    obtain ⟨x, b1, h1, h2⟩ := bind_ok.mp h
    obtain ⟨ys, b2, h3, h4⟩ := bind_ok.mp h2
    obtain ⟨_, rfl⟩ := pure_ok.mp h4
    unfold decodeItems
    exact bind_panics.mpr (.inr ⟨x, b1, h1, bind_panics.mpr (.inl (items_panic n m b1 b2 ys h3 (by omega) hp))⟩)

theorem entries_panic {dec : Dec Val} : ∀ (n : Nat) (m : Nat) (a a' : KVs) (b c : Bytes), decodeEntries dec n a b = .ok (a', c) → n < m →
    (∀ a, Panics (decodeEntries dec (m - n) a) c) → Panics (decodeEntries dec m a) b
  | 0, m, a, a', b, c, h, hm, hp => by
    obtain ⟨rfl, rfl⟩ := pure_ok.mp h
    exact hp a
  | n + 1, m, a, a', b, c, h, hm, hp => by
    obtain ⟨m, rfl⟩ : ∃ k, m = k + 1 := ⟨m - 1, by omega⟩
    obtain ⟨k, b1, h1, h2⟩ := bind_ok.mp h
    obtain ⟨v, b2, h3, h4⟩ := bind_ok.mp h2
    obtain ⟨s, b3, h5, h6⟩ := bind_ok.mp h4
    unfold decodeEntries
    refine bind_panics.mpr (.inr ⟨k, b1, h1, bind_panics.mpr (.inr ⟨v, b2, h3, bind_panics.mpr (.inr ⟨s, b3, h5, ?_⟩)⟩)⟩)
    exact entries_panic n m _ a' b3 c h6 (by omega) (by rw [show m - n = m + 1 - (n + 1) by omega]; exact hp)

theorem fields_panic {dec : Dec Val} : ∀ (fs : List Field) (b c : Bytes) (xs : List Val), decodeItems dec xs.length b = .ok (xs, c) → Fit fs xs →
    FieldsPanic dec (fs.drop xs.length) c → FieldsPanic dec fs b
  | fs, b, c, [], h, _, hp => by obtain ⟨_, rfl⟩ := pure_ok.mp h; simpa using hp
  | [], b, c, x :: xs, h, hf, hp => hf.elim
  | f :: fs, b, c, x :: xs, h, hf, hp => by
    obtain ⟨y, b1, h1, h2⟩ := bind_ok.mp h
    obtain ⟨ys, b2, h3, h4⟩ := bind_ok.mp h2
    obtain ⟨h5, rfl⟩ := pure_ok.mp h4
    cases h5
    exact .inr ⟨x, b1, h1, .inr ⟨hf.1, fields_panic fs b1 b2 xs h3 hf.2 (by simpa using hp)⟩⟩

theorem readsList_len {ps : List PS} {b r : Bytes} (h : ReadsList ps b r) : r.length ≤ b.length := readsList_le ps b r h

theorem decode_neg {k : Kind} {w n : Nat} {m : UInt8} {a : Bytes} (hk : k = .str ∨ k = .list) (hm : k.marker w = some m) (ha : Unsigned w n a)
    (hn : halfRange w ≤ n) (f : Nat) (r : Bytes) : Panics (decode (f + 1)) (m :: a ++ r) := by
  have hw : 0 < w := by unfold Kind.marker at hm; split at hm <;> first | decide | cases hm
  have hs : signedOf w a < 0 := by
    by_cases h : 0 ≤ signedOf w a
    · obtain ⟨k, _, h1, h2⟩ := (size_field hw ha.1).1 h
      have : k = n := h1.2.symm.trans ha.2
      omega
    · omega
  unfold Panics
  rw [List.cons_append, decode_cons]
  have hx : ∀ r, next (signedOf w a) r = .error (.panic .negNext) := fun r => by unfold next; rw [if_pos hs]
  have hy : ∀ r, decodeSlice (decode f) (signedOf w a) r = .error (.panic .negMake) := fun r => by unfold decodeSlice; rw [if_pos hs]; rfl
  rcases hk with rfl | rfl
  · refine ⟨.negNext, ?_⟩
    have hc : (w = 1 ∧ m = 0xD0) ∨ (w = 2 ∧ m = 0xD1) ∨ (w = 4 ∧ m = 0xD2) := by
      unfold Kind.marker at hm
      split at hm <;> simp_all
    rcases hc with ⟨rfl, rfl⟩ | ⟨rfl, rfl⟩ | ⟨rfl, rfl⟩ <;> unfold decodeMarker <;> simp [NilMarker, TrueMarker, FalseMarker, Int8Marker, Int16Marker, Int32Marker, Int64Marker,
      FloatMarker, TinyStringMarker, String8Marker, String16Marker, String32Marker, TinySliceMarker,
      Slice8Marker, Slice16Marker, Slice32Marker, TinyMapMarker, Map8Marker, Map16Marker, Map32Marker,
      TinyStructMarker, Struct8Marker, Struct16Marker, wrapSigned, readSize_any ha.1 r, hx r]
  · refine ⟨.negMake, ?_⟩
    have hc : (w = 1 ∧ m = 0xD4) ∨ (w = 2 ∧ m = 0xD5) ∨ (w = 4 ∧ m = 0xD6) := by
      unfold Kind.marker at hm
      split at hm <;> simp_all
    rcases hc with ⟨rfl, rfl⟩ | ⟨rfl, rfl⟩ | ⟨rfl, rfl⟩ <;> unfold decodeMarker <;> simp [NilMarker, TrueMarker, FalseMarker, Int8Marker, Int16Marker, Int32Marker, Int64Marker,
      FloatMarker, TinyStringMarker, String8Marker, String16Marker, String32Marker, TinySliceMarker,
      Slice8Marker, Slice16Marker, Slice32Marker, TinyMapMarker, Map8Marker, Map16Marker, Map32Marker,
      TinyStructMarker, Struct8Marker, Struct16Marker, wrapSigned, readSize_any ha.1 r, hy r]

theorem items_last {dec : Dec Val} : ∀ {xs : List Val} {x : Val} {b c : Bytes}, decodeItems dec (xs.length + 1) b = .ok (xs ++ [x], c) →
    ∃ d, decodeItems dec xs.length b = .ok (xs, d) ∧ dec d = .ok (x, c)
  | [], x, b, c, h => by
    obtain ⟨y, b1, h1, h2⟩ := bind_ok.mp h
    obtain ⟨ys, b2, h3, h4⟩ := bind_ok.mp h2
    obtain ⟨h5, rfl⟩ := pure_ok.mp h4
    obtain ⟨rfl, rfl⟩ := pure_ok.mp h3
    cases h5
    exact ⟨b, rfl, h1⟩
  | z :: xs, x, b, c, h => by
    obtain ⟨y, b1, h1, h2⟩ := bind_ok.mp h
    obtain ⟨ys, b2, h3, h4⟩ := bind_ok.mp h2
    obtain ⟨h5, rfl⟩ := pure_ok.mp h4
    simp only [List.cons_append, List.cons.injEq] at h5
    obtain ⟨rfl, rfl⟩ := h5
    obtain ⟨d, h6, h7⟩ := items_last h3
    exact ⟨d, by simp only [List.length_cons, decodeItems]; rw [dec_congr h1, dec_congr h6]; rfl, h7⟩

theorem struct_panic {n : Nat} {h b : Bytes} {sig : UInt8} (hh : Hdr fullRange .struct n h) {f : Nat}
    (hp : FieldsPanic (decode f) (structFields sig) b) : Panics (decode (f + 1)) (h ++ sig :: b) := by
  obtain ⟨k, hk⟩ := decode_struct hh f (sig :: b)
  unfold Panics
  rw [hk]
  exact bind_panics.mpr (.inr ⟨sig, b, rfl, (sig_panics sig b).mpr hp⟩)

theorem chokes_panics {b : Bytes} (h : Chokes b) : ∀ f, b.length < f → Panics (decode f) b := by
  induction h with
  | size r hk hm ha hn =>
    intro f hf
    obtain ⟨f, rfl⟩ : ∃ g, f = g + 1 := ⟨f - 1, by omega⟩
    exact decode_neg hk hm ha hn f r
  | @item n h b c ps xs hh hr ho hl _ ih =>
    intro f hf
    obtain ⟨f, rfl⟩ : ∃ g, f = g + 1 := ⟨f - 1, by omega⟩
    have := hdr_ne hh
    have hlen := readsList_le ps b c hr
    rw [List.length_append] at hf
    unfold Panics
    rw [decode_hdr hh]
    have h1 := items_panic _ n _ _ _ (decItems_reads ps b c f xs hr ho (by omega)) hl (ih f (by omega))
    unfold decBody decodeSlice
    rw [if_neg (by omega)]
    exact bind_panics.mpr (.inl h1)
  | @key n h b c kvs xs hh hr ho hl _ ih =>
    intro f hf
    obtain ⟨f, rfl⟩ : ∃ g, f = g + 1 := ⟨f - 1, by omega⟩
    have := hdr_ne hh
    have hlen := readsKVs_le kvs b c hr
    rw [List.length_append] at hf
    unfold Panics
    rw [decode_hdr hh]
    have h1 := entries_panic _ n _ _ _ _ (decEntries_reads kvs b c f xs [] hr ho (by omega)) hl (fun a => by
      obtain ⟨m, hm⟩ : ∃ k, n - kvs.length = k + 1 := ⟨n - kvs.length - 1, by omega⟩
      rw [hm]; unfold decodeEntries
      exact bind_panics.mpr (.inl (ih f (by omega))))
    exact bind_panics.mpr (.inl h1)
  | @value n h b c d kvs xs k x hh hr ho hl hk hx _ ih =>
    intro f hf
    obtain ⟨f, rfl⟩ : ∃ g, f = g + 1 := ⟨f - 1, by omega⟩
    have := hdr_ne hh
    have hlen := readsKVs_le kvs b c hr
    have hlt := reads_lt k c d hk
    rw [List.length_append] at hf
    unfold Panics
    rw [decode_hdr hh]
    have h1 := entries_panic _ n _ _ _ _ (decEntries_reads kvs b c f xs [] hr ho (by omega)) hl (fun a => by
      obtain ⟨m, hm⟩ : ∃ k, n - kvs.length = k + 1 := ⟨n - kvs.length - 1, by omega⟩
      rw [hm]; unfold decodeEntries
      exact bind_panics.mpr (.inr ⟨x, d, dec_reads k c d f x hk hx (by omega), bind_panics.mpr (.inl (ih f (by omega)))⟩))
    exact bind_panics.mpr (.inl h1)
  | @field n h b c sig ps xs hh hr ho hfit hl _ ih =>
    intro f hf
    obtain ⟨f, rfl⟩ : ∃ g, f = g + 1 := ⟨f - 1, by omega⟩
    have := hdr_ne hh
    have hlen := readsList_le ps b c hr
    rw [List.length_append, List.length_cons] at hf
    refine struct_panic hh (fields_panic _ b c xs ?_ hfit ?_)
    · rw [ofPSList_length ho]; exact decItems_reads ps b c f xs hr ho (by omega)
    · cases hd : (structFields sig).drop xs.length with
      | nil => rw [List.drop_eq_nil_iff] at hd; omega
      | cons g gs => exact .inl (ih f (by omega))
  | @wrong n h b c sig ps xs x g hh hr ho hfit hg hu =>
    intro f hf
    obtain ⟨f, rfl⟩ : ∃ g, f = g + 1 := ⟨f - 1, by omega⟩
    have := hdr_ne hh
    rw [List.length_append, List.length_cons] at hf
    have hi := decItems_reads ps b c f _ hr ho (by omega)
    rw [← ofPSList_length ho, List.length_append, List.length_singleton] at hi
    refine struct_panic hh ?_
    obtain ⟨d, h1, h2⟩ : ∃ d, decodeItems (decode f) xs.length b = .ok (xs, d) ∧ decode f d = .ok (x, c) := items_last hi
    refine fields_panic _ b d xs h1 hfit ?_
    obtain ⟨hlt, rfl⟩ := List.getElem?_eq_some_iff.mp hg
    rw [List.drop_eq_getElem_cons hlt]
    exact .inr ⟨x, c, h2, .inl hu⟩

end Bolt
