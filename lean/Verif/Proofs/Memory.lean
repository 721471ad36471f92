import Verif.Model.Memory
import Verif.Proofs.Count

/-! The counting decoder returns what the decoder returns, and what it allocates. -/

namespace Bolt.Memory
open Bolt

/-- Same results. -/
def Agree (x : Mem α) (y : Dec α) : Prop := ∀ b, (x b).2 = y b

theorem bind_eq (x : Mem α) (f : α → Mem β) (b : Bytes) : (x >>= f) b =
    match (x b).2 with
    | .ok (a, b') => ((x b).1 + (f a b').1, (f a b').2)
    | .error e => ((x b).1, .error e) := rfl

theorem Agree.pure (a : α) : Agree (Mem.pure a) (Dec.pure a) := fun _ => rfl
theorem Agree.lift (x : Dec α) : Agree (Mem.lift x) x := fun _ => rfl
theorem Agree.bind {x : Mem α} {y : Dec α} {f : α → Mem β} {g : α → Dec β} (h : Agree x y) (h' : ∀ a, Agree (f a) (g a)) :
    Agree (x >>= f) (y >>= g) := by
  intro b
  rw [bind_eq, Dec.bind_eq, h b]
  cases y b with
  | ok a => obtain ⟨a, b'⟩ := a; exact h' a b'
  | error e => rfl
theorem Agree.alloc {n : Nat} {f : Unit → Mem β} {g : Dec β} (h : Agree (f ()) g) : Agree (Mem.alloc n >>= f) g := by
  intro b
  rw [bind_eq]
  exact h b
theorem Agree.ite {c : Prop} [Decidable c] {x x' : Mem α} {y y' : Dec α} (h : Agree x y) (h' : Agree x' y') :
    Agree (if c then x else x') (if c then y else y') := by
  by_cases hc : c
  · rw [if_pos hc, if_pos hc]; exact h
  · rw [if_neg hc, if_neg hc]; exact h'

macro "agree" : tactic => `(tactic| repeat first
  | exact Agree.pure _
  | exact Agree.lift _
  | assumption
  | (refine Agree.alloc ?_)
  | (refine Agree.bind ?_ fun _ => ?_))

variable {dec : Mem Val} {dec' : Dec Val} (h : Agree dec dec')
include h

theorem agree_items (n : Nat) : Agree (itemsM dec n) (decodeItems dec' n) := by
  induction n with
  | zero => exact Agree.pure _
  | succ n ih => unfold itemsM decodeItems; agree

theorem agree_slice (n : Int) : Agree (sliceM dec n) (decodeSlice dec' n) := by
  unfold sliceM decodeSlice
  have := agree_items h n.toNat
  refine Agree.ite (Agree.lift _) ?_
  agree

theorem agree_entries (n : Nat) (m : KVs) : Agree (entriesM dec n m) (decodeEntries dec' n m) := by
  induction n generalizing m with
  | zero => exact Agree.pure _
  | succ n ih =>
    unfold entriesM decodeEntries
    refine Agree.bind h fun _ => Agree.bind h fun _ => Agree.bind (Agree.lift _) fun _ => ih _

theorem agree_map (n : Int) : Agree (mapM dec n) (decodeMap dec' n) := by
  unfold mapM decodeMap
  have := agree_entries h n.toNat []
  agree

theorem agree_node : Agree (nodeM dec) (decodeNode dec') := by unfold nodeM decodeNode; agree
theorem agree_rel : Agree (relationshipM dec) (decodeRelationship dec') := by unfold relationshipM decodeRelationship; agree
theorem agree_path : Agree (pathM dec) (decodePath dec') := by unfold pathM decodePath; agree
theorem agree_unbound : Agree (unboundM dec) (decodeUnbound dec') := by unfold unboundM decodeUnbound; agree
theorem agree_record : Agree (recordM dec) (decodeRecord dec') := by unfold recordM decodeRecord; agree
theorem agree_failure : Agree (failureM dec) (decodeFailure dec') := by unfold failureM decodeFailure; agree
theorem agree_success : Agree (successM dec) (decodeSuccess dec') := by unfold successM decodeSuccess; agree

theorem agree_sig (s : UInt8) : Agree (sigM dec s) (decodeSig dec' s) := by
  unfold sigM decodeSig
  repeat' first
    | exact agree_node h | exact agree_rel h | exact agree_path h | exact agree_unbound h | exact agree_record h
    | exact agree_failure h | exact agree_success h | exact Agree.pure _ | exact Agree.lift _ | refine Agree.ite ?_ ?_

theorem agree_struct (n : Int) : Agree (structM dec n) (decodeStruct dec' n) := by
  unfold structM decodeStruct
  exact Agree.bind (Agree.lift _) fun _ => agree_sig h _

theorem agree_marker (m : UInt8) : Agree (markerM dec m) (decodeMarker dec' m) := by
  unfold markerM decodeMarker
  repeat' with_reducible first
    | refine Agree.ite ?_ ?_
    | exact Agree.pure _ | exact Agree.lift _ | exact agree_slice h _ | exact agree_map h _ | exact agree_struct h _
    | refine Agree.bind (Agree.lift _) fun _ => ?_

omit h in
theorem agree_decode (f : Nat) : Agree (decodeM f) (decode f) := by
  induction f with
  | zero => exact fun _ => rfl
  | succ f ih =>
    unfold decodeM decode
    exact Agree.bind (Agree.lift _) fun _ => agree_marker ih _

/-! ## How much is allocated -/

/-- Elements of a list value. -/
def listLen : Val → Nat
  | .list xs => xs.length
  | _ => 0

/-- With `k` elements paid for in advance: if `x` succeeds, two elements are allocated per byte read, and `φ` more are
paid for. If it fails, at most 2^31 per byte. -/
def Pays (k : Nat) (φ : α → Nat) (x : Mem α) : Prop := ∀ b,
  (∀ a rest, (x b).2 = .ok (a, rest) → rest.length ≤ b.length ∧ (x b).1 + φ a + 2 * rest.length ≤ 2 * b.length + k) ∧
  (∀ e, (x b).2 = .error e → (x b).1 ≤ 2147483648 * b.length + k)

omit h

theorem Pays.pure {k : Nat} {φ : α → Nat} {a : α} (h : φ a ≤ k) : Pays k φ (Mem.pure a) := by
  intro b
  refine ⟨fun a' rest he => ?_, fun e he => by cases he⟩
  cases he
  exact ⟨Nat.le_refl _, by simp only [Mem.pure]; omega⟩

theorem Pays.bind {k : Nat} {ψ : α → Nat} {φ : β → Nat} {x : Mem α} {f : α → Mem β} (hx : Pays k ψ x)
    (hf : ∀ a, Pays (ψ a) φ (f a)) : Pays k φ (x >>= f) := by
  intro b
  obtain ⟨h1, h2⟩ := hx b
  simp only [bind_eq]
  cases hr : (x b).2 with
  | ok p =>
    obtain ⟨a, r⟩ := p
    obtain ⟨h3, h4⟩ := h1 a r hr
    obtain ⟨h5, h6⟩ := hf a r
    refine ⟨fun c rest hc => ?_, fun e he => ?_⟩
    · have := h5 c rest hc
      simp only
      omega
    · have := h6 e he
      simp only
      omega
  | error e =>
    refine ⟨fun c rest hc => ?_, fun e' _ => h2 e hr⟩
    cases hc

theorem Pays.lift {k : Nat} {φ : α → Nat} {x : Dec α}
    (h : ∀ b a rest, x b = .ok (a, rest) → rest.length ≤ b.length ∧ φ a + 2 * rest.length ≤ 2 * b.length + k) :
    Pays k φ (Mem.lift x) := by
  intro b
  refine ⟨fun a rest he => ?_, fun e he => by simp [Mem.lift]⟩
  have := h b a rest he
  simp only [Mem.lift]
  omega

/-- Something that reads nothing. -/
theorem Pays.keep {k : Nat} {φ : α → Nat} {x : Dec α} (h : ∀ b a rest, x b = .ok (a, rest) → rest = b ∧ φ a ≤ k) :
    Pays k φ (Mem.lift x) := Pays.lift fun b a rest he => by
  obtain ⟨rfl, h2⟩ := h b a rest he
  omega

theorem Pays.alloc {k n : Nat} (h : n ≤ k) : Pays k (fun _ => k - n) (Mem.alloc n) := by
  intro b
  refine ⟨fun a rest he => ?_, fun e he => by cases he⟩
  cases he
  exact ⟨Nat.le_refl _, by simp only [Mem.alloc]; omega⟩

/-- What is not used stays. -/
theorem Pays.frame {k K : Nat} {φ : α → Nat} {x : Mem α} (h : Pays k φ x) (j : Nat) (hK : K = k + j) :
    Pays K (fun a => φ a + j) x := by
  subst hK
  intro b
  obtain ⟨h1, h2⟩ := h b
  refine ⟨fun a rest he => ?_, fun e he => ?_⟩
  · have := h1 a rest he
    simp only
    omega
  · have := h2 e he
    omega

theorem Pays.weaken {k : Nat} {φ ψ : α → Nat} {x : Mem α} (h : Pays k φ x) (h' : ∀ a, ψ a ≤ φ a) : Pays k ψ x := by
  intro b
  obtain ⟨h1, h2⟩ := h b
  refine ⟨fun a rest he => ?_, h2⟩
  have := h1 a rest he
  have := h' a
  omega

theorem pays_readByte (m : String) (k : Nat) : Pays k (fun _ => k + 2) (Mem.lift (readByte m)) := by
  refine Pays.lift fun b a rest he => ?_
  unfold readByte at he
  cases b with
  | nil => cases he
  | cons x b => cases he; simp only [List.length_cons]; omega

theorem readRaw_rest {w : Nat} {b a rest : Bytes} (h : readRaw w b = .ok (a, rest)) : rest.length + w = b.length := by
  unfold readRaw at h
  split at h
  · cases h; simp only [List.length_drop]; omega
  · split at h <;> cases h

theorem wrapSigned_lt {w : Nat} (v : Int) : wrapSigned w v < (256 ^ w / 2 : Nat) := by
  unfold wrapSigned
  simp only
  have h1 : 0 < 256 ^ w := Nat.pow_pos (by decide)
  have h2 : v % ((256 ^ w : Nat) : _root_.Int) < ((256 ^ w : Nat) : _root_.Int) := Int.emod_lt_of_pos _ (by exact_mod_cast h1)
  split
  · assumption
  · omega

theorem readSize_ok {w : Nat} {m : String} {b rest : Bytes} {n : Int} (h : readSize w m b = .ok (n, rest)) :
    rest.length + w = b.length ∧ n < (256 ^ w / 2 : Nat) := by
  unfold readSize at h
  cases h1 : readRaw w b with
  | ok p =>
    obtain ⟨a, r⟩ := p
    rw [h1] at h
    cases h
    exact ⟨readRaw_rest h1, wrapSigned_lt _⟩
  | error e => rw [h1] at h; cases e <;> cases h

variable {dec : Mem Val} (hd : Pays 0 (fun v => listLen v + 2) dec)
include hd

theorem pays_dec (k : Nat) : Pays k (fun v => listLen v + 2 + k) dec := Pays.frame hd k (by omega)

theorem pays_items (n : Nat) : Pays 0 (fun xs => xs.length + n) (itemsM dec n) := by
  induction n with
  | zero => exact Pays.pure (by simp)
  | succ n ih =>
    unfold itemsM
    refine Pays.bind hd fun v => Pays.bind (Pays.frame ih (listLen v + 2) (by omega)) fun xs => Pays.pure ?_
    simp only [List.length_cons]
    omega

theorem pays_entries (n : Nat) (m : KVs) : Pays 0 (fun _ => n) (entriesM dec n m) := by
  induction n generalizing m with
  | zero => exact Pays.pure (by simp)
  | succ n ih =>
    unfold entriesM
    refine Pays.bind hd fun v => Pays.bind (pays_dec hd _) fun w => Pays.bind (ψ := fun _ => 1) (Pays.keep ?_) fun key =>
      (Pays.frame (ih _) 1 (by omega))
    intro b a rest he
    obtain ⟨_, rfl⟩ := asKey_ok he
    exact ⟨rfl, by omega⟩

omit hd in
/-- The elements of a list have already been paid for. -/
theorem pays_list {m : String} (k : Nat) (v : Val) :
    Pays (listLen v + 2 + k) (fun xs => xs.length + 2 + k) (Mem.lift (asList m v)) := by
  refine Pays.keep fun b a rest he => ?_
  obtain ⟨rfl, rfl⟩ := asList_ok he
  exact ⟨rfl, Nat.le_refl _⟩

omit hd in
theorem pays_int {k : Nat} (v : Val) : Pays k (fun _ => k) (Mem.lift (assertInt64 v)) :=
  Pays.keep fun b a rest he => ⟨(assertInt64_ok he).2, Nat.le_refl _⟩
omit hd in
theorem pays_mapp {m : String} {k : Nat} (v : Val) : Pays k (fun _ => k) (Mem.lift (asMap m v)) :=
  Pays.keep fun b a rest he => ⟨(asMap_ok he).2, Nat.le_refl _⟩
omit hd in
theorem pays_strr {m : String} {k : Nat} (v : Val) : Pays k (fun _ => k) (Mem.lift (asStr m v)) :=
  Pays.keep fun b a rest he => ⟨(asStr_ok he).2, Nat.le_refl _⟩

omit hd in
theorem pays_strings {k : Nat} (l : List Val) : Pays k (fun _ => k) (Mem.lift (sliceToString l)) :=
  Pays.keep fun b a rest he => ⟨(sliceToString_ok he).2, Nat.le_refl _⟩
omit hd in
theorem pays_ints {k : Nat} (l : List Val) : Pays k (fun _ => k) (Mem.lift (sliceToInt l)) :=
  Pays.keep fun b a rest he => ⟨(sliceToInt_ok he).2, Nat.le_refl _⟩
omit hd in
theorem pays_nodes {k : Nat} (l : List Val) : Pays k (fun _ => k) (Mem.lift (sliceToNode l)) :=
  Pays.keep fun b a rest he => ⟨(sliceToNode_ok he).2, Nat.le_refl _⟩
omit hd in
theorem pays_unbounds {k : Nat} (l : List Val) : Pays k (fun _ => k) (Mem.lift (sliceToUnbound l)) :=
  Pays.keep fun b a rest he => ⟨(sliceToUnbound_ok he).2, Nat.le_refl _⟩
omit hd in
theorem pays_slice_alloc {k : Nat} (l : List Val) : Pays (l.length + 2 + k) (fun _ => 2 + k) (Mem.alloc l.length) :=
  (Pays.alloc (by omega)).weaken fun _ => by omega

macro "pays" h:term : tactic => `(tactic| repeat' with_reducible first
  | refine Pays.bind (pays_dec $h _) fun _ => ?_
  | refine Pays.bind (pays_int _) fun _ => ?_
  | refine Pays.bind (pays_mapp _) fun _ => ?_
  | refine Pays.bind (pays_strr _) fun _ => ?_
  | refine Pays.bind (pays_list _ _) fun _ => ?_
  | refine Pays.bind (pays_slice_alloc _) fun _ => ?_
  | refine Pays.bind (pays_strings _) fun _ => ?_
  | refine Pays.bind (pays_ints _) fun _ => ?_
  | refine Pays.bind (pays_nodes _) fun _ => ?_
  | refine Pays.bind (pays_unbounds _) fun _ => ?_
  | refine Pays.pure ?_)

/-- The elements paid for by a decoded value: its own, if it is a list, and two more. -/
abbrev due (v : Val) : Nat := listLen v + 2

theorem pays_node (k : Nat) : Pays k due (nodeM dec) := by unfold nodeM; pays hd; simp only [due, listLen]; omega
theorem pays_rel (k : Nat) : Pays k due (relationshipM dec) := by unfold relationshipM; pays hd; simp only [due, listLen]; omega
theorem pays_path (k : Nat) : Pays k due (pathM dec) := by unfold pathM; pays hd; simp only [due, listLen]; omega
theorem pays_unbound (k : Nat) : Pays k due (unboundM dec) := by unfold unboundM; pays hd; simp only [due, listLen]; omega
theorem pays_record (k : Nat) : Pays k due (recordM dec) := by unfold recordM; pays hd; simp only [due, listLen]; omega
theorem pays_failure (k : Nat) : Pays k due (failureM dec) := by unfold failureM; pays hd; simp only [due, listLen]; omega
theorem pays_success (k : Nat) : Pays k due (successM dec) := by unfold successM; pays hd; simp only [due, listLen]; omega

omit hd in
theorem Pays.ite {c : Prop} [Decidable c] {k : Nat} {φ : α → Nat} {x y : Mem α} (h : Pays k φ x) (h' : Pays k φ y) :
    Pays k φ (if c then x else y) := by
  by_cases hc : c
  · rw [if_pos hc]; exact h
  · rw [if_neg hc]; exact h'

theorem pays_sig (s : UInt8) : Pays 2 due (sigM dec s) := by
  unfold sigM
  repeat' first
    | exact pays_node hd _ | exact pays_rel hd _ | exact pays_path hd _ | exact pays_unbound hd _ | exact pays_record hd _
    | exact pays_failure hd _ | exact pays_success hd _ | exact Pays.pure (by simp [due, listLen])
    | exact Pays.keep (fun b a rest he => by cases he) | refine Pays.ite ?_ ?_

theorem pays_struct (k : Nat) (n : Int) : Pays k due (structM dec n) := by
  unfold structM
  exact Pays.bind ((pays_readByte _ k).weaken fun _ => by omega) fun _ => pays_sig hd _

/-- As `Pays` after the marker of a value: two elements are paid for, and 2^31 if something fails. -/
def Pays2 (x : Mem Val) : Prop := ∀ b,
  (∀ a rest, (x b).2 = .ok (a, rest) → rest.length ≤ b.length ∧ (x b).1 + due a + 2 * rest.length ≤ 2 * b.length + 2) ∧
  (∀ e, (x b).2 = .error e → (x b).1 ≤ 2147483648 * b.length + 2147483648)

omit hd in
theorem Pays.two {x : Mem Val} (h : Pays 2 due x) : Pays2 x := fun b => ⟨(h b).1, fun e he => by have := (h b).2 e he; omega⟩

omit hd in
theorem Pays2.ite {c : Prop} [Decidable c] {x y : Mem Val} (h : Pays2 x) (h' : Pays2 y) :
    Pays2 (if c then x else y) := by
  by_cases hc : c
  · rw [if_pos hc]; exact h
  · rw [if_neg hc]; exact h'

theorem pays_slice {n : Int} (hn : n ≤ 2147483648) : Pays2 (sliceM dec n) := by
  unfold sliceM
  split
  · exact Pays.two (Pays.keep fun b a rest he => by cases he)
  · intro b
    obtain ⟨h1, h2⟩ := pays_items hd n.toNat b
    simp only [bind_eq, Mem.alloc]
    cases hr : (itemsM dec n.toNat b).2 with
    | ok p =>
      obtain ⟨xs, rest⟩ := p
      refine ⟨fun a r he => ?_, fun e he => by cases he⟩
      cases he
      have := h1 _ _ hr
      simp only [Mem.pure, due, listLen] at this ⊢
      omega
    | error e =>
      refine ⟨fun a r he => (by cases he), fun e he => ?_⟩
      have := h2 _ hr
      simp only
      omega

theorem pays_map {n : Int} (hn : n ≤ 2147483648) : Pays2 (mapM dec n) := by
  unfold mapM
  intro b
  obtain ⟨h1, h2⟩ := pays_entries hd n.toNat [] b
  simp only [bind_eq, Mem.alloc]
  cases hr : (entriesM dec n.toNat [] b).2 with
  | ok p =>
    obtain ⟨xs, rest⟩ := p
    refine ⟨fun a r he => ?_, fun e he => by cases he⟩
    cases he
    have := h1 _ _ hr
    simp only [Mem.pure, due, listLen] at this ⊢
    omega
  | error e =>
    refine ⟨fun a r he => (by cases he), fun e he => ?_⟩
    have := h2 _ hr
    simp only
    omega

omit hd in
theorem pays_sized {w : Nat} {m : String} {f : Int → Mem Val} (hw : w = 1 ∨ w = 2 ∨ w = 4)
    (h : ∀ n : Int, n ≤ 2147483648 → Pays2 (f n)) : Pays2 (Mem.lift (readSize w m) >>= f) := by
  intro b
  simp only [bind_eq, Mem.lift]
  cases hr : readSize w m b with
  | ok p =>
    obtain ⟨n, r⟩ := p
    obtain ⟨h1, h2⟩ := readSize_ok hr
    have h3 : n ≤ 2147483648 := by rcases hw with rfl | rfl | rfl <;> simp at h2 <;> omega
    obtain ⟨h4, h5⟩ := h n h3 r
    refine ⟨fun a rest he => ?_, fun e he => ?_⟩
    · have := h4 a rest he
      simp only
      omega
    · have := h5 e he
      simp only
      omega
  | error e => exact ⟨fun a r he => (by cases he), fun e he => Nat.zero_le _⟩

omit hd in
theorem pays_next (n : Int) : Pays2 (Mem.lift (next n)) := by
  refine Pays.two (Pays.lift fun b a rest he => ?_)
  unfold next at he
  split at he
  · cases he
  · cases he
    simp only [due, listLen, List.length_drop]
    omega

omit hd in
theorem pays_readInt (w : Nat) : Pays2 (Mem.lift (readInt w)) := by
  refine Pays.two (Pays.lift fun b a rest he => ?_)
  unfold readInt at he
  obtain ⟨bs, b1, h1, h2⟩ := bind_ok.mp he
  obtain ⟨rfl, rfl⟩ := pure_ok.mp h2
  have := readRaw_rest h1
  simp only [due, listLen]
  omega

omit hd in
theorem pays_float : Pays2 (Mem.lift (readRaw 8) >>= fun bs => Mem.pure (.float64 (UInt64.ofNat (beNat bs)))) := by
  refine Pays.two (Pays.bind (ψ := fun _ => 2) (Pays.lift fun b a rest he => ?_) fun bs => Pays.pure (by simp [due, listLen]))
  have := readRaw_rest he
  omega

omit hd in
theorem pays_pure {v : Val} (h : listLen v = 0) : Pays2 (Mem.pure v) := Pays.two (Pays.pure (by simp only [due, h]; omega))

omit hd in
theorem pays_throw (e : GoErr) : Pays2 (Mem.lift (Dec.throw e)) := Pays.two (Pays.keep fun b a rest he => by cases he)

theorem pays_marker (m : UInt8) : Pays2 (markerM dec m) := by
  have t1 : m.toNat < 256 := m.toNat_lt
  unfold markerM
  repeat' with_reducible first
    | refine Pays2.ite ?_ ?_
    | exact pays_pure rfl
    | exact pays_readInt _
    | exact pays_float
    | exact pays_next _
    | exact pays_slice hd (by omega)
    | exact pays_map hd (by omega)
    | exact Pays.two (pays_struct hd _ _)
    | exact pays_sized (by decide) (fun n hn => pays_next n)
    | exact pays_sized (by decide) (fun n hn => pays_slice hd hn)
    | exact pays_sized (by decide) (fun n hn => pays_map hd hn)
    | exact pays_sized (by decide) (fun n hn => Pays.two (pays_struct hd _ _))
    | exact pays_throw _

omit hd in
theorem pays_decode (f : Nat) : Pays 0 due (decodeM f) := by
  induction f with
  | zero => exact fun b => ⟨fun a rest he => (by cases he), fun e he => Nat.zero_le _⟩
  | succ f ih =>
    intro b
    unfold decodeM
    simp only [bind_eq, Mem.lift]
    cases b with
    | nil => exact ⟨fun a rest he => (by cases he), fun e he => Nat.zero_le _⟩
    | cons m b =>
      obtain ⟨h1, h2⟩ := pays_marker ih m b
      simp only [readByte, List.length_cons]
      refine ⟨fun a rest he => ?_, fun e he => ?_⟩
      · have := h1 a rest he
        omega
      · have := h2 e he
        omega

end Bolt.Memory
