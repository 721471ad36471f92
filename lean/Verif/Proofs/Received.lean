import Verif.Spec.Received
import Verif.Proofs.Count
import Verif.Proofs.Accept
import Verif.Proofs.Decode
import Verif.Props.Decoding

/-! Everything the decoder delivers is `Received`. -/

namespace Bolt

mutual
/-- A received value comes back as itself. -/
theorem returns_self : (v : Val) → (w : Val) → v.Received → Returns v w → w = v
  | .list xs, w, h, r => by
    obtain ⟨ys, h1, rfl⟩ := r; rw [returns_selfList xs ys h.2 h1]
  | .map kvs, w, h, r => by
    obtain ⟨ys, h1, rfl⟩ := r; rw [returns_selfKVs kvs ys h.2 h1]
  | .node id ls ps, w, h, r => by
    obtain ⟨ys, h1, rfl⟩ := r; rw [returns_selfKVs ps ys h.2 h1]
  | .rel id s e t ps, w, h, r => by
    obtain ⟨ys, h1, rfl⟩ := r; rw [returns_selfKVs ps ys h.2 h1]
  | .unbound id t ps, w, h, r => by
    obtain ⟨ys, h1, rfl⟩ := r; rw [returns_selfKVs ps ys h.2 h1]
  | .path ns rs sq, w, h, r => by
    obtain ⟨ys, zs, h1, h2, rfl⟩ := r
    rw [returns_selfList ns ys h.2.1 h1, returns_selfList rs zs h.2.2 h2]
  | .record xs, w, h, r => by
    obtain ⟨ys, h1, rfl⟩ := r; rw [returns_selfList xs ys h.2 h1]
  | .success kvs, w, h, r => by
    obtain ⟨ys, h1, rfl⟩ := r; rw [returns_selfKVs kvs ys h.2 h1]
  | .failure kvs, w, h, r => by
    obtain ⟨ys, h1, rfl⟩ := r; rw [returns_selfKVs kvs ys h.2 h1]
  | .int k n, w, h, r => by
    have : k = .int64 := h.1.1
    subst this; exact r
  | .nil, w, _, r => r
  | .bool _, w, _, r => r
  | .float64 _, w, _, r => r
  | .str _, w, _, r => r
  | .ignored, w, _, r => r
  | .ackFailure, w, _, r => r
  | .discardAll, w, _, r => r
  | .pullAll, w, _, r => r
  | .reset, w, _, r => r
  | .float32 _, w, h, _ => h.1.elim
  | .typedSlice _, w, h, _ => h.1.1.elim
  | .init _ _, w, h, _ => h.1.1.elim
  | .run _ _, w, h, _ => h.1.1.elim
  | .userStruct _ _, w, h, _ => h.1.1.elim
  | .other _, w, h, _ => h.1.elim

theorem returns_selfList : (xs ys : List Val) → Val.AllList Val.ReceivedHere xs → ReturnsList xs ys → ys = xs
  | [], ys, _, r => r
  | x :: xs, ys, h, r => by
    obtain ⟨y, zs, h1, h2, rfl⟩ := r
    rw [returns_self x y h.1 h1, returns_selfList xs zs h.2 h2]

theorem returns_selfKVs : (xs ys : List (Str × Val)) → Val.AllKVs Val.ReceivedHere xs → ReturnsKVs xs ys → ys = xs
  | [], ys, _, r => r
  | (k, x) :: xs, ys, h, r => by
    obtain ⟨y, zs, h1, h2, rfl⟩ := r
    rw [returns_self x y h.1 h1, returns_selfKVs xs zs h.2 h2]
end

theorem Val.Received.typed {v : Val} (h : v.Received) : v.Typed := by
  refine all_mono (fun v hv => ?_) v h
  have h1 := hv.1
  cases v <;> first | exact h1 | exact h1.elim | trivial | (obtain ⟨rfl, h2⟩ := h1; exact h2)

theorem Val.Received.decodable {v : Val} (h : v.Received) : v.Decodable := by
  refine all_mono (fun v hv => ?_) v h
  have h1 := hv.1
  cases v <;> first | exact h1.elim | trivial

theorem Val.Received.clean {v : Val} (h : v.Received) : v.Clean := by
  refine all_mono (fun v hv => ?_) v h
  have h1 := hv.1
  cases v <;> first | exact h1.elim | trivial | skip
  obtain ⟨rfl, h2⟩ := h1; trivial

theorem Val.Received.supported {v : Val} (h : v.Received) : v.Supported := by
  refine all_mono (fun v hv => ?_) v h
  obtain ⟨h1, h2⟩ := hv
  have h3 : ∀ n ∈ v.sizes, n < 2^32 := fun n hn => by
    have := h2 n hn
    have e1 : (2:Nat)^31 = 2147483648 := by decide
    have e2 : (2:Nat)^32 = 4294967296 := by decide
    omega
  cases v <;> first | exact h1.elim | exact h3 | skip
  obtain ⟨rfl, h2⟩ := h1; exact h3

/-- Every value delivered by `x` is received. -/
def Gives (x : Dec Val) : Prop := ∀ b v b', x b = .ok (v, b') → v.Received

theorem gives_ite {c : Prop} [Decidable c] {x y : Dec Val} (h1 : Gives x) (h2 : Gives y) :
    Gives (if c then x else y) := by
  split
  · exact h1
  · exact h2

theorem keys_insert {P : Str → Prop} (m : KVs) (k : Str) (v : Val) (hm : ∀ n ∈ m.map Prod.fst, P n) (hk : P k) :
    ∀ n ∈ (mapInsert m k v).map Prod.fst, P n := by
  induction m with
  | nil => simpa [mapInsert] using hk
  | cons e m ih =>
    simp only [List.map_cons, List.forall_mem_cons] at hm
    simp only [mapInsert]
    split
    · simp only [List.map_cons, List.forall_mem_cons]; exact ⟨hk, hm.2⟩
    · simp only [List.map_cons, List.forall_mem_cons]; exact ⟨hm.1, ih hm.2⟩

theorem distinct_insert (m : KVs) (k : Str) (v : Val) (hm : DistinctKeys m) : DistinctKeys (mapInsert m k v) := by
  unfold DistinctKeys at *
  induction m with
  | nil => simp [mapInsert]
  | cons e m ih =>
    simp only [List.map_cons, List.nodup_cons] at hm
    simp only [mapInsert]
    split
    · rename_i he
      simp only [List.map_cons, List.nodup_cons]; rw [← he]; exact hm
    · rename_i he
      simp only [List.map_cons, List.nodup_cons]
      refine ⟨?_, ih hm.2⟩
      intro hc
      refine keys_insert (P := fun n => n ≠ e.1) m k v (fun n hn hc => ?_) (Ne.symm he) _ hc rfl
      exact hm.1 (hc ▸ hn)

theorem length_insert (m : KVs) (k : Str) (v : Val) : (mapInsert m k v).length ≤ m.length + 1 := by
  induction m with
  | nil => simp [mapInsert]
  | cons e m ih =>
    simp only [mapInsert]
    split <;> simp only [List.length_cons] <;> omega

theorem allKVs_insert {P : Val → Prop} (m : KVs) (k : Str) (v : Val) (hm : Val.AllKVs P m) (hv : Val.All P v) :
    Val.AllKVs P (mapInsert m k v) := by
  induction m with
  | nil => exact ⟨hv, trivial⟩
  | cons e m ih =>
    simp only [mapInsert]
    split
    · exact ⟨hv, hm.2⟩
    · exact ⟨hm.1, ih hm.2⟩

/-- Sizes read are below 2^31. -/
theorem signedOf_lt (w : Nat) (hw : w ≤ 4) (bs : Bytes) : signedOf w bs < 2^31 := by
  unfold signedOf wrapSigned
  generalize (beNat bs : Int) = m
  have h1 : (0 : Int) < ((256 ^ w : Nat) : Int) := by
    have := Nat.pow_pos (n := w) (show 0 < 256 by decide); omega
  have h2 := Int.emod_lt_of_pos m h1
  have h3 : (256 ^ w : Nat) ≤ 256 ^ 4 := Nat.pow_le_pow_right (by decide) hw
  have h4 : (256 ^ 4 : Nat) = 4294967296 := by decide
  have h5 : (2 : Int) ^ 31 = 2147483648 := by decide
  simp only [h5]
  generalize 256 ^ w = q at *
  have : ((q / 2 : Nat) : Int) ≤ 2147483648 := by omega
  split <;> omega

theorem readSize_lt {w : Nat} (hw : w ≤ 4) {msg : String} {b b' : Bytes} {n : Int}
    (h : readSize w msg b = .ok (n, b')) : n < 2^31 := by
  unfold readSize at h
  split at h
  · simp only [Except.ok.injEq, Prod.mk.injEq] at h
    rw [← h.1]; exact signedOf_lt w hw _
  · simp at h
  · simp at h

theorem e31 : (2 : Nat)^31 = 2147483648 := by decide
theorem e31i : (2 : Int)^31 = 2147483648 := by decide

section
variable {dec : Dec Val} (H : Gives dec)
include H

theorem gives_items (n : Nat) : ∀ b xs b', decodeItems dec n b = .ok (xs, b') →
    Val.AllList Val.ReceivedHere xs ∧ xs.length = n := by
  induction n with
  | zero => intro b xs b' h; obtain ⟨rfl, rfl⟩ := pure_ok.mp h; exact ⟨trivial, rfl⟩
  | succ n ih =>
    intro b xs b' h
    replace h := bind_ok.mp h; obtain ⟨x, b1, h1, h⟩ := h
    replace h := bind_ok.mp h; obtain ⟨ys, b2, h2, h⟩ := h
    obtain ⟨rfl, rfl⟩ := pure_ok.mp h
    obtain ⟨h3, h4⟩ := ih _ _ _ h2
    exact ⟨⟨H _ _ _ h1, h3⟩, by simp [h4]⟩

/-- The three things known about a map. -/
def GoodMap (m : KVs) : Prop :=
  Val.AllKVs Val.ReceivedHere m ∧ DistinctKeys m ∧ ∀ k ∈ m.map Prod.fst, k.length < 2^31

theorem gives_entries (n : Nat) : ∀ m b xs b', GoodMap m → decodeEntries dec n m b = .ok (xs, b') →
    GoodMap xs ∧ xs.length ≤ m.length + n := by
  induction n with
  | zero => intro m b xs b' hm h; obtain ⟨rfl, rfl⟩ := pure_ok.mp h; exact ⟨hm, by omega⟩
  | succ n ih =>
    intro m b xs b' hm h
    replace h := bind_ok.mp h; obtain ⟨x, b1, h1, h⟩ := h
    replace h := bind_ok.mp h; obtain ⟨y, b2, h2, h⟩ := h
    replace h := bind_ok.mp h; obtain ⟨k, b3, h3, h⟩ := h
    obtain ⟨rfl, rfl⟩ := asKey_ok h3
    have h4 := H _ _ _ h1
    have h5 := H _ _ _ h2
    have hk : k.length < 2^31 := by
      have := h4.2 k.length (by simp [Val.sizes]); exact this
    have h6 := ih _ _ _ _ ⟨allKVs_insert m k y hm.1 h5, distinct_insert m k y hm.2.1,
      keys_insert m k y hm.2.2 hk⟩ h
    have := length_insert m k y
    exact ⟨h6.1, by omega⟩

theorem gives_slice (n : Int) (hn : n < 2^31) : Gives (decodeSlice dec n) := by
  unfold decodeSlice
  refine gives_ite (fun b v b' h => by simp at h) (fun b v b' h => ?_)
  replace h := bind_ok.mp h; obtain ⟨xs, b1, h1, h⟩ := h
  obtain ⟨rfl, rfl⟩ := pure_ok.mp h
  obtain ⟨h2, h3⟩ := gives_items H _ _ _ _ h1
  refine ⟨⟨trivial, ?_⟩, h2⟩
  rw [e31i] at hn; rw [e31]
  simp only [Val.sizes, List.mem_singleton, forall_eq]; omega

omit H in
theorem received_map {m : KVs} (h : GoodMap m) (hl : m.length < 2^31) : Val.Received (.map m) := by
  refine ⟨⟨h.2.1, ?_⟩, h.1⟩
  simp only [Val.sizes, List.forall_mem_cons]
  refine ⟨hl, fun n hn => ?_⟩
  simp only [keySizes, List.mem_map] at hn
  obtain ⟨e, he, rfl⟩ := hn
  exact h.2.2 _ (List.mem_map_of_mem he)

theorem gives_map (n : Int) (hn : n < 2^31) : Gives (decodeMap dec n) := by
  intro b v b' h
  replace h := bind_ok.mp h; obtain ⟨xs, b1, h1, h⟩ := h
  obtain ⟨rfl, rfl⟩ := pure_ok.mp h
  have := gives_entries H _ [] _ _ _ (And.intro trivial (And.intro (by simp [DistinctKeys]) (by simp))) h1
  refine received_map this.1 ?_
  have := this.2
  rw [e31i] at hn; rw [e31]
  simp only [List.length_nil] at this; omega
end

theorem goodMap_of {m : KVs} (h : Val.Received (.map m)) :
    DistinctKeys m ∧ Val.AllKVs Val.ReceivedHere m ∧ m.length < 2^31 ∧ ∀ n ∈ keySizes m, n < 2^31 := by
  obtain ⟨⟨h1, h2⟩, h3⟩ := h
  simp only [Val.sizes, List.forall_mem_cons] at h2
  exact ⟨h1, h3, h2.1, h2.2⟩

theorem labels_of {ss : List Str} (h : Val.Received (.list (ss.map .str))) :
    ss.length < 2^31 ∧ ∀ n ∈ ss.map List.length, n < 2^31 := by
  obtain ⟨⟨h1, h2⟩, h3⟩ := h
  simp only [Val.sizes, List.mem_singleton, forall_eq, List.length_map] at h2
  refine ⟨h2, ?_⟩
  clear h1 h2
  induction ss with
  | nil => simp
  | cons s ss ih =>
    simp only [List.map_cons, List.forall_mem_cons]
    exact ⟨h3.1.2 s.length (by simp [Val.sizes]), ih h3.2⟩

theorem seq_of {ss : List Int} (h : Val.Received (.list (ss.map (.int .int64)))) :
    ss.length < 2^31 ∧ ∀ n ∈ ss, IsInt64 n := by
  obtain ⟨⟨h1, h2⟩, h3⟩ := h
  simp only [Val.sizes, List.mem_singleton, forall_eq, List.length_map] at h2
  refine ⟨h2, ?_⟩
  clear h1 h2
  induction ss with
  | nil => simp
  | cons s ss ih =>
    simp only [List.forall_mem_cons]
    exact ⟨h3.1.1.2, ih h3.2⟩

theorem sliceToNode_all {l ss : List Val} {b b' : Bytes} (h : sliceToNode l b = .ok (ss, b')) :
    ∀ v ∈ ss, IsNode v := by
  induction l generalizing ss b b' with
  | nil => obtain ⟨rfl, rfl⟩ := pure_ok.mp h; simp
  | cons x l ih =>
    cases x with
    | node id ls ps =>
      replace h := bind_ok.mp h; obtain ⟨ns, b1, h1, h⟩ := h
      obtain ⟨rfl, rfl⟩ := pure_ok.mp h
      simp only [List.forall_mem_cons]; exact ⟨trivial, ih h1⟩
    | _ => simp [sliceToNode] at h

theorem sliceToUnbound_all {l ss : List Val} {b b' : Bytes} (h : sliceToUnbound l b = .ok (ss, b')) :
    ∀ v ∈ ss, IsUnbound v := by
  induction l generalizing ss b b' with
  | nil => obtain ⟨rfl, rfl⟩ := pure_ok.mp h; simp
  | cons x l ih =>
    cases x with
    | unbound id ls ps =>
      replace h := bind_ok.mp h; obtain ⟨ns, b1, h1, h⟩ := h
      obtain ⟨rfl, rfl⟩ := pure_ok.mp h
      simp only [List.forall_mem_cons]; exact ⟨trivial, ih h1⟩
    | _ => simp [sliceToUnbound] at h

section
variable {dec : Dec Val} (H : Gives dec)
include H

theorem gives_node : Gives (decodeNode dec) := by
  intro b v b' h
  replace h := bind_ok.mp h; obtain ⟨x1, b1, h1, h⟩ := h
  replace h := bind_ok.mp h; obtain ⟨_, b2, h2, h⟩ := h
  obtain ⟨rfl, rfl⟩ := assertInt64_ok h2
  replace h := bind_ok.mp h; obtain ⟨x3, b3, h3, h⟩ := h
  replace h := bind_ok.mp h; obtain ⟨_, b4, h4, h⟩ := h
  obtain ⟨rfl, rfl⟩ := asList_ok h4
  replace h := bind_ok.mp h; obtain ⟨_, b5, h5, h⟩ := h
  obtain ⟨rfl, rfl⟩ := sliceToString_ok h5
  replace h := bind_ok.mp h; obtain ⟨x6, b6, h6, h⟩ := h
  replace h := bind_ok.mp h; obtain ⟨_, b7, h7, h⟩ := h
  obtain ⟨rfl, rfl⟩ := asMap_ok h7
  obtain ⟨rfl, rfl⟩ := pure_ok.mp h
  have a1 := H _ _ _ h1
  obtain ⟨a2, a3⟩ := labels_of (H _ _ _ h3)
  obtain ⟨a4, a5, a6, a7⟩ := goodMap_of (H _ _ _ h6)
  refine ⟨⟨⟨a1.1.2, a4⟩, ?_⟩, a5⟩
  simp only [Val.sizes, List.forall_mem_cons, List.forall_mem_append, List.cons_append]
  exact ⟨a2, a6, a3, a7⟩

theorem gives_rel : Gives (decodeRelationship dec) := by
  intro b v b' h
  replace h := bind_ok.mp h; obtain ⟨x1, b1, h1, h⟩ := h
  replace h := bind_ok.mp h; obtain ⟨_, b2, h2, h⟩ := h
  obtain ⟨rfl, rfl⟩ := assertInt64_ok h2
  replace h := bind_ok.mp h; obtain ⟨x1, b1, h3, h⟩ := h
  replace h := bind_ok.mp h; obtain ⟨_, b2, h2, h⟩ := h
  obtain ⟨rfl, rfl⟩ := assertInt64_ok h2
  replace h := bind_ok.mp h; obtain ⟨x1, b1, h4, h⟩ := h
  replace h := bind_ok.mp h; obtain ⟨_, b2, h2, h⟩ := h
  obtain ⟨rfl, rfl⟩ := assertInt64_ok h2
  replace h := bind_ok.mp h; obtain ⟨x3, b3, h5, h⟩ := h
  replace h := bind_ok.mp h; obtain ⟨_, b4, h2, h⟩ := h
  obtain ⟨rfl, rfl⟩ := asStr_ok h2
  replace h := bind_ok.mp h; obtain ⟨x6, b6, h6, h⟩ := h
  replace h := bind_ok.mp h; obtain ⟨_, b7, h7, h⟩ := h
  obtain ⟨rfl, rfl⟩ := asMap_ok h7
  obtain ⟨rfl, rfl⟩ := pure_ok.mp h
  obtain ⟨a4, a5, a6, a7⟩ := goodMap_of (H _ _ _ h6)
  refine ⟨⟨⟨(H _ _ _ h1).1.2, (H _ _ _ h3).1.2, (H _ _ _ h4).1.2, a4⟩, ?_⟩, a5⟩
  simp only [Val.sizes, List.forall_mem_cons]
  exact ⟨(H _ _ _ h5).2 _ (by simp [Val.sizes]), a6, a7⟩

theorem gives_unbound : Gives (decodeUnbound dec) := by
  intro b v b' h
  replace h := bind_ok.mp h; obtain ⟨x1, b1, h1, h⟩ := h
  replace h := bind_ok.mp h; obtain ⟨_, b2, h2, h⟩ := h
  obtain ⟨rfl, rfl⟩ := assertInt64_ok h2
  replace h := bind_ok.mp h; obtain ⟨x3, b3, h5, h⟩ := h
  replace h := bind_ok.mp h; obtain ⟨_, b4, h2, h⟩ := h
  obtain ⟨rfl, rfl⟩ := asStr_ok h2
  replace h := bind_ok.mp h; obtain ⟨x6, b6, h6, h⟩ := h
  replace h := bind_ok.mp h; obtain ⟨_, b7, h7, h⟩ := h
  obtain ⟨rfl, rfl⟩ := asMap_ok h7
  obtain ⟨rfl, rfl⟩ := pure_ok.mp h
  obtain ⟨a4, a5, a6, a7⟩ := goodMap_of (H _ _ _ h6)
  refine ⟨⟨⟨(H _ _ _ h1).1.2, a4⟩, ?_⟩, a5⟩
  simp only [Val.sizes, List.forall_mem_cons]
  exact ⟨(H _ _ _ h5).2 _ (by simp [Val.sizes]), a6, a7⟩

theorem gives_path : Gives (decodePath dec) := by
  intro b v b' h
  replace h := bind_ok.mp h; obtain ⟨x1, b1, h1, h⟩ := h
  replace h := bind_ok.mp h; obtain ⟨_, b2, h2, h⟩ := h
  obtain ⟨rfl, rfl⟩ := asList_ok h2
  replace h := bind_ok.mp h; obtain ⟨_, b3, h3, h⟩ := h
  have n1 := sliceToNode_all h3
  obtain ⟨rfl, rfl⟩ := sliceToNode_ok h3
  replace h := bind_ok.mp h; obtain ⟨x4, b4, h4, h⟩ := h
  replace h := bind_ok.mp h; obtain ⟨_, b5, h5, h⟩ := h
  obtain ⟨rfl, rfl⟩ := asList_ok h5
  replace h := bind_ok.mp h; obtain ⟨_, b6, h6, h⟩ := h
  have n2 := sliceToUnbound_all h6
  obtain ⟨rfl, rfl⟩ := sliceToUnbound_ok h6
  replace h := bind_ok.mp h; obtain ⟨x7, b7, h7, h⟩ := h
  replace h := bind_ok.mp h; obtain ⟨_, b8, h8, h⟩ := h
  obtain ⟨rfl, rfl⟩ := asList_ok h8
  replace h := bind_ok.mp h; obtain ⟨_, b9, h9, h⟩ := h
  obtain ⟨rfl, rfl⟩ := sliceToInt_ok h9
  obtain ⟨rfl, rfl⟩ := pure_ok.mp h
  have a1 := H _ _ _ h1
  have a2 := H _ _ _ h4
  obtain ⟨a3, a4⟩ := seq_of (H _ _ _ h7)
  refine ⟨⟨⟨n1, n2, a4⟩, ?_⟩, a1.2, a2.2⟩
  simp only [Val.sizes, List.forall_mem_cons]
  exact ⟨a1.1.2 _ (by simp [Val.sizes]), a2.1.2 _ (by simp [Val.sizes]), a3, by simp⟩

theorem gives_sig (sig : UInt8) : Gives (decodeSig dec sig) := by
  have hp : ∀ w : Val, w.Received → Gives (Dec.pure w) := by
    intro w hw b v b' h
    obtain ⟨rfl, rfl⟩ := pure_ok.mp h
    exact hw
  have ht : ∀ e : GoErr, Gives (Dec.throw e) := fun e b v b' h => by simp at h
  unfold decodeSig
  refine gives_ite (gives_node H) ?_
  refine gives_ite (gives_rel H) ?_
  refine gives_ite (gives_path H) ?_
  refine gives_ite (gives_unbound H) ?_
  refine gives_ite (fun b v b' h => ?_) ?_
  · replace h := bind_ok.mp h; obtain ⟨x1, b1, h1, h⟩ := h
    replace h := bind_ok.mp h; obtain ⟨_, b2, h2, h⟩ := h
    obtain ⟨rfl, rfl⟩ := asList_ok h2
    obtain ⟨rfl, rfl⟩ := pure_ok.mp h
    have := H _ _ _ h1
    exact ⟨⟨trivial, this.1.2⟩, this.2⟩
  refine gives_ite (fun b v b' h => ?_) ?_
  · replace h := bind_ok.mp h; obtain ⟨x1, b1, h1, h⟩ := h
    replace h := bind_ok.mp h; obtain ⟨_, b2, h2, h⟩ := h
    obtain ⟨rfl, rfl⟩ := asMap_ok h2
    obtain ⟨rfl, rfl⟩ := pure_ok.mp h
    have := H _ _ _ h1
    exact ⟨⟨this.1.1, this.1.2⟩, this.2⟩
  refine gives_ite (hp _ ⟨trivial, by simp [Val.sizes]⟩) ?_
  refine gives_ite (fun b v b' h => ?_) ?_
  · replace h := bind_ok.mp h; obtain ⟨x1, b1, h1, h⟩ := h
    replace h := bind_ok.mp h; obtain ⟨_, b2, h2, h⟩ := h
    obtain ⟨rfl, rfl⟩ := asMap_ok h2
    obtain ⟨rfl, rfl⟩ := pure_ok.mp h
    have := H _ _ _ h1
    exact ⟨⟨this.1.1, this.1.2⟩, this.2⟩
  iterate 4 refine gives_ite (hp _ ⟨trivial, by simp [Val.sizes]⟩) ?_
  exact ht _

theorem gives_struct (n : Int) : Gives (decodeStruct dec n) := by
  intro b v b' h
  replace h := bind_ok.mp h; obtain ⟨sig, b1, h1, h⟩ := h
  exact gives_sig H sig _ _ _ h

set_option maxRecDepth 8000 in
theorem gives_marker (m : UInt8) : Gives (decodeMarker dec m) := by
  have hp : ∀ w : Val, w.Received → Gives (Dec.pure w) := by
    intro w hw b v b' h
    obtain ⟨rfl, rfl⟩ := pure_ok.mp h
    exact hw
  have hwrap : ∀ w, w ≤ 8 → ∀ v : Int, IsInt64 (wrapSigned w v) := by
    intro w hw v
    unfold wrapSigned IsInt64
    have h0 : (0 : Int) < ((256 ^ w : Nat) : Int) := by
      have := Nat.pow_pos (n := w) (show 0 < 256 by decide); omega
    have h1 := Int.emod_nonneg v (b := ((256 ^ w : Nat) : Int)) (by omega)
    have h2 := Int.emod_lt_of_pos v h0
    have h3 : (256 ^ w : Nat) ≤ 256 ^ 8 := Nat.pow_le_pow_right (by decide) hw
    have h4 : (256 ^ 8 : Nat) = 18446744073709551616 := by decide
    have h5 : (2 : Int) ^ 63 = 9223372036854775808 := by decide
    simp only [h5]
    generalize v % ((256 ^ w : Nat) : Int) = m at *
    generalize 256 ^ w = q at *
    split <;> omega
  have hint : ∀ w, w ≤ 8 → Gives (readInt w) := by
    intro w hw b v b' h
    replace h := bind_ok.mp h; obtain ⟨bs, b1, h1, h⟩ := h
    obtain ⟨rfl, rfl⟩ := pure_ok.mp h
    exact ⟨⟨rfl, hwrap w hw _⟩, by simp [Val.sizes]⟩
  have hnext : ∀ n : Int, n < 2^31 → Gives (next n) := by
    intro n hn b v b' h
    unfold next at h
    split at h
    · simp at h
    · simp only [Except.ok.injEq, Prod.mk.injEq] at h
      rw [← h.1]
      refine ⟨trivial, ?_⟩
      rw [e31i] at hn; rw [e31]
      simp only [Val.sizes, List.mem_singleton, forall_eq, List.length_take]; omega
  have hsz : ∀ w msg (g : Int → Dec Val), w ≤ 4 → (∀ n, n < 2^31 → Gives (g n)) →
      Gives (do let size ← readSize w msg; g size) := by
    intro w msg g hw hg b v b' h
    replace h := bind_ok.mp h; obtain ⟨n, b1, h1, h⟩ := h
    exact hg n (readSize_lt hw h1) _ _ _ h
  have htiny : ∀ k : Nat, ((m.toNat - k : Nat) : Int) < 2^31 := by
    intro k
    have := m.toNat_lt
    rw [e31i]; omega
  unfold decodeMarker
  iterate 3 refine gives_ite (hp _ ⟨trivial, by simp [Val.sizes]⟩) ?_
  refine gives_ite (hp _ ⟨⟨rfl, hwrap 1 (by decide) _⟩, by simp [Val.sizes]⟩) ?_
  iterate 4 refine gives_ite (hint _ (by decide)) ?_
  refine gives_ite (fun b v b' h => ?_) ?_
  · replace h := bind_ok.mp h; obtain ⟨bs, b1, h1, h⟩ := h
    obtain ⟨rfl, rfl⟩ := pure_ok.mp h
    exact ⟨trivial, by simp [Val.sizes]⟩
  refine gives_ite (gives_ite (hp _ ⟨trivial, by simp [Val.sizes]⟩) (hnext _ (htiny _))) ?_
  iterate 3 refine gives_ite (hsz _ _ _ (by decide) hnext) ?_
  refine gives_ite (gives_slice H _ (htiny _)) ?_
  iterate 3 refine gives_ite (hsz _ _ _ (by decide) (gives_slice H)) ?_
  refine gives_ite (gives_map H _ (htiny _)) ?_
  iterate 3 refine gives_ite (hsz _ _ _ (by decide) (gives_map H)) ?_
  refine gives_ite (gives_struct H _) ?_
  iterate 2 refine gives_ite (hsz _ _ _ (by decide) (fun n _ => gives_struct H n)) ?_
  exact fun b v b' h => by simp at h

end

/-- Everything delivered is received. -/
theorem gives_decode (f : Nat) : Gives (decode f) := by
  induction f with
  | zero => intro b v b' h; simp [decode] at h
  | succ f ih =>
    intro b v b' h
    cases b with
    | nil => simp [decode, readByte] at h
    | cons m b =>
      rw [decode_cons] at h
      exact gives_marker ih m _ _ _ h

end Bolt
