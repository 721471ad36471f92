import Verif.Spec.Count
import Verif.Proofs.Sane

/-! Every value read consumes at least one byte. -/

namespace Bolt

theorem bind_ok {α β : Type} {x : Dec α} {g : α → Dec β} {b b'' : Bytes} {c : β} :
    (x >>= g) b = .ok (c, b'') ↔ ∃ a b', x b = .ok (a, b') ∧ g a b' = .ok (c, b'') := by
  simp only [Dec.bind_eq]
  cases h : x b with
  | error e => simp
  | ok p => obtain ⟨a, b'⟩ := p; simp

theorem pure_ok {α : Type} {a c : α} {b b' : Bytes} : Dec.pure a b = .ok (c, b') ↔ a = c ∧ b = b' := by
  simp

theorem assertInt64_ok {v : Val} {i : Int} {b b' : Bytes} (h : assertInt64 v b = .ok (i, b')) :
    v = .int .int64 i ∧ b' = b := by
  unfold assertInt64 at h
  split at h
  · simp at h; simp [h]
  · simp at h

theorem asList_ok {m : String} {v : Val} {i : List Val} {b b' : Bytes} (h : asList m v b = .ok (i, b')) :
    v = .list i ∧ b' = b := by
  cases v <;> simp [asList] at h; simp [h]

theorem asMap_ok {m : String} {v : Val} {i : KVs} {b b' : Bytes} (h : asMap m v b = .ok (i, b')) :
    v = .map i ∧ b' = b := by
  cases v <;> simp [asMap] at h; simp [h]

theorem asStr_ok {m : String} {v : Val} {i : Str} {b b' : Bytes} (h : asStr m v b = .ok (i, b')) :
    v = .str i ∧ b' = b := by
  cases v <;> simp [asStr] at h; simp [h]

theorem asKey_ok {v : Val} {i : Str} {b b' : Bytes} (h : asKey v b = .ok (i, b')) :
    v = .str i ∧ b' = b := by
  cases v <;> simp [asKey] at h; simp [h]

theorem sliceToString_ok {l : List Val} {ss : List Str} {b b' : Bytes}
    (h : sliceToString l b = .ok (ss, b')) : l = ss.map .str ∧ b' = b := by
  induction l generalizing ss b b' with
  | nil => simp [sliceToString] at h; simp [h]
  | cons v l ih =>
    cases v <;> simp only [sliceToString, Dec.throw_eq, reduceCtorEq] at h
    replace h := bind_ok.mp h; obtain ⟨ts, b1, h1, h2⟩ := h
    obtain ⟨rfl, rfl⟩ := pure_ok.mp h2
    obtain ⟨rfl, rfl⟩ := ih h1
    simp

theorem sliceToInt_ok {l : List Val} {ss : List Int} {b b' : Bytes}
    (h : sliceToInt l b = .ok (ss, b')) : l = ss.map (.int .int64) ∧ b' = b := by
  induction l generalizing ss b b' with
  | nil => simp [sliceToInt] at h; simp [h]
  | cons v l ih =>
    cases v <;> try (simp only [sliceToInt, Dec.panic_eq, reduceCtorEq] at h)
    rename_i k v
    cases k <;> simp only [sliceToInt, Dec.panic_eq, reduceCtorEq] at h
    replace h := bind_ok.mp h; obtain ⟨ts, b1, h1, h2⟩ := h
    obtain ⟨rfl, rfl⟩ := pure_ok.mp h2
    obtain ⟨rfl, rfl⟩ := ih h1
    simp

theorem sliceToNode_ok {l : List Val} {ss : List Val} {b b' : Bytes}
    (h : sliceToNode l b = .ok (ss, b')) : l = ss ∧ b' = b := by
  induction l generalizing ss b b' with
  | nil => simp [sliceToNode] at h; simp [h]
  | cons v l ih =>
    cases v <;> simp only [sliceToNode, Dec.throw_eq, reduceCtorEq] at h
    replace h := bind_ok.mp h; obtain ⟨ts, b1, h1, h2⟩ := h
    obtain ⟨rfl, rfl⟩ := pure_ok.mp h2
    obtain ⟨rfl, rfl⟩ := ih h1
    simp

theorem sliceToUnbound_ok {l : List Val} {ss : List Val} {b b' : Bytes}
    (h : sliceToUnbound l b = .ok (ss, b')) : l = ss ∧ b' = b := by
  induction l generalizing ss b b' with
  | nil => simp [sliceToUnbound] at h; simp [h]
  | cons v l ih =>
    cases v <;> simp only [sliceToUnbound, Dec.throw_eq, reduceCtorEq] at h
    replace h := bind_ok.mp h; obtain ⟨ts, b1, h1, h2⟩ := h
    obtain ⟨rfl, rfl⟩ := pure_ok.mp h2
    obtain ⟨rfl, rfl⟩ := ih h1
    simp

theorem valuesList_str (ss : List Str) : Val.valuesList (ss.map .str) = ss.length := by
  induction ss with
  | nil => rfl
  | cons s ss ih => simp [Val.valuesList, Val.values, ih]; omega

theorem valuesList_int (ss : List Int) : Val.valuesList (ss.map (.int .int64)) = ss.length := by
  induction ss with
  | nil => rfl
  | cons s ss ih => simp [Val.valuesList, Val.values, ih]; omega

theorem valuesKVs_insert (m : KVs) (k : Str) (v : Val) :
    Val.valuesKVs (mapInsert m k v) ≤ Val.valuesKVs m + 1 + v.values := by
  induction m with
  | nil => simp [mapInsert, Val.valuesKVs]
  | cons e m ih =>
    obtain ⟨k0, v0⟩ := e
    simp only [mapInsert]
    split
    · simp only [Val.valuesKVs]; omega
    · simp only [Val.valuesKVs]; omega

/-- A step started on `b` with result `v` consumed at least `v.values - s` bytes. -/
def Counts (s : Nat) (x : Dec Val) : Prop :=
  ∀ b v b', x b = .ok (v, b') → v.values + b'.length ≤ b.length + s

theorem counts_ite {s : Nat} {c : Prop} [Decidable c] {x y : Dec Val} (h1 : Counts s x) (h2 : Counts s y) :
    Counts s (if c then x else y) := by
  split
  · exact h1
  · exact h2

section
variable {dec : Dec Val} (H : Counts 0 dec)
include H

theorem counts_items (n : Nat) : ∀ b xs b', decodeItems dec n b = .ok (xs, b') →
    Val.valuesList xs + b'.length ≤ b.length := by
  induction n with
  | zero => intro b xs b' h; obtain ⟨rfl, rfl⟩ := pure_ok.mp h; simp [Val.valuesList]
  | succ n ih =>
    intro b xs b' h
    replace h := bind_ok.mp h; obtain ⟨x, b1, h1, h⟩ := h
    replace h := bind_ok.mp h; obtain ⟨ys, b2, h2, h⟩ := h
    obtain ⟨rfl, rfl⟩ := pure_ok.mp h
    have := H _ _ _ h1
    have := ih _ _ _ h2
    simp only [Val.valuesList]; omega

theorem counts_entries (n : Nat) : ∀ m b xs b', decodeEntries dec n m b = .ok (xs, b') →
    Val.valuesKVs xs + b'.length ≤ b.length + Val.valuesKVs m := by
  induction n with
  | zero => intro m b xs b' h; obtain ⟨rfl, rfl⟩ := pure_ok.mp h; omega
  | succ n ih =>
    intro m b xs b' h
    replace h := bind_ok.mp h; obtain ⟨x, b1, h1, h⟩ := h
    replace h := bind_ok.mp h; obtain ⟨y, b2, h2, h⟩ := h
    replace h := bind_ok.mp h; obtain ⟨k, b3, h3, h⟩ := h
    obtain ⟨rfl, rfl⟩ := asKey_ok h3
    have := H _ _ _ h1
    have := H _ _ _ h2
    have := ih _ _ _ _ h
    have := valuesKVs_insert m k y
    simp only [Val.values] at *; omega

theorem counts_slice (n : Int) : Counts 1 (decodeSlice dec n) := by
  unfold decodeSlice
  refine counts_ite (fun b v b' h => by simp at h) (fun b v b' h => ?_)
  replace h := bind_ok.mp h; obtain ⟨xs, b1, h1, h⟩ := h
  obtain ⟨rfl, rfl⟩ := pure_ok.mp h
  have := counts_items H _ _ _ _ h1
  simp only [Val.values]; omega

theorem counts_map (n : Int) : Counts 1 (decodeMap dec n) := by
  intro b v b' h
  replace h := bind_ok.mp h; obtain ⟨xs, b1, h1, h⟩ := h
  obtain ⟨rfl, rfl⟩ := pure_ok.mp h
  have := counts_entries H _ _ _ _ _ h1
  simp only [Val.values, Val.valuesKVs] at *; omega

theorem counts_node : Counts 1 (decodeNode dec) := by
  intro b v b' h
  replace h := bind_ok.mp h; obtain ⟨x1, b1, h1, h⟩ := h
  replace h := bind_ok.mp h; obtain ⟨_, b2, h2, h⟩ := h
  obtain ⟨rfl, rfl⟩ := assertInt64_ok h2
  replace h := bind_ok.mp h; obtain ⟨x3, b3, h3, h⟩ := h
  replace h := bind_ok.mp h; obtain ⟨_, b4, h4, h⟩ := h
  obtain ⟨rfl, rfl⟩ := asList_ok h4
  replace h := bind_ok.mp h; obtain ⟨_, b5, h5, h⟩ := h
  obtain ⟨rfl, rfl⟩ := sliceToString_ok h5
  replace h := bind_ok.mp h; obtain ⟨x6, b6, h6, h⟩ := h
  replace h := bind_ok.mp h; obtain ⟨_, b7, h7, h⟩ := h
  obtain ⟨rfl, rfl⟩ := asMap_ok h7
  obtain ⟨rfl, rfl⟩ := pure_ok.mp h
  have := H _ _ _ h1
  have := H _ _ _ h3
  have := H _ _ _ h6
  simp only [Val.values, valuesList_str] at *; omega

theorem counts_rel : Counts 1 (decodeRelationship dec) := by
  intro b v b' h
  replace h := bind_ok.mp h; obtain ⟨x1, b1, h1, h⟩ := h
  replace h := bind_ok.mp h; obtain ⟨_, b2, h2, h⟩ := h
  obtain ⟨rfl, rfl⟩ := assertInt64_ok h2
  replace h := bind_ok.mp h; obtain ⟨x3, b3, h3, h⟩ := h
  replace h := bind_ok.mp h; obtain ⟨_, b4, h4, h⟩ := h
  obtain ⟨rfl, rfl⟩ := assertInt64_ok h4
  replace h := bind_ok.mp h; obtain ⟨x5, b5, h5, h⟩ := h
  replace h := bind_ok.mp h; obtain ⟨_, b6, h6, h⟩ := h
  obtain ⟨rfl, rfl⟩ := assertInt64_ok h6
  replace h := bind_ok.mp h; obtain ⟨x7, b7, h7, h⟩ := h
  replace h := bind_ok.mp h; obtain ⟨_, b8, h8, h⟩ := h
  obtain ⟨rfl, rfl⟩ := asStr_ok h8
  replace h := bind_ok.mp h; obtain ⟨x9, b9, h9, h⟩ := h
  replace h := bind_ok.mp h; obtain ⟨_, b10, h10, h⟩ := h
  obtain ⟨rfl, rfl⟩ := asMap_ok h10
  obtain ⟨rfl, rfl⟩ := pure_ok.mp h
  have := H _ _ _ h1
  have := H _ _ _ h3
  have := H _ _ _ h5
  have := H _ _ _ h7
  have := H _ _ _ h9
  simp only [Val.values] at *; omega

theorem counts_path : Counts 1 (decodePath dec) := by
  intro b v b' h
  replace h := bind_ok.mp h; obtain ⟨x1, b1, h1, h⟩ := h
  replace h := bind_ok.mp h; obtain ⟨_, b2, h2, h⟩ := h
  obtain ⟨rfl, rfl⟩ := asList_ok h2
  replace h := bind_ok.mp h; obtain ⟨_, b3, h3, h⟩ := h
  obtain ⟨rfl, rfl⟩ := sliceToNode_ok h3
  replace h := bind_ok.mp h; obtain ⟨x4, b4, h4, h⟩ := h
  replace h := bind_ok.mp h; obtain ⟨_, b5, h5, h⟩ := h
  obtain ⟨rfl, rfl⟩ := asList_ok h5
  replace h := bind_ok.mp h; obtain ⟨_, b6, h6, h⟩ := h
  obtain ⟨rfl, rfl⟩ := sliceToUnbound_ok h6
  replace h := bind_ok.mp h; obtain ⟨x7, b7, h7, h⟩ := h
  replace h := bind_ok.mp h; obtain ⟨_, b8, h8, h⟩ := h
  obtain ⟨rfl, rfl⟩ := asList_ok h8
  replace h := bind_ok.mp h; obtain ⟨_, b9, h9, h⟩ := h
  obtain ⟨rfl, rfl⟩ := sliceToInt_ok h9
  obtain ⟨rfl, rfl⟩ := pure_ok.mp h
  have := H _ _ _ h1
  have := H _ _ _ h4
  have := H _ _ _ h7
  simp only [Val.values, valuesList_int] at *; omega

theorem counts_unbound : Counts 1 (decodeUnbound dec) := by
  intro b v b' h
  replace h := bind_ok.mp h; obtain ⟨x1, b1, h1, h⟩ := h
  replace h := bind_ok.mp h; obtain ⟨_, b2, h2, h⟩ := h
  obtain ⟨rfl, rfl⟩ := assertInt64_ok h2
  replace h := bind_ok.mp h; obtain ⟨x3, b3, h3, h⟩ := h
  replace h := bind_ok.mp h; obtain ⟨_, b4, h4, h⟩ := h
  obtain ⟨rfl, rfl⟩ := asStr_ok h4
  replace h := bind_ok.mp h; obtain ⟨x5, b5, h5, h⟩ := h
  replace h := bind_ok.mp h; obtain ⟨_, b6, h6, h⟩ := h
  obtain ⟨rfl, rfl⟩ := asMap_ok h6
  obtain ⟨rfl, rfl⟩ := pure_ok.mp h
  have := H _ _ _ h1
  have := H _ _ _ h3
  have := H _ _ _ h5
  simp only [Val.values] at *; omega

theorem counts_sig (sig : UInt8) : Counts 1 (decodeSig dec sig) := by
  have hmap : ∀ (g : KVs → Val) (m : String), (∀ md, (g md).values = 2 + Val.valuesKVs md) →
      Counts 1 (do let x ← dec; let md ← asMap m x; Dec.pure (g md)) := by
    intro g m hg b v b' h
    replace h := bind_ok.mp h; obtain ⟨x1, b1, h1, h⟩ := h
    replace h := bind_ok.mp h; obtain ⟨_, b2, h2, h⟩ := h
    obtain ⟨rfl, rfl⟩ := asMap_ok h2
    obtain ⟨rfl, rfl⟩ := pure_ok.mp h
    have := H _ _ _ h1
    rw [hg]
    simp only [Val.values] at *; omega
  have hp : ∀ w : Val, w.values = 1 → Counts 1 (Dec.pure w) := by
    intro w hw b v b' h
    obtain ⟨rfl, rfl⟩ := pure_ok.mp h
    omega
  unfold decodeSig
  refine counts_ite (counts_node H) ?_
  refine counts_ite (counts_rel H) ?_
  refine counts_ite (counts_path H) ?_
  refine counts_ite (counts_unbound H) ?_
  refine counts_ite (fun b v b' h => ?_) ?_
  · replace h := bind_ok.mp h; obtain ⟨x1, b1, h1, h⟩ := h
    replace h := bind_ok.mp h; obtain ⟨_, b2, h2, h⟩ := h
    obtain ⟨rfl, rfl⟩ := asList_ok h2
    obtain ⟨rfl, rfl⟩ := pure_ok.mp h
    have := H _ _ _ h1
    simp only [Val.values] at *; omega
  refine counts_ite (hmap .failure _ fun md => by simp only [Val.values]) ?_
  refine counts_ite (hp _ rfl) ?_
  refine counts_ite (hmap .success _ fun md => by simp only [Val.values]) ?_
  refine counts_ite (hp _ rfl) ?_
  refine counts_ite (hp _ rfl) ?_
  refine counts_ite (hp _ rfl) ?_
  refine counts_ite (hp _ rfl) ?_
  exact fun b v b' h => by simp at h

theorem counts_struct (n : Int) : Counts 1 (decodeStruct dec n) := by
  intro b v b' h
  replace h := bind_ok.mp h; obtain ⟨sig, b1, h1, h⟩ := h
  have h2 := counts_sig H sig _ _ _ h
  have h3 := sane_readByte (C := fun _ => True) "An error occurred reading struct signature byte" b
  cases b with
  | nil => simp [readByte] at h1
  | cons x b =>
    simp only [readByte, Except.ok.injEq, Prod.mk.injEq] at h1
    obtain ⟨rfl, rfl⟩ := h1
    simp only [List.length_cons]; omega

end

theorem sane_len {C : Panic → Prop} {k : Nat} {x : Except Fault (α × Bytes)} {b b' : Bytes} {a : α}
    (h : Sane C k x b) (hx : x = .ok (a, b')) : b'.length + k ≤ b.length := by
  rw [hx] at h; exact h.2

set_option maxRecDepth 8000 in
theorem counts_marker {dec : Dec Val} (H : Counts 0 dec) (m : UInt8) : Counts 1 (decodeMarker dec m) := by
  have hp : ∀ w : Val, w.values = 1 → Counts 1 (Dec.pure w) := by
    intro w hw b v b' h
    obtain ⟨rfl, rfl⟩ := pure_ok.mp h
    omega
  have hint : ∀ w, Counts 1 (readInt w) := by
    intro w b v b' h
    have := sane_len (sane_readInt (C := fun _ => True) w b) h
    replace h := bind_ok.mp h; obtain ⟨bs, b1, h1, h⟩ := h
    obtain ⟨rfl, rfl⟩ := pure_ok.mp h
    simp only [Val.values]; omega
  have hnext : ∀ n, Counts 1 (next n) := by
    intro n b v b' h
    have := sane_len (sane_next (C := fun _ => True) (fun _ => trivial) b) h
    unfold next at h
    split at h
    · simp at h
    · simp only [Except.ok.injEq, Prod.mk.injEq] at h
      rw [← h.1]
      simp only [Val.values]; omega
  have hsz : ∀ w msg (g : Int → Dec Val), (∀ n, Counts 1 (g n)) →
      Counts 1 (do let size ← readSize w msg; g size) := by
    intro w msg g hg b v b' h
    replace h := bind_ok.mp h; obtain ⟨n, b1, h1, h⟩ := h
    have := sane_len (sane_readSize (C := fun _ => True) w msg b) h1
    have := hg n _ _ _ h
    omega
  unfold decodeMarker
  iterate 4 refine counts_ite (hp _ rfl) ?_
  iterate 4 refine counts_ite (hint _) ?_
  refine counts_ite (fun b v b' h => ?_) ?_
  · replace h := bind_ok.mp h; obtain ⟨bs, b1, h1, h⟩ := h
    have := sane_len (sane_readRaw (C := fun _ => True) 8 b) h1
    obtain ⟨rfl, rfl⟩ := pure_ok.mp h
    simp only [Val.values]; omega
  refine counts_ite (counts_ite (hp _ rfl) (hnext _)) ?_
  iterate 3 refine counts_ite (hsz _ _ _ hnext) ?_
  refine counts_ite (counts_slice H _) ?_
  iterate 3 refine counts_ite (hsz _ _ _ (counts_slice H)) ?_
  refine counts_ite (counts_map H _) ?_
  iterate 3 refine counts_ite (hsz _ _ _ (counts_map H)) ?_
  refine counts_ite (counts_struct H _) ?_
  iterate 2 refine counts_ite (hsz _ _ _ (counts_struct H)) ?_
  exact fun b v b' h => by simp at h

/-- The values delivered are at most the bytes consumed. -/
theorem counts_decode (f : Nat) : Counts 0 (decode f) := by
  induction f with
  | zero => intro b v b' h; simp [decode] at h
  | succ f ih =>
    intro b v b' h
    cases b with
    | nil => simp [decode, readByte] at h
    | cons m b =>
      rw [decode_cons] at h
      have := counts_marker ih m _ _ _ h
      simp only [List.length_cons]; omega

/-- A list that announces more elements than there are bytes left is never delivered. -/
theorem items_short (f n : Nat) (b : Bytes) (hb : b.length < f) (h : b.length < n) :
    ∀ r, decodeItems (decode f) n b ≠ .ok r := by
  rintro ⟨xs, b'⟩ hx
  have h1 := sane_items (C := PanicCause b) (dec := decode f) (b := b)
    (fun b' h' => decode_sane b f b' h' (by have := h'.length_le; omega)) n b (List.suffix_refl b)
  have := sane_len h1 hx
  omega

/-! ## Depth -/

mutual
theorem depth_le_values : (v : Val) → v.depth ≤ v.values
  | .list xs => by simp only [Val.depth, Val.values]; have := depth_le_valuesList xs; omega
  | .typedSlice xs => by simp only [Val.depth, Val.values]; have := depth_le_valuesList xs; omega
  | .map kvs => by simp only [Val.depth, Val.values]; have := depth_le_valuesKVs kvs; omega
  | .node _ _ ps => by simp only [Val.depth, Val.values]; have := depth_le_valuesKVs ps; omega
  | .rel _ _ _ _ ps => by simp only [Val.depth, Val.values]; have := depth_le_valuesKVs ps; omega
  | .unbound _ _ ps => by simp only [Val.depth, Val.values]; have := depth_le_valuesKVs ps; omega
  | .path ns rs _ => by
    simp only [Val.depth, Val.values]
    have := depth_le_valuesList ns; have := depth_le_valuesList rs; omega
  | .record fs => by simp only [Val.depth, Val.values]; have := depth_le_valuesList fs; omega
  | .success md => by simp only [Val.depth, Val.values]; have := depth_le_valuesKVs md; omega
  | .failure md => by simp only [Val.depth, Val.values]; have := depth_le_valuesKVs md; omega
  | .init _ a => by simp only [Val.depth, Val.values]; have := depth_le_valuesKVs a; omega
  | .run _ a => by simp only [Val.depth, Val.values]; have := depth_le_valuesKVs a; omega
  | .userStruct _ fs => by simp only [Val.depth, Val.values]; have := depth_le_valuesList fs; omega
  | .nil | .bool _ | .int _ _ | .float32 _ | .float64 _ | .str _ | .ignored | .ackFailure | .discardAll
  | .pullAll | .reset | .other _ => by simp only [Val.depth, Val.values]; omega

theorem depth_le_valuesList : (xs : List Val) → Val.depthList xs ≤ Val.valuesList xs
  | [] => Nat.le_refl _
  | x :: xs => by
    simp only [Val.depthList, Val.valuesList]
    have := depth_le_values x; have := depth_le_valuesList xs; omega

theorem depth_le_valuesKVs : (xs : List (Str × Val)) → Val.depthKVs xs ≤ Val.valuesKVs xs
  | [] => Nat.le_refl _
  | (_, x) :: xs => by
    simp only [Val.depthKVs, Val.valuesKVs]
    have := depth_le_values x; have := depth_le_valuesKVs xs; omega
end

end Bolt
