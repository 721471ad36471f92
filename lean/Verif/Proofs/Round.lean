import Verif.Spec.Normal

/-! Sending and reading back, on the level of PackStream values. -/

namespace Bolt
open PackStream

theorem firstKeys_nodup {kvs : List (Str × α)} (h : (kvs.map Prod.fst).Nodup) : firstKeys kvs = kvs.map Prod.fst := by
  induction kvs with
  | nil => rfl
  | cons kv kvs ih =>
    obtain ⟨k, v⟩ := kv
    simp only [List.map_cons, List.nodup_cons] at h
    simp only [firstKeys, List.map_cons, ih h.2, List.cons.injEq, true_and]
    rw [List.filter_eq_self]
    intro a ha
    simp only [ne_eq, decide_eq_true_eq]
    rintro rfl
    exact h.1 ha

theorem getLast?_not_mem {kvs : List (Str × α)} {k : Str} (h : k ∉ kvs.map Prod.fst) : getLast? kvs k = none := by
  induction kvs with
  | nil => rfl
  | cons kv kvs ih =>
    obtain ⟨k', v⟩ := kv
    simp only [List.map_cons, List.mem_cons, not_or] at h
    simp [getLast?, ih h.2, Ne.symm h.1]

theorem filterMap_congr' {l : List α} {f g : α → Option β} (h : ∀ a ∈ l, f a = g a) :
    l.filterMap f = l.filterMap g := by
  induction l with
  | nil => rfl
  | cons a l ih =>
    rw [List.filterMap_cons, List.filterMap_cons, h a (by simp), ih fun b hb => h b (by simp [hb])]

theorem lastWins_nodup {kvs : List (Str × α)} (h : (kvs.map Prod.fst).Nodup) : lastWins kvs = kvs := by
  unfold lastWins
  rw [firstKeys_nodup h]
  induction kvs with
  | nil => rfl
  | cons kv kvs ih =>
    obtain ⟨k, v⟩ := kv
    simp only [List.map_cons, List.nodup_cons] at h
    have e1 : getLast? ((k, v) :: kvs) k = some v := by simp [getLast?, getLast?_not_mem h.1]
    simp only [List.map_cons, List.filterMap_cons, e1, Option.map_some, List.cons.injEq, true_and]
    refine Eq.trans (filterMap_congr' fun a ha => ?_) (ih h.2)
    have hne : k ≠ a := by rintro rfl; exact h.1 ha
    simp only [getLast?]
    cases getLast? kvs a <;> simp [hne]

theorem returnsKVs_keys {kvs ws : KVs} (h : ReturnsKVs kvs ws) : ws.map Prod.fst = kvs.map Prod.fst := by
  induction kvs generalizing ws with
  | nil => simp only [ReturnsKVs] at h; subst h; rfl
  | cons kv kvs ih =>
    obtain ⟨k, v⟩ := kv
    simp only [ReturnsKVs] at h
    obtain ⟨w, zs, _, h2, rfl⟩ := h
    simp [ih h2]

theorem ofPSList_strs (ls : List Str) : ofPSList (ls.map .str) = some (ls.map .str) := by
  induction ls with
  | nil => rfl
  | cons l ls ih => simp [ofPSList, ofPS, ih]

theorem allStr_strs (ls : List Str) : allStr (ls.map .str) = some ls := by
  induction ls with
  | nil => rfl
  | cons l ls ih => simp [allStr, ih]

theorem ofPSList_ints (ls : List Int) : ofPSList (ls.map .int) = some (ls.map (.int .int64)) := by
  induction ls with
  | nil => rfl
  | cons l ls ih => simp [ofPSList, ofPS, ih]

theorem allInt_ints (ls : List Int) : allInt (ls.map (.int .int64)) = some ls := by
  induction ls with
  | nil => rfl
  | cons l ls ih => simp [allInt, ih]

theorem allNode_of {ns ws : List Val} (h : ReturnsList ns ws) (hn : ∀ n ∈ ns, IsNode n) : allNode ws = true := by
  induction ns generalizing ws with
  | nil => simp only [ReturnsList] at h; subst h; rfl
  | cons n ns ih =>
    simp only [ReturnsList] at h
    obtain ⟨y, zs, h1, h2, rfl⟩ := h
    have := hn n (by simp)
    cases n <;> simp only [IsNode] at this
    simp only [Returns] at h1
    obtain ⟨qs, _, rfl⟩ := h1
    first
    | (simp only [allNode]; exact ih h2 fun m hm => hn m (by simp [hm]))
    | (simp only [allUnbound]; exact ih h2 fun m hm => hn m (by simp [hm]))

theorem allUnbound_of {ns ws : List Val} (h : ReturnsList ns ws) (hn : ∀ n ∈ ns, IsUnbound n) :
    allUnbound ws = true := by
  induction ns generalizing ws with
  | nil => simp only [ReturnsList] at h; subst h; rfl
  | cons n ns ih =>
    simp only [ReturnsList] at h
    obtain ⟨y, zs, h1, h2, rfl⟩ := h
    have := hn n (by simp)
    cases n <;> simp only [IsUnbound] at this
    simp only [Returns] at h1
    obtain ⟨qs, _, rfl⟩ := h1
    first
    | (simp only [allNode]; exact ih h2 fun m hm => hn m (by simp [hm]))
    | (simp only [allUnbound]; exact ih h2 fun m hm => hn m (by simp [hm]))

/-- Conditions at one level. -/
def RoundHere (v : Val) : Prop := v.TypedHere ∧ v.DecodableHere

section
variable {P Q : Val → Prop}
mutual
theorem all_and : (v : Val) → Val.All P v → Val.All Q v → Val.All (fun v => P v ∧ Q v) v
  | .list xs, h1, h2 => by
    simp only [Val.All] at *; exact ⟨⟨h1.1, h2.1⟩, all_andList xs h1.2 h2.2⟩
  | .typedSlice xs, h1, h2 => by
    simp only [Val.All] at *; exact ⟨⟨h1.1, h2.1⟩, all_andList xs h1.2 h2.2⟩
  | .record xs, h1, h2 => by
    simp only [Val.All] at *; exact ⟨⟨h1.1, h2.1⟩, all_andList xs h1.2 h2.2⟩
  | .userStruct _ xs, h1, h2 => by
    simp only [Val.All] at *; exact ⟨⟨h1.1, h2.1⟩, all_andList xs h1.2 h2.2⟩
  | .path ns rs _, h1, h2 => by
    simp only [Val.All] at *
    exact ⟨⟨h1.1, h2.1⟩, all_andList ns h1.2.1 h2.2.1, all_andList rs h1.2.2 h2.2.2⟩
  | .map xs, h1, h2 => by
    simp only [Val.All] at *; exact ⟨⟨h1.1, h2.1⟩, all_andKVs xs h1.2 h2.2⟩
  | .node _ _ xs, h1, h2 => by
    simp only [Val.All] at *; exact ⟨⟨h1.1, h2.1⟩, all_andKVs xs h1.2 h2.2⟩
  | .rel _ _ _ _ xs, h1, h2 => by
    simp only [Val.All] at *; exact ⟨⟨h1.1, h2.1⟩, all_andKVs xs h1.2 h2.2⟩
  | .unbound _ _ xs, h1, h2 => by
    simp only [Val.All] at *; exact ⟨⟨h1.1, h2.1⟩, all_andKVs xs h1.2 h2.2⟩
  | .success xs, h1, h2 => by
    simp only [Val.All] at *; exact ⟨⟨h1.1, h2.1⟩, all_andKVs xs h1.2 h2.2⟩
  | .failure xs, h1, h2 => by
    simp only [Val.All] at *; exact ⟨⟨h1.1, h2.1⟩, all_andKVs xs h1.2 h2.2⟩
  | .init _ xs, h1, h2 => by
    simp only [Val.All] at *; exact ⟨⟨h1.1, h2.1⟩, all_andKVs xs h1.2 h2.2⟩
  | .run _ xs, h1, h2 => by
    simp only [Val.All] at *; exact ⟨⟨h1.1, h2.1⟩, all_andKVs xs h1.2 h2.2⟩
  | .nil, h1, h2 | .bool _, h1, h2 | .int _ _, h1, h2 | .float32 _, h1, h2 | .float64 _, h1, h2
  | .str _, h1, h2 | .ignored, h1, h2 | .ackFailure, h1, h2 | .discardAll, h1, h2 | .pullAll, h1, h2
  | .reset, h1, h2 | .other _, h1, h2 => ⟨h1, h2⟩

theorem all_andList : (xs : List Val) → Val.AllList P xs → Val.AllList Q xs → Val.AllList (fun v => P v ∧ Q v) xs
  | [], _, _ => trivial
  | x :: xs, h1, h2 => by
    simp only [Val.AllList] at *; exact ⟨all_and x h1.1 h2.1, all_andList xs h1.2 h2.2⟩

theorem all_andKVs : (xs : List (Str × Val)) → Val.AllKVs P xs → Val.AllKVs Q xs → Val.AllKVs (fun v => P v ∧ Q v) xs
  | [], _, _ => trivial
  | (_, x) :: xs, h1, h2 => by
    simp only [Val.AllKVs] at *; exact ⟨all_and x h1.1 h2.1, all_andKVs xs h1.2 h2.2⟩
end

variable (hPQ : ∀ v, P v → Q v)
include hPQ
mutual
theorem all_mono : (v : Val) → Val.All P v → Val.All Q v
  | .list xs, h1 => by simp only [Val.All] at *; exact ⟨hPQ _ h1.1, all_monoList xs h1.2⟩
  | .typedSlice xs, h1 => by simp only [Val.All] at *; exact ⟨hPQ _ h1.1, all_monoList xs h1.2⟩
  | .record xs, h1 => by simp only [Val.All] at *; exact ⟨hPQ _ h1.1, all_monoList xs h1.2⟩
  | .userStruct _ xs, h1 => by simp only [Val.All] at *; exact ⟨hPQ _ h1.1, all_monoList xs h1.2⟩
  | .path ns rs _, h1 => by
    simp only [Val.All] at *
    exact ⟨hPQ _ h1.1, all_monoList ns h1.2.1, all_monoList rs h1.2.2⟩
  | .map xs, h1 => by simp only [Val.All] at *; exact ⟨hPQ _ h1.1, all_monoKVs xs h1.2⟩
  | .node _ _ xs, h1 => by simp only [Val.All] at *; exact ⟨hPQ _ h1.1, all_monoKVs xs h1.2⟩
  | .rel _ _ _ _ xs, h1 => by simp only [Val.All] at *; exact ⟨hPQ _ h1.1, all_monoKVs xs h1.2⟩
  | .unbound _ _ xs, h1 => by simp only [Val.All] at *; exact ⟨hPQ _ h1.1, all_monoKVs xs h1.2⟩
  | .success xs, h1 => by simp only [Val.All] at *; exact ⟨hPQ _ h1.1, all_monoKVs xs h1.2⟩
  | .failure xs, h1 => by simp only [Val.All] at *; exact ⟨hPQ _ h1.1, all_monoKVs xs h1.2⟩
  | .init _ xs, h1 => by simp only [Val.All] at *; exact ⟨hPQ _ h1.1, all_monoKVs xs h1.2⟩
  | .run _ xs, h1 => by simp only [Val.All] at *; exact ⟨hPQ _ h1.1, all_monoKVs xs h1.2⟩
  | .nil, h1 | .bool _, h1 | .int _ _, h1 | .float32 _, h1 | .float64 _, h1
  | .str _, h1 | .ignored, h1 | .ackFailure, h1 | .discardAll, h1 | .pullAll, h1
  | .reset, h1 | .other _, h1 => hPQ _ h1

theorem all_monoList : (xs : List Val) → Val.AllList P xs → Val.AllList Q xs
  | [], _ => trivial
  | x :: xs, h1 => by
    simp only [Val.AllList] at *; exact ⟨all_mono x h1.1, all_monoList xs h1.2⟩

theorem all_monoKVs : (xs : List (Str × Val)) → Val.AllKVs P xs → Val.AllKVs Q xs
  | [], _ => trivial
  | (_, x) :: xs, h1 => by
    simp only [Val.AllKVs] at *; exact ⟨all_mono x h1.1, all_monoKVs xs h1.2⟩
end
end

mutual
/-- A well-typed value of a type the client can receive comes back as itself. -/
theorem ret_of : (v : Val) → (p : PS) → Val.All RoundHere v → Means v p → ∃ w, ofPS p = some w ∧ Returns v w
  | .nil, p, h, hm => by simp only [Means] at hm; subst hm; exact ⟨_, rfl, rfl⟩
  | .bool b, p, h, hm => by simp only [Means] at hm; subst hm; exact ⟨_, rfl, rfl⟩
  | .int k n, p, h, hm => by simp only [Means] at hm; subst hm; exact ⟨_, rfl, rfl⟩
  | .float32 f, p, h, hm => by
    simp only [Means] at hm; obtain ⟨d, h1, rfl⟩ := hm
    exact ⟨_, rfl, by simp only [Returns]; exact ⟨d, h1, rfl⟩⟩
  | .float64 f, p, h, hm => by simp only [Means] at hm; subst hm; exact ⟨_, rfl, rfl⟩
  | .str s, p, h, hm => by simp only [Means] at hm; subst hm; exact ⟨_, rfl, rfl⟩
  | .list xs, p, h, hm => by
    simp only [Means] at hm; obtain ⟨ps, h1, rfl⟩ := hm
    simp only [Val.All] at h
    obtain ⟨ys, h2, h3⟩ := ret_list xs ps h.2 h1
    exact ⟨.list ys, by simp [ofPS, h2], by simp only [Returns]; exact ⟨ys, h3, rfl⟩⟩
  | .typedSlice xs, p, h, hm => by
    simp only [Means] at hm; obtain ⟨ps, h1, rfl⟩ := hm
    simp only [Val.All] at h
    obtain ⟨ys, h2, h3⟩ := ret_list xs ps h.2 h1
    exact ⟨.list ys, by simp [ofPS, h2], by simp only [Returns]; exact ⟨ys, h3, rfl⟩⟩
  | .map kvs, p, h, hm => by
    simp only [Means] at hm; obtain ⟨ps, h1, rfl⟩ := hm
    simp only [Val.All] at h
    obtain ⟨ys, h2, h3, h4⟩ := ret_map kvs ps h.1.1 h.2 h1
    exact ⟨.map ys, h2, by simp only [Returns]; exact ⟨ys, h3, rfl⟩⟩
  | .node id ls kvs, p, h, hm => by
    simp only [Means] at hm; obtain ⟨ps, h1, rfl⟩ := hm
    simp only [Val.All] at h
    obtain ⟨ys, h2, h3, h4⟩ := ret_map kvs ps h.1.1.2 h.2 h1
    refine ⟨.node id ls ys, ?_, by simp only [Returns]; exact ⟨ys, h3, rfl⟩⟩
    have hl : ofPS (.list (ls.map .str)) = some (.list (ls.map .str)) := by simp [ofPS, ofPSList_strs]
    have hi : ofPS (.int id) = some (.int .int64 id) := rfl
    rw [ofPS]
    simp [ofPSList, h2, hl, hi, structOf, allStr_strs]
  | .rel id s e t kvs, p, h, hm => by
    simp only [Means] at hm; obtain ⟨ps, h1, rfl⟩ := hm
    simp only [Val.All] at h
    obtain ⟨ys, h2, h3, h4⟩ := ret_map kvs ps h.1.1.2.2.2 h.2 h1
    refine ⟨.rel id s e t ys, ?_, by simp only [Returns]; exact ⟨ys, h3, rfl⟩⟩
    have hi : ∀ i, ofPS (.int i) = some (.int .int64 i) := fun _ => rfl
    have ht : ofPS (.str t) = some (.str t) := rfl
    rw [ofPS]
    simp [ofPSList, h2, ht, hi, structOf]
  | .unbound id t kvs, p, h, hm => by
    simp only [Means] at hm; obtain ⟨ps, h1, rfl⟩ := hm
    simp only [Val.All] at h
    obtain ⟨ys, h2, h3, h4⟩ := ret_map kvs ps h.1.1.2 h.2 h1
    refine ⟨.unbound id t ys, ?_, by simp only [Returns]; exact ⟨ys, h3, rfl⟩⟩
    have hi : ∀ i, ofPS (.int i) = some (.int .int64 i) := fun _ => rfl
    have ht : ofPS (.str t) = some (.str t) := rfl
    rw [ofPS]
    simp [ofPSList, h2, ht, hi, structOf]
  | .path ns rs sq, p, h, hm => by
    simp only [Means] at hm; obtain ⟨ps, qs, h1, h2, rfl⟩ := hm
    simp only [Val.All] at h
    obtain ⟨ns', h3, h4⟩ := ret_list ns ps h.2.1 h1
    obtain ⟨rs', h5, h6⟩ := ret_list rs qs h.2.2 h2
    refine ⟨.path ns' rs' sq, ?_, by simp only [Returns]; exact ⟨ns', rs', h4, h6, rfl⟩⟩
    have e1 : ofPS (.list ps) = some (.list ns') := by simp [ofPS, h3]
    have e2 : ofPS (.list qs) = some (.list rs') := by simp [ofPS, h5]
    have e3 : ofPS (.list (sq.map .int)) = some (.list (sq.map (.int .int64))) := by simp [ofPS, ofPSList_ints]
    rw [ofPS]
    simp [ofPSList, e1, e2, e3, structOf, allNode_of h4 h.1.1.1, allUnbound_of h6 h.1.1.2.1, allInt_ints]
  | .record fs, p, h, hm => by
    simp only [Means] at hm; obtain ⟨ps, h1, rfl⟩ := hm
    simp only [Val.All] at h
    obtain ⟨ys, h2, h3⟩ := ret_list fs ps h.2 h1
    refine ⟨.record ys, ?_, by simp only [Returns]; exact ⟨ys, h3, rfl⟩⟩
    have e1 : ofPS (.list ps) = some (.list ys) := by simp [ofPS, h2]
    rw [ofPS]
    simp [ofPSList, e1, structOf]
  | .success kvs, p, h, hm => by
    simp only [Means] at hm; obtain ⟨ps, h1, rfl⟩ := hm
    simp only [Val.All] at h
    obtain ⟨ys, h2, h3, h4⟩ := ret_map kvs ps h.1.1 h.2 h1
    refine ⟨.success ys, ?_, by simp only [Returns]; exact ⟨ys, h3, rfl⟩⟩
    rw [ofPS]
    simp [ofPSList, h2, structOf]
  | .failure kvs, p, h, hm => by
    simp only [Means] at hm; obtain ⟨ps, h1, rfl⟩ := hm
    simp only [Val.All] at h
    obtain ⟨ys, h2, h3, h4⟩ := ret_map kvs ps h.1.1 h.2 h1
    refine ⟨.failure ys, ?_, by simp only [Returns]; exact ⟨ys, h3, rfl⟩⟩
    rw [ofPS]
    simp [ofPSList, h2, structOf]
  | .ignored, p, h, hm => by simp only [Means] at hm; subst hm; exact ⟨.ignored, by simp [ofPS, ofPSList, structOf], rfl⟩
  | .ackFailure, p, h, hm => by simp only [Means] at hm; subst hm; exact ⟨.ackFailure, by simp [ofPS, ofPSList, structOf], rfl⟩
  | .discardAll, p, h, hm => by simp only [Means] at hm; subst hm; exact ⟨.discardAll, by simp [ofPS, ofPSList, structOf], rfl⟩
  | .pullAll, p, h, hm => by simp only [Means] at hm; subst hm; exact ⟨.pullAll, by simp [ofPS, ofPSList, structOf], rfl⟩
  | .reset, p, h, hm => by simp only [Means] at hm; subst hm; exact ⟨.reset, by simp [ofPS, ofPSList, structOf], rfl⟩
  | .init _ _, p, h, hm => by simp only [Val.All] at h; exact h.1.2.elim
  | .run _ _, p, h, hm => by simp only [Val.All] at h; exact h.1.2.elim
  | .userStruct _ _, p, h, hm => by simp only [Val.All] at h; exact h.1.2.elim
  | .other _, p, h, hm => by simp only [Means] at hm

theorem ret_list : (xs : List Val) → (ps : List PS) → Val.AllList RoundHere xs → MeansList xs ps →
    ∃ ys, ofPSList ps = some ys ∧ ReturnsList xs ys
  | [], ps, h, hm => by simp only [MeansList] at hm; subst hm; exact ⟨[], rfl, rfl⟩
  | x :: xs, ps, h, hm => by
    simp only [MeansList] at hm; obtain ⟨q, qs, h1, h2, rfl⟩ := hm
    simp only [Val.AllList] at h
    obtain ⟨y, h3, h4⟩ := ret_of x q h.1 h1
    obtain ⟨ys, h5, h6⟩ := ret_list xs qs h.2 h2
    exact ⟨y :: ys, by simp [ofPSList, h3, h5], by simp only [ReturnsList]; exact ⟨y, ys, h4, h6, rfl⟩⟩

theorem ret_kvs : (xs : List (Str × Val)) → (ps : List (Bytes × PS)) → Val.AllKVs RoundHere xs → MeansKVs xs ps →
    ∃ ys, ofPSKVs ps = some ys ∧ ReturnsKVs xs ys
  | [], ps, h, hm => by simp only [MeansKVs] at hm; subst hm; exact ⟨[], rfl, rfl⟩
  | (k, x) :: xs, ps, h, hm => by
    simp only [MeansKVs] at hm; obtain ⟨q, qs, h1, h2, rfl⟩ := hm
    simp only [Val.AllKVs] at h
    obtain ⟨y, h3, h4⟩ := ret_of x q h.1 h1
    obtain ⟨ys, h5, h6⟩ := ret_kvs xs qs h.2 h2
    exact ⟨(k, y) :: ys, by simp [ofPSKVs, h3, h5], by simp only [ReturnsKVs]; exact ⟨y, ys, h4, h6, rfl⟩⟩

theorem ret_map (xs : List (Str × Val)) (ps : List (Bytes × PS)) (hd : DistinctKeys xs) (h : Val.AllKVs RoundHere xs)
    (hm : MeansKVs xs ps) : ∃ ys, ofPS (.map ps) = some (.map ys) ∧ ReturnsKVs xs ys ∧ True := by
  obtain ⟨ys, h1, h2⟩ := ret_kvs xs ps h hm
  refine ⟨ys, ?_, h2, trivial⟩
  have : (ys.map Prod.fst).Nodup := by rw [returnsKVs_keys h2]; exact hd
  simp [ofPS, h1, lastWins_nodup this]
end

end Bolt
