import Verif.Props.Surface

/-! # Exactly when the Next of database/sql stores a row, reports an error or panics: C61 -/

namespace Bolt

variable {σ : Type}

/-- A value that has a place in a row of database/sql. -/
def HasPlace (v : Val) : Prop := IsScalar v ∨ IsContainer v

theorem sqlValue_place {v : Val} (hr : v.Received) : (HasPlace v → ∃ d, sqlValue v = .ok d) ∧
    (¬ HasPlace v → ∃ e, sqlValue v = .error e) := by
  have hok := marshal_received hr
  have hm : ∃ d, sqlMarshal v = .ok d := by
    unfold sqlMarshal
    cases h : marshal v with
    | mk b e =>
      rw [h] at hok
      cases hok
      exact ⟨_, rfl⟩
  refine ⟨fun h => ?_, fun h => ?_⟩
  · rcases h with h | h
    · cases v with
      | int k n =>
        have : k = .int64 := hr.1.1
        subst this
        exact ⟨_, rfl⟩
      | float32 => exact hr.1.elim
      | nil | bool | float64 | str => exact ⟨_, rfl⟩
      | _ => exact h.elim
    · cases v <;> first | exact h.elim | exact hm
  · cases v <;> first | exact (h (.inl trivial)).elim | exact (h (.inr trivial)).elim | exact ⟨_, rfl⟩

theorem storeRow_place (vs : List Val) (hv : ∀ v ∈ vs, v.Received) : ∀ (i : Nat) (dest : List DVal), i ≤ dest.length →
    ((∃ out, storeRow i dest vs = .ok out) ↔ i + vs.length ≤ dest.length ∧ ∀ v ∈ vs, HasPlace v) ∧
    (storeRow i dest vs = .error (.panic .index) ↔ dest.length < i + vs.length ∧ ∀ v ∈ vs.take (dest.length - i), HasPlace v) ∧
    ((∃ e, storeRow i dest vs = .error (.err e)) ↔ ∃ v ∈ vs.take (dest.length - i), ¬ HasPlace v) := by
  induction vs with
  | nil =>
    intro i dest hi
    refine ⟨⟨fun _ => ⟨hi, by simp⟩, fun _ => ⟨_, rfl⟩⟩, ⟨fun h => by simp [storeRow] at h, fun h => ?_⟩, ⟨fun ⟨e, h⟩ => by simp [storeRow] at h, fun ⟨v, h, _⟩ => by simp at h⟩⟩
    have := h.1
    simp only [List.length_nil] at this
    omega
  | cons v vs ih =>
    intro i dest hi
    simp only [List.forall_mem_cons] at hv
    by_cases hl : i < dest.length
    · obtain ⟨n, hn⟩ : ∃ n, dest.length - i = n + 1 := ⟨dest.length - i - 1, by omega⟩
      by_cases hp : HasPlace v
      · obtain ⟨d, hd⟩ := (sqlValue_place hv.1).1 hp
        have hs : storeRow i dest (v :: vs) = storeRow (i + 1) (dest.set i d) vs := by
          simp only [storeRow, hd, hl, if_true]
        obtain ⟨h1, h2, h3⟩ := ih hv.2 (i + 1) (dest.set i d) (by rw [List.length_set]; omega)
        rw [List.length_set] at h1 h2 h3
        rw [show dest.length - (i + 1) = n by omega] at h2 h3
        rw [hs, h1, h2, h3, hn]
        simp only [List.length_cons, List.take_succ_cons, List.forall_mem_cons]
        refine ⟨⟨fun h => ⟨by omega, hp, h.2⟩, fun h => ⟨by omega, h.2.2⟩⟩, ⟨fun h => ⟨by omega, hp, h.2⟩, fun h => ⟨by omega, h.2.2⟩⟩, ⟨fun ⟨x, hx, hn⟩ => ⟨x, List.mem_cons_of_mem _ hx, hn⟩, fun ⟨x, hx, hn⟩ => ?_⟩⟩
        rcases List.mem_cons.1 hx with rfl | hx
        · exact (hn hp).elim
        · exact ⟨x, hx, hn⟩
      · obtain ⟨e, he⟩ := (sqlValue_place hv.1).2 hp
        have hs : storeRow i dest (v :: vs) = .error (.err e) := by simp only [storeRow, he, hl, if_true]
        rw [hs, hn]
        simp only [List.take_succ_cons, List.forall_mem_cons]
        refine ⟨⟨fun ⟨_, h⟩ => (by cases h), fun h => (hp h.2.1).elim⟩, ⟨fun h => (by cases h), fun h => (hp h.2.1).elim⟩,
          ⟨fun _ => ⟨v, List.mem_cons_self, hp⟩, fun _ => ⟨e, rfl⟩⟩⟩
    · have hs : storeRow i dest (v :: vs) = .error (.panic .index) := by
        cases hd : sqlValue v <;> simp only [storeRow, hd, hl, if_false]
      rw [hs, show dest.length - i = 0 by omega]
      simp only [List.take_zero, List.length_cons]
      refine ⟨⟨fun ⟨_, h⟩ => (by cases h), fun h => (by omega)⟩, ⟨fun _ => ⟨by omega, by simp⟩, fun _ => trivial⟩,
        ⟨fun ⟨_, h⟩ => (by cases h), fun ⟨_, h, _⟩ => (by simp at h)⟩⟩

/-- C61, the exact condition: a row received is stored if and only if the caller made room for all its values and none is a message
structure; it is answered with an error if and only if one of the values there is room for is a message structure; otherwise, if
the row is longer than the room, Next panics. -/
theorem c61_iff_partial (P : Peer σ) (close : M σ (Option GoErr)) (r : Nat) (dest : List DVal) (w w' : World σ) (vs : List Val) (md : Option KVs)
    (h : nextNeo P close r w = .ok (some vs, md, none) w') (hv : ∀ v ∈ vs, v.Received) :
    ((∃ out, sqlNext P close r dest w = .ok (.ok out) w') ↔ vs.length ≤ dest.length ∧ ∀ v ∈ vs, IsScalar v ∨ IsContainer v) ∧
    ((∃ e, sqlNext P close r dest w = .ok (.error e) w') ↔ ∃ v ∈ vs.take dest.length, ¬ IsScalar v ∧ ¬ IsContainer v) ∧
    (sqlNext P close r dest w = .panic .index w' ↔
      dest.length < vs.length ∧ ∀ v ∈ vs.take dest.length, IsScalar v ∨ IsContainer v) := by
  have hs (a : Except Fault (List DVal)) (ha : storeRow 0 dest vs = a) : sqlNext P close r dest w = (match a with
      | .ok d => .ok (.ok d) w'
      | .error (.err e) => .ok (.error e) w'
      | .error (.panic p) => .panic p w'
      | .error .fuel => .deep w') := by
    unfold sqlNext
    refine (mbind_ok h).trans ?_
    simp only [Option.getD_some, ha]
    cases a with
    | ok => rfl
    | error f => cases f <;> rfl
  obtain ⟨h1, h2, h3⟩ := storeRow_place vs hv 0 dest (Nat.zero_le _)
  simp only [Nat.zero_add, Nat.sub_zero] at h1 h2 h3
  have h3' : (∃ v ∈ vs.take dest.length, ¬ IsScalar v ∧ ¬ IsContainer v) ↔ ∃ v ∈ vs.take dest.length, ¬ HasPlace v :=
    exists_congr fun v => and_congr_right fun _ => not_or.symm
  rw [h3', ← h3]
  refine ⟨Iff.trans ?_ h1, ?_, Iff.trans ?_ h2⟩
  all_goals
    cases ha : storeRow 0 dest vs with
    | ok d =>
      rw [hs _ ha]
      constructor <;> intro e <;> first | exact ⟨_, rfl⟩ | (cases e; done) | (obtain ⟨_, e⟩ := e; cases e)
    | error f =>
      rw [hs _ ha]
      cases f <;> constructor <;> intro e <;> first | exact ⟨_, rfl⟩ | (cases e; rfl) | (cases e; done) | (obtain ⟨_, e⟩ := e; cases e)

/-- All three happen. -/
example : (∃ out, storeRow 0 [.plain .nil, .plain .nil] [.str [97]] = .ok out) ∧
    storeRow 0 [.plain .nil] [.str [97], .ignored] = .error (.panic .index) ∧
    ∃ e, storeRow 0 [.plain .nil, .plain .nil] [.str [97], .ignored, .nil] = .error (.err e) := ⟨⟨_, rfl⟩, rfl, _, rfl⟩

end Bolt
