import Verif.Proofs.Pool

/-!
# Connections on their way into or out of the pool are known to one call only
-/

namespace Bolt.Pooling

variable {max : Nat}

/-- The sum over all calls. -/
def tot (f : PC → Nat) (l : List PC) : Nat := (l.map f).sum

theorem tot_mid (f : PC → Nat) (pre post : List PC) (pc : PC) : tot f (pre ++ pc :: post) = tot f pre + tot f post + f pc := by
  unfold tot
  simp [List.sum_append]
  omega

theorem tot_nil (f : PC → Nat) : tot f [] = 0 := rfl

theorem tot_mem {f : PC → Nat} {l : List PC} {pc : PC} (h : pc ∈ l) : f pc ≤ tot f l := by
  obtain ⟨pre, post, rfl⟩ := List.append_of_mem h
  rw [tot_mid]; omega

theorem mem_mid {pre post : List PC} {pc q : PC} : q ∈ pre ++ pc :: post ↔ (q = pc ∨ q ∈ pre ∨ q ∈ post) := by
  simp only [List.mem_append, List.mem_cons]
  constructor <;> rintro (h | h | h) <;> simp [h]

theorem upd_same (f : Nat → α) (i : Nat) (v : α) : upd f i v i = v := if_pos rfl

theorem upd_other {i j : Nat} (f : Nat → α) (v : α) (h : j ≠ i) : upd f i v j = f j := if_neg h

/-- One if `c` is `d`. -/
def one (c d : Nat) : Nat := if d = c then 1 else 0

theorem one_same (c : Nat) : one c c = 1 := if_pos rfl

theorem count_cons' (c d : Nat) (l : List Nat) : (d :: l).count c = l.count c + one c d := by
  rw [List.count_cons]
  unfold one
  by_cases h : d = c
  · subst h; simp
  · have : (d == c) = false := by simpa using h
    simp [this, h]

theorem count_snoc (c d : Nat) (l : List Nat) : (l ++ [d]).count c = l.count c + one c d := by
  rw [List.count_append, count_cons']; simp

/-- How often a connection is among those that only this call knows. -/
def PC.mine (c : Nat) : PC → Nat
  | .received d => one c d
  | .failed d _ => one c d
  | .failedSend m d _ => one c m + one c d
  | .opened (some d) => one c d
  | .closeSend m => one c m
  | .usingSend m _ _ => one c m
  | _ => 0

/-- The connections a call works on that clients may know. -/
def PC.works : PC → List Nat
  | .closing c => [c]
  | .using c _ => [c]
  | .usingSend _ c _ => [c]
  | .poolClose rest => rest
  | .poolCloseConn c rest => c :: rest
  | _ => []

/-- How often a connection occurs in the channel, among those handed out, and in calls. -/
def places (s : State) (c : Nat) : Nat := s.pool.chan.count c + s.pool.handed.count c + tot (PC.mine c) s.calls

/-- Handed out, or about to be. -/
def Given (s : State) (c : Nat) : Prop := c ∈ s.pool.handed ∨ PC.opened (some c) ∈ s.calls

/-- Every connection is in one place. -/
structure Own (s : State) : Prop where
  once : ∀ c, places s c ≤ 1
  fresh : ∀ c, s.pool.nConns ≤ c → places s c = 0
  refs : ∀ c ∈ s.pool.refs, Given s c
  works : ∀ pc ∈ s.calls, ∀ c ∈ pc.works, Given s c

theorem own_init (max : Nat) : Own (.init max) where
  once c := by
    have : (List.range max).count c ≤ 1 := by
      have h := List.pairwise_iff_getElem.mp (List.nodup_range (n := max))
      induction max with
      | zero => simp
      | succ n ih =>
        rw [List.range_succ, List.count_append, List.count_cons]
        by_cases hn : n = c
        · have : c ∉ List.range n := by simp [hn]
          simp [List.count_eq_zero.mpr this, hn]
        · have := ih (List.pairwise_iff_getElem.mp (List.nodup_range (n := n)))
          simpa [hn] using this
    simpa [places, State.init, Pool.new, tot] using this
  fresh c h := by
    have : c ∉ List.range max := by simpa using (show max ≤ c from h)
    simpa [places, State.init, Pool.new, tot] using List.count_eq_zero.mpr this
  refs c h := by cases h
  works pc h := by cases h

theorem own_call {p : Pool} {calls : List PC} {k : Call} (hl : k.legal p) (h : Own ⟨p, calls⟩) : Own ⟨(k.start p).1, calls ++ [(k.start p).2]⟩ := by
  have e : (k.start p).1.chan = p.chan ∧ (k.start p).1.handed = p.handed ∧ (k.start p).1.nConns = p.nConns ∧ (k.start p).1.refs = p.refs ∧
      (∀ c, (k.start p).2.mine c = 0) ∧ (∀ c ∈ (k.start p).2.works, c ∈ p.handed) := by
    cases k with
    | openPool => exact ⟨rfl, rfl, rfl, rfl, fun _ => rfl, fun _ h => by cases h⟩
    | close c => exact ⟨rfl, rfl, rfl, rfl, fun _ => rfl, fun d h => by cases List.mem_singleton.mp h; exact hl⟩
    | use c e n => exact ⟨rfl, rfl, rfl, rfl, fun _ => rfl, fun d h => by cases List.mem_singleton.mp h; exact hl⟩
    | poolClose => exact ⟨rfl, rfl, rfl, rfl, fun _ => rfl, fun _ h => by cases h⟩
  obtain ⟨e1, e2, e3, e4, e5, e6⟩ := e
  have hp : ∀ c, places ⟨(k.start p).1, calls ++ [(k.start p).2]⟩ c = places ⟨p, calls⟩ c := fun c => by
    unfold places
    simp only [e1, e2, tot_mid, tot_nil, e5]
    omega
  have hg : ∀ c, Given ⟨p, calls⟩ c → Given ⟨(k.start p).1, calls ++ [(k.start p).2]⟩ c := fun c h => by
    rcases h with h | h
    · exact .inl (by simp only [e2]; exact h)
    · exact .inr (List.mem_append_left _ h)
  refine ⟨fun c => by rw [hp]; exact h.once c, fun c hc => by rw [hp]; exact h.fresh c (by simp only [e3] at hc; exact hc), ?_, ?_⟩
  · intro c hc
    simp only [e4] at hc
    exact hg c (h.refs c hc)
  · intro pc hm c hc
    rcases List.mem_append.mp hm with hm | hm
    · exact hg c (h.works pc hm c hc)
    · rw [List.mem_singleton.mp hm] at hc
      refine .inl ?_
      simp only [e2]
      exact e6 c hc

/-- What a step does to the places of connections: it creates at most connection number `nConns`. -/
theorem tr_places {p p' : Pool} {ch : Choice} {pc pc' : PC} (h : Tr p ch pc p' pc') (c : Nat) :
    (p'.nConns = p.nConns ∧ p'.chan.count c + p'.handed.count c + pc'.mine c ≤ p.chan.count c + p.handed.count c + pc.mine c) ∨
    (p'.nConns = p.nConns + 1 ∧ p'.chan.count c + p'.handed.count c + pc'.mine c = p.chan.count c + p.handed.count c + pc.mine c + one c p.nConns) := by
  have ret : ∀ {q c ch ok}, Closes p c ch (.ret q ok) → q.nConns = p.nConns ∧ q.chan = p.chan ∧ q.handed = p.handed := fun h => by
    rcases closes_ret h with ⟨rfl, _⟩ | ⟨s, bad, _, _, _, rfl, _⟩ <;> exact ⟨rfl, rfl, rfl⟩
  have snd : ∀ {q c ch m}, Closes p c ch (.send q m) → q.nConns = p.nConns + 1 ∧ q.chan = p.chan ∧ q.handed = p.handed ∧ m = p.nConns := fun h => by
    obtain ⟨_, _, rfl, rfl⟩ := closes_send h
    exact ⟨rfl, rfl, rfl, rfl⟩
  cases h with
  | receive h => refine .inl ⟨rfl, ?_⟩; simp only [h, count_cons', PC.mine]; omega
  | failedRet h => obtain ⟨e1, e2, e3⟩ := ret h; exact .inl ⟨e1, by simp only [e2, e3, PC.mine]; omega⟩
  | failedReclaim h => obtain ⟨e1, e2, e3, rfl⟩ := snd h; exact .inr ⟨e1, by simp only [e2, e3, PC.mine]; omega⟩
  | failedSend h => refine .inl ⟨rfl, ?_⟩; simp only [count_snoc, PC.mine]; omega
  | openedSome => refine .inl ⟨rfl, ?_⟩; simp only [count_snoc, PC.mine]; omega
  | closed h => obtain ⟨e1, e2, e3⟩ := ret h; exact .inl ⟨e1, by simp only [e2, e3, PC.mine]; omega⟩
  | closeErr h => obtain ⟨e1, e2, e3⟩ := ret h; exact .inl ⟨e1, by simp only [e2, e3, PC.mine]; omega⟩
  | closeReclaim h => obtain ⟨e1, e2, e3, rfl⟩ := snd h; exact .inr ⟨e1, by simp only [e2, e3, PC.mine]; omega⟩
  | closeSend h => refine .inl ⟨rfl, ?_⟩; simp only [count_snoc, PC.mine]; omega
  | useRet h => obtain ⟨e1, e2, e3⟩ := ret h; exact .inl ⟨e1, by simp only [e2, e3, PC.mine]; omega⟩
  | useReclaim h => obtain ⟨e1, e2, e3, rfl⟩ := snd h; exact .inr ⟨e1, by simp only [e2, e3, PC.mine]; omega⟩
  | useSend h => refine .inl ⟨rfl, ?_⟩; simp only [count_snoc, PC.mine]; omega
  | poolConn h => obtain ⟨e1, e2, e3⟩ := ret h; exact .inl ⟨e1, by simp only [e2, e3, PC.mine]; omega⟩
  | poolErr h => obtain ⟨e1, e2, e3⟩ := ret h; exact .inl ⟨e1, by simp only [e2, e3, PC.mine]; omega⟩
  | _ => exact .inl ⟨rfl, by simp only [PC.mine]; omega⟩

/-- What a step does to the connections that clients may know. -/
theorem tr_given {p p' : Pool} {ch : Choice} {pc pc' : PC} (h : Tr p ch pc p' pc') :
    (∀ c, c ∈ p.handed ∨ pc = .opened (some c) → c ∈ p'.handed ∨ pc' = .opened (some c)) ∧
    (∀ c ∈ p'.refs, c ∈ p.refs ∨ pc' = .opened (some c)) ∧
    (∀ c ∈ pc'.works, c ∈ pc.works ∨ c ∈ p.refs) := by
  have ret : ∀ {q c ch ok}, Closes p c ch (.ret q ok) → q.handed = p.handed ∧ q.refs = p.refs := fun h => by
    rcases closes_ret h with ⟨rfl, _⟩ | ⟨s, bad, _, _, _, rfl, _⟩ <;> exact ⟨rfl, rfl⟩
  have snd : ∀ {q c ch m}, Closes p c ch (.send q m) → q.handed = p.handed ∧ q.refs = p.refs := fun h => by
    obtain ⟨_, _, rfl, rfl⟩ := closes_send h
    exact ⟨rfl, rfl⟩
  have triv : ∀ {q : Pool} {x y : PC}, q.handed = p.handed → q.refs = p.refs → (∀ c, x ≠ .opened (some c)) → (∀ c ∈ y.works, c ∈ x.works ∨ c ∈ p.refs) →
      (∀ c, c ∈ p.handed ∨ x = .opened (some c) → c ∈ q.handed ∨ y = .opened (some c)) ∧
      (∀ c ∈ q.refs, c ∈ p.refs ∨ y = .opened (some c)) ∧ (∀ c ∈ y.works, c ∈ x.works ∨ c ∈ p.refs) := fun h1 h2 h3 h4 =>
    ⟨fun c h => h.elim (fun h => .inl (by rw [h1]; exact h)) (fun h => absurd h (h3 c)), fun c h => .inl (by rw [h2] at h; exact h), h4⟩
  cases h with
  | initOk =>
    refine ⟨fun c h => h.elim .inl (fun h => by cases h), fun c h => ?_, fun c h => (by cases h)⟩
    rcases List.mem_append.mp h with h | h
    · exact .inl h
    · exact .inr (by rw [List.mem_singleton.mp h])
  | openedSome =>
    refine ⟨fun c h => .inl ?_, fun c h => .inl h, fun c h => (by cases h)⟩
    rcases h with h | h
    · exact List.mem_append_left _ h
    · cases h; exact List.mem_append_right _ (List.mem_singleton.mpr rfl)
  | failedRet h => exact triv (ret h).1 (ret h).2 (fun _ e => (by cases e)) (fun _ h => (by cases h))
  | failedReclaim h => exact triv (snd h).1 (snd h).2 (fun _ e => (by cases e)) (fun _ h => (by cases h))
  | closed h => exact triv (ret h).1 (ret h).2 (fun _ e => (by cases e)) (fun _ h => (by cases h))
  | closeErr h => exact triv (ret h).1 (ret h).2 (fun _ e => (by cases e)) (fun _ h => (by cases h))
  | closeReclaim h => exact triv (snd h).1 (snd h).2 (fun _ e => (by cases e)) (fun _ h => (by cases h))
  | useRet h => exact triv (ret h).1 (ret h).2 (fun _ e => (by cases e)) (fun _ h => .inl h)
  | useReclaim h => exact triv (snd h).1 (snd h).2 (fun _ e => (by cases e)) (fun _ h => .inl h)
  | useSend h => exact triv rfl rfl (fun _ e => (by cases e)) (fun _ h => .inl h)
  | poolConn h => exact triv (ret h).1 (ret h).2 (fun _ e => (by cases e)) (fun _ h => .inl (List.mem_cons_of_mem _ h))
  | poolErr h => exact triv (ret h).1 (ret h).2 (fun _ e => (by cases e)) (fun _ h => (by cases h))
  | poolLock h => exact triv rfl rfl (fun _ e => (by cases e)) (fun _ h => .inr h)
  | poolNext => exact triv rfl rfl (fun _ e => (by cases e)) (fun _ h => .inl h)
  | _ => exact triv rfl rfl (fun _ e => (by cases e)) (fun _ h => (by cases h))

theorem own_step {p p' : Pool} {ch : Choice} {pc pc' : PC} {pre post : List PC} (h : Tr p ch pc p' pc') (ho : Own ⟨p, pre ++ pc :: post⟩) :
    Own ⟨p', pre ++ pc' :: post⟩ := by
  obtain ⟨g1, g2, g3⟩ := tr_given h
  have hg : ∀ c, Given ⟨p, pre ++ pc :: post⟩ c → Given ⟨p', pre ++ pc' :: post⟩ c := fun c hc => by
    rcases hc with hc | hc
    · rcases g1 c (.inl hc) with h | h
      · exact .inl h
      · exact .inr (mem_mid.mpr (.inl h.symm))
    · rcases mem_mid.mp hc with hc | hc
      · rcases g1 c (.inr hc.symm) with h | h
        · exact .inl h
        · exact .inr (mem_mid.mpr (.inl h.symm))
      · exact .inr (mem_mid.mpr (.inr hc))
  refine ⟨fun c => ?_, fun c hc => ?_, fun c hc => ?_, fun q hq c hc => ?_⟩
  · have h1 := ho.once c
    have h2 := ho.fresh c
    unfold places at h1 h2 ⊢
    simp only [tot_mid] at h1 h2 ⊢
    rcases tr_places h c with ⟨_, e⟩ | ⟨_, e⟩
    · omega
    · by_cases hn : p.nConns = c
      · subst hn
        have := h2 (Nat.le_refl _)
        rw [one_same] at e
        omega
      · have : one c p.nConns = 0 := if_neg hn
        omega
  · have h2 := ho.fresh c
    unfold places at h2 ⊢
    simp only [tot_mid] at h2 ⊢
    simp only at hc
    rcases tr_places h c with ⟨e', e⟩ | ⟨e', e⟩
    · have := h2 (by omega); omega
    · have : one c p.nConns = 0 := if_neg (by omega)
      have := h2 (by omega); omega
  · rcases g2 c hc with h | h
    · exact hg c (ho.refs c h)
    · exact .inr (mem_mid.mpr (.inl h.symm))
  · rcases mem_mid.mp hq with rfl | hq
    · rcases g3 c hc with h | h
      · exact hg c (ho.works pc (mem_mid.mpr (.inl rfl)) c h)
      · exact hg c (ho.refs c h)
    · exact hg c (ho.works q (mem_mid.mpr (.inr hq)) c hc)

theorem own_reach {R : Rules} {s t : State} (hs : Own s) (h : Reach R s t) : Own t :=
  h.inv hs (fun _ _ _ hi _ hl => own_call hl hi) (fun _ _ _ _ _ _ _ hi _ hs => own_step (tr hs) hi)

/-- A connection that clients may know is in no other place. -/
theorem given_place {p : Pool} {pre post : List PC} {pc : PC} {c : Nat} (ho : Own ⟨p, pre ++ pc :: post⟩) (hg : Given ⟨p, pre ++ pc :: post⟩ c)
    (hn : pc ≠ .opened (some c)) : pc.mine c = 0 := by
  have h1 := ho.once c
  unfold places at h1
  simp only [tot_mid] at h1
  rcases hg with hg | hg
  · have := List.count_pos_iff.mpr hg; simp only at this; omega
  · have h1' : (PC.opened (some c)).mine c = 1 := one_same c
    rcases mem_mid.mp hg with hg | hg | hg
    · exact absurd hg.symm hn
    · have := tot_mem (f := PC.mine c) hg; omega
    · have := tot_mem (f := PC.mine c) hg; omega

theorem given_chan {s : State} {c : Nat} (ho : Own s) (hg : Given s c) : c ∉ s.pool.chan := by
  intro hc
  have h1 := ho.once c
  unfold places at h1
  have h2 := List.count_pos_iff.mpr hc
  rcases hg with hg | hg
  · have := List.count_pos_iff.mpr hg; omega
  · have h1' : (PC.opened (some c)).mine c = 1 := one_same c
    have := tot_mem (f := PC.mine c) hg; omega

theorem given_lt {s : State} {c : Nat} (ho : Own s) (hg : Given s c) : c < s.pool.nConns := by
  refine Nat.lt_of_not_le fun h => ?_
  have h1 := ho.fresh c h
  unfold places at h1
  rcases hg with hg | hg
  · have := List.count_pos_iff.mpr hg; omega
  · have h1' : (PC.opened (some c)).mine c = 1 := one_same c
    have := tot_mem (f := PC.mine c) hg; omega

end Bolt.Pooling

namespace Bolt.Pooling

/-- What a step leaves alone. -/
theorem tr_frame {p p' : Pool} {ch : Choice} {pc pc' : PC} (h : Tr p ch pc p' pc') {d : Nat} (hd : d < p.nConns) (hm : pc.mine d = 0) :
    (p'.conns d).sock = (p.conns d).sock ∧ ((p.conns d).connErr = true → (p'.conns d).connErr = true) ∧ (d ∉ pc.works → p'.conns d = p.conns d) := by
  have ret : ∀ {q c ch ok}, Closes p c ch (.ret q ok) → (q.conns d).sock = (p.conns d).sock ∧ ((p.conns d).connErr = true → (q.conns d).connErr = true) ∧ (d ≠ c → q.conns d = p.conns d) := fun {q c ch ok} h => by
    rcases closes_ret h with ⟨rfl, _⟩ | ⟨s, bad, _, _, _, rfl, _⟩
    · exact ⟨rfl, id, fun _ => rfl⟩
    · by_cases hc : d = c
      · subst hc
        unfold shutConn
        simp only [upd_same]
        exact ⟨trivial, fun h => by simp [h], fun h => absurd rfl h⟩
      · unfold shutConn
        simp only [upd_other _ _ hc]
        exact ⟨trivial, id, fun _ => trivial⟩
  have snd : ∀ {q c ch m}, Closes p c ch (.send q m) → q.conns d = p.conns d := fun h => by
    obtain ⟨_, _, rfl, rfl⟩ := closes_send h
    exact upd_other _ _ (by omega)
  have own : ∀ {c : Nat} {v : PConn}, one d c = 0 → upd p.conns c v d = p.conns d := fun {c v} h => by
    refine upd_other _ _ fun e => ?_
    subst e
    rw [one_same] at h; cases h
  have same : ∀ {q : Pool}, q.conns d = p.conns d → (q.conns d).sock = (p.conns d).sock ∧ ((p.conns d).connErr = true → (q.conns d).connErr = true) ∧ (d ∉ pc.works → q.conns d = p.conns d) :=
    fun h => ⟨by rw [h], fun e => by rw [h]; exact e, fun _ => h⟩
  cases h with
  | dialFail => exact same (own hm)
  | initOk => exact same (own hm)
  | initFail => exact same (own hm)
  | initPanic => exact same (own hm)
  | failedRet h =>
    obtain ⟨e1, e2, e3⟩ := ret h
    refine ⟨e1, e2, fun _ => e3 fun e => ?_⟩
    subst e
    rw [PC.mine, one_same] at hm; cases hm
  | failedReclaim h => exact same (snd h)
  | closed h => obtain ⟨e1, e2, e3⟩ := ret h; exact ⟨e1, e2, fun hw => e3 fun e => hw (by simp [PC.works, e])⟩
  | closeErr h => obtain ⟨e1, e2, e3⟩ := ret h; exact ⟨e1, e2, fun hw => e3 fun e => hw (by simp [PC.works, e])⟩
  | closeReclaim h => exact same (snd h)
  | useRet h => obtain ⟨e1, e2, e3⟩ := ret h; exact ⟨e1, e2, fun hw => e3 fun e => hw (by simp [PC.works, e])⟩
  | useReclaim h => exact same (snd h)
  | @poolNext c rest =>
    by_cases hc : d = c
    · subst hc
      simp only [upd_same]
      exact ⟨trivial, id, fun h => absurd (List.mem_cons_self) h⟩
    · exact same (upd_other _ _ hc)
  | poolConn h => obtain ⟨e1, e2, e3⟩ := ret h; exact ⟨e1, e2, fun hw => e3 fun e => hw (by simp [PC.works, e])⟩
  | poolErr h => obtain ⟨e1, e2, e3⟩ := ret h; exact ⟨e1, e2, fun hw => e3 fun e => hw (by simp [PC.works, e])⟩
  | _ => exact same rfl

/-- Sockets stay initialised and stay closed, and there are never fewer. -/
theorem tr_socks {p p' : Pool} {ch : Choice} {pc pc' : PC} (h : Tr p ch pc p' pc') :
    (∀ k, p.inited k = true → p'.inited k = true) ∧ (∀ k, p.shut k = true → p'.shut k = true) ∧ p.nSocks ≤ p'.nSocks := by
  have ret : ∀ {q c ch ok}, Closes p c ch (.ret q ok) → (∀ k, p.inited k = true → q.inited k = true) ∧ (∀ k, p.shut k = true → q.shut k = true) ∧ p.nSocks ≤ q.nSocks := fun {q c ch ok} h => by
    rcases closes_ret h with ⟨rfl, _⟩ | ⟨s, bad, _, _, _, rfl, _⟩
    · exact ⟨fun _ h => h, fun _ h => h, Nat.le_refl _⟩
    · refine ⟨fun _ h => h, fun k h => ?_, Nat.le_refl _⟩
      unfold shutConn upd
      simp only
      split
      · rfl
      · exact h
  have snd : ∀ {q c ch m}, Closes p c ch (.send q m) → (∀ k, p.inited k = true → q.inited k = true) ∧ (∀ k, p.shut k = true → q.shut k = true) ∧ p.nSocks ≤ q.nSocks := fun h => by
    obtain ⟨_, _, rfl, rfl⟩ := closes_send h
    exact ⟨fun _ h => h, fun _ h => h, Nat.le_refl _⟩
  cases h with
  | initOk =>
    refine ⟨fun k h => ?_, fun _ h => h, Nat.le_succ _⟩
    unfold upd
    simp only
    split
    · rfl
    · exact h
  | initFail => exact ⟨fun _ h => h, fun _ h => h, Nat.le_succ _⟩
  | initPanic => exact ⟨fun _ h => h, fun _ h => h, Nat.le_succ _⟩
  | failedRet h => exact ret h
  | failedReclaim h => exact snd h
  | closed h => exact ret h
  | closeErr h => obtain ⟨e1, e2, e3⟩ := ret h; exact ⟨e1, e2, e3⟩
  | closeReclaim h => exact snd h
  | useRet h => exact ret h
  | useReclaim h => exact snd h
  | poolConn h => exact ret h
  | poolErr h => obtain ⟨e1, e2, e3⟩ := ret h; exact ⟨e1, e2, e3⟩
  | _ => exact ⟨fun _ h => h, fun _ h => h, Nat.le_refl _⟩

/-- Two calls do not know the same connection, unless clients know it. -/
theorem mine_other {p : Pool} {pre post : List PC} {pc q : PC} {d : Nat} (ho : Own ⟨p, pre ++ pc :: post⟩) (hq : q ∈ pre ∨ q ∈ post) (h : 0 < q.mine d) :
    pc.mine d = 0 ∧ d < p.nConns ∧ (d ∈ pc.works → q = .opened (some d)) := by
  have h1 := ho.once d
  have h2 := ho.fresh d
  unfold places at h1 h2
  simp only [tot_mid] at h1 h2
  have h3 : q.mine d ≤ tot (PC.mine d) pre + tot (PC.mine d) post := by
    rcases hq with hq | hq
    · have := tot_mem (f := PC.mine d) hq; omega
    · have := tot_mem (f := PC.mine d) hq; omega
  refine ⟨by omega, ?_, fun hw => ?_⟩
  · refine Nat.lt_of_not_le fun hn => ?_
    have := h2 hn
    omega
  · have hg := ho.works pc (mem_mid.mpr (.inl rfl)) d hw
    refine Classical.byContradiction fun hne => ?_
    have hq' : q ∈ pre ++ pc :: post := mem_mid.mpr (.inr hq)
    obtain ⟨a, b, e⟩ := List.append_of_mem hq'
    rw [e] at ho hg
    have := given_place ho hg hne
    omega

theorem chan_other {p : Pool} {pre post : List PC} {pc : PC} {d : Nat} (ho : Own ⟨p, pre ++ pc :: post⟩) (h : d ∈ p.chan) :
    pc.mine d = 0 ∧ d < p.nConns ∧ d ∉ pc.works := by
  have h1 := ho.once d
  have h2 := ho.fresh d
  unfold places at h1 h2
  simp only [tot_mid] at h1 h2
  have h3 := List.count_pos_iff.mpr h
  refine ⟨by omega, Nat.lt_of_not_le fun hn => ?_, fun hw => given_chan ho (ho.works pc (mem_mid.mpr (.inl rfl)) d hw) h⟩
  have := h2 hn
  omega

theorem handed_other {p : Pool} {pre post : List PC} {pc : PC} {d : Nat} (ho : Own ⟨p, pre ++ pc :: post⟩) (h : d ∈ p.handed) :
    pc.mine d = 0 ∧ d < p.nConns := by
  have h1 := ho.once d
  have h2 := ho.fresh d
  unfold places at h1 h2
  simp only [tot_mid] at h1 h2
  have h3 := List.count_pos_iff.mpr h
  refine ⟨by omega, Nat.lt_of_not_le fun hn => ?_⟩
  have := h2 hn
  omega

end Bolt.Pooling
