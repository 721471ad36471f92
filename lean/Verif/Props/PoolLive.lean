import Verif.Props.PoolPanic

/-!
# Connections handed out have an open socket (C51)
-/

namespace Bolt.Pooling

variable {max : Nat} {s t : State}

/-- Only sockets that were opened have been closed, and the connection that `OpenPool` is about to return has one that
has not. -/
structure Awake (s : State) : Prop where
  old : ∀ k, s.pool.shut k = true → k < s.pool.nSocks
  live : ∀ c, PC.opened (some c) ∈ s.calls → ∃ k, (s.pool.conns c).sock = some k ∧ s.pool.shut k = false

theorem shut_ret {p q : Pool} {c : Nat} {ch : Choice} {ok : Bool} (h : Closes p c ch (.ret q ok)) :
    q.nSocks = p.nSocks ∧ (∀ d, (q.conns d).sock = (p.conns d).sock) ∧ ∀ k, q.shut k = p.shut k ∨ (p.conns c).sock = some k := by
  rcases closes_ret h with ⟨rfl, _⟩ | ⟨s, bad, _, _, e, rfl, _⟩
  · exact ⟨rfl, fun _ => rfl, fun _ => .inl rfl⟩
  · refine ⟨rfl, fun d => ?_, fun k => ?_⟩
    · unfold shutConn upd; simp only; split
      · next e => subst e; rfl
      · rfl
    · by_cases hk : k = s
      · subst hk; exact .inr e
      · exact .inl (upd_other _ _ hk)

/-- What a step does to sockets. -/
theorem tr_live {p p' : Pool} {ch : Choice} {pc pc' : PC} (h : Tr p ch pc p' pc') :
    p.nSocks ≤ p'.nSocks ∧ (∀ k, p'.shut k = p.shut k ∨ ∃ c, (p.conns c).sock = some k ∧ (pc.holds = true ∨ (0 < pc.tok c) ∨ ∃ n, pc = .using c (n + 1))) ∧
    (∀ d < p.nConns, (p'.conns d).sock = (p.conns d).sock ∨ pc.holds = true) ∧
    (∀ c, pc' = .opened (some c) → (p' = p ∧ nilOrClosed p c = false) ∨ ((p'.conns c).sock = some p.nSocks ∧ p'.shut = p.shut)) := by
  have ret : ∀ {q c ch ok}, Closes p c ch (.ret q ok) → (pc.holds = true ∨ 0 < pc.tok c ∨ ∃ n, pc = .using c (n + 1)) →
      p.nSocks ≤ q.nSocks ∧ (∀ k, q.shut k = p.shut k ∨ ∃ c, (p.conns c).sock = some k ∧ (pc.holds = true ∨ (0 < pc.tok c) ∨ ∃ n, pc = .using c (n + 1))) ∧
      (∀ d < p.nConns, (q.conns d).sock = (p.conns d).sock ∨ pc.holds = true) := fun h hc => by
    obtain ⟨h1, h2, h3⟩ := shut_ret h
    refine ⟨by omega, fun k => ?_, fun d _ => .inl (h2 d)⟩
    rcases h3 k with h | h
    · exact .inl h
    · exact .inr ⟨_, h, hc⟩
  have snd : ∀ {q c ch m}, Closes p c ch (.send q m) →
      p.nSocks ≤ q.nSocks ∧ (∀ k, q.shut k = p.shut k ∨ ∃ c, (p.conns c).sock = some k ∧ (pc.holds = true ∨ (0 < pc.tok c) ∨ ∃ n, pc = .using c (n + 1))) ∧
      (∀ d < p.nConns, (q.conns d).sock = (p.conns d).sock ∨ pc.holds = true) := fun h => by
    obtain ⟨_, _, rfl, rfl⟩ := closes_send h
    refine ⟨Nat.le_refl _, fun k => .inl rfl, fun d hd => .inl ?_⟩
    rw [reclaim_conns, if_neg (by omega)]
  cases h with
  | dialFail => exact ⟨Nat.le_refl _, fun _ => .inl rfl, fun _ _ => .inr rfl, nofun⟩
  | initOk =>
    refine ⟨Nat.le_succ _, fun _ => .inl rfl, fun _ _ => .inr rfl, fun c hc => .inr ?_⟩
    cases hc
    exact ⟨by simp only [upd_same], rfl⟩
  | initFail => exact ⟨Nat.le_succ _, fun _ => .inl rfl, fun _ _ => .inr rfl, nofun⟩
  | initPanic => exact ⟨Nat.le_succ _, fun _ => .inl rfl, fun _ _ => .inr rfl, nofun⟩
  | alive h =>
    refine ⟨Nat.le_refl _, fun _ => .inl rfl, fun _ _ => .inr rfl, fun c hc => .inl ?_⟩
    cases hc
    exact ⟨rfl, h⟩
  | failedRet h => exact ⟨(ret h (.inl rfl)).1, (ret h (.inl rfl)).2.1, (ret h (.inl rfl)).2.2, nofun⟩
  | failedReclaim h => exact ⟨(snd h).1, (snd h).2.1, (snd h).2.2, nofun⟩
  | @closed c _ h =>
    have := ret h (.inr (.inl (by simp only [PC.tok, one_same]; omega)))
    exact ⟨this.1, this.2.1, this.2.2, nofun⟩
  | @closeErr c _ h =>
    have := ret h (.inr (.inl (by simp only [PC.tok, one_same]; omega)))
    exact ⟨this.1, this.2.1, this.2.2, nofun⟩
  | closeReclaim h => exact ⟨(snd h).1, (snd h).2.1, (snd h).2.2, nofun⟩
  | useRet h =>
    have := ret h (.inr (.inr ⟨_, rfl⟩))
    exact ⟨this.1, this.2.1, this.2.2, nofun⟩
  | useReclaim h => exact ⟨(snd h).1, (snd h).2.1, (snd h).2.2, nofun⟩
  | poolNext => exact ⟨Nat.le_refl _, fun _ => .inl rfl, fun _ _ => .inr rfl, nofun⟩
  | poolConn h => exact ⟨(ret h (.inl rfl)).1, (ret h (.inl rfl)).2.1, (ret h (.inl rfl)).2.2, nofun⟩
  | poolErr h => exact ⟨(ret h (.inl rfl)).1, (ret h (.inl rfl)).2.1, (ret h (.inl rfl)).2.2, nofun⟩
  | _ => exact ⟨Nat.le_refl _, fun _ => .inl rfl, fun _ _ => .inl rfl, nofun⟩

theorem live_of (h : Reach .disciplined (.init max) s) : ((Own s ∧ Slots s) ∧ Locked s) ∧ Awake s := by
  refine h.inv (I := fun s => ((Own s ∧ Slots s) ∧ Locked s) ∧ Awake s)
    ⟨⟨⟨own_init max, slots_init max⟩, locked_init max⟩, ⟨fun k hk => (by cases hk), fun c hc => (by cases hc)⟩⟩ ?_ ?_
  · rintro p calls k ⟨⟨⟨i1, i2⟩, i3⟩, i4, i5⟩ hk hl
    refine ⟨⟨⟨own_call hl i1, slots_call hk i2⟩, locked_call k i3⟩, ?_, ?_⟩
    · cases k <;> exact i4
    · intro c hc
      rcases List.mem_append.mp hc with hc | hc
      · obtain ⟨j, h1, h2⟩ := i5 c hc
        cases k with
        | use d e n =>
          refine ⟨j, ?_, h2⟩
          simp only [Call.start]
          unfold upd
          split
          · next e => subst e; exact h1
          · exact h1
        | _ => exact ⟨j, h1, h2⟩
      · cases k <;> cases List.mem_singleton.mp hc
  · rintro p pre pc post ch p' pc' ⟨⟨⟨i1, i2⟩, i3⟩, i4, i5⟩ hr hs
    have htr := tr hs
    obtain ⟨t1, t2, t3, t4⟩ := tr_live htr
    refine ⟨⟨⟨own_step htr i1, slots_step htr hr i1 i2⟩, locked_step htr i3⟩, fun k hk => ?_, fun c hc => ?_⟩
    · rcases t2 k with h | ⟨c, h, _⟩
      · rw [h] at hk; exact Nat.lt_of_lt_of_le (i4 k hk) t1
      · exact Nat.lt_of_lt_of_le (i2.sockLt c k h) t1
    · rcases mem_mid.mp hc with hc | hc
      · rcases t4 c hc.symm with ⟨rfl, h⟩ | ⟨h1, h2⟩
        · unfold nilOrClosed at h
          cases e : (p'.conns c).sock with
          | none => rw [e] at h; cases h
          | some k => rw [e] at h; exact ⟨k, rfl, h⟩
        · refine ⟨p.nSocks, h1, ?_⟩
          cases e : p'.shut p.nSocks with
          | false => rfl
          | true =>
            rw [h2] at e
            exact absurd (i4 _ e) (Nat.lt_irrefl _)
      · -- another call is about to return `c`; this one does not hold the lock
        have hm : PC.opened (some c) ∈ pre ++ pc :: post := mem_mid.mpr (.inr hc)
        obtain ⟨k, h1, h2⟩ := i5 c hm
        have hno : pc.holds = false := by
          have h3 := i3.one
          simp only at h3
          rw [count_mid] at h3
          have h4 : 0 < pre.countP PC.holds + post.countP PC.holds := by
            rcases hc with hc | hc
            · have := List.countP_pos_iff (p := PC.holds).mpr ⟨_, hc, rfl⟩; omega
            · have := List.countP_pos_iff (p := PC.holds).mpr ⟨_, hc, rfl⟩; omega
          cases e : pc.holds with
          | false => rfl
          | true =>
            rw [e] at h3
            have : p.lock.toNat ≤ 1 := by cases p.lock <;> decide
            simp only [Bool.toNat_true] at h3
            omega
        have htok : 0 < tot (PC.tok c) pre + tot (PC.tok c) post := by
          rcases hc with hc | hc
          · have := tot_mem (f := PC.tok c) hc; simp only [PC.tok, one_same] at this; omega
          · have := tot_mem (f := PC.tok c) hc; simp only [PC.tok, one_same] at this; omega
        have hpos : 0 < toks ⟨p, pre ++ pc :: post⟩ c := by rw [toks_mid]; omega
        have hlt : c < p.nConns := by
          refine Nat.lt_of_not_le fun hn => ?_
          have := i2.fresh c hn
          omega
        refine ⟨k, ?_, ?_⟩
        · rcases t3 c hlt with h | h
          · rw [h]; exact h1
          · rw [hno] at h; cases h
        · rcases t2 k with h | ⟨d, h, hd | hd | ⟨n, hd⟩⟩
          · rw [h]; exact h2
          · rw [hno] at hd; cases hd
          · have hdpos : 0 < toks ⟨p, pre ++ pc :: post⟩ d := by rw [toks_mid]; unfold loc; omega
            have := i2.socks c d k hpos hdpos h1 h
            subst this
            have h3 := i2.once c
            rw [toks_mid] at h3
            unfold loc at h3
            omega
          · have := i2.tame pc (mem_mid.mpr (.inl rfl))
            rw [hd] at this
            cases this

/-- C51: at the moment at which an `OpenPool` returns a connection, its socket has not been closed by the driver, in all runs
of any number of clients that close what they hold once, with failures and recovered panics, also when the pool is being
closed. Missing: connections closed twice; that the server has not closed it is not known (C52). -/
theorem c51_open_partial (h : Reach .disciplined (.init max) s) {i c : Nat} {ch : Choice} (hn : s.next (.run i ch) = some t)
    (ho : Opened t i c) : ∃ k, sockOf t c = some k ∧ t.pool.shut k = false := by
  simp only [State.next] at hn
  cases hi : s.calls[i]? with
  | none => rw [hi] at hn; cases hn
  | some pc =>
    rw [hi] at hn
    simp only at hn
    cases hs : step s.pool ch pc with
    | none => rw [hs] at hn; cases hn
    | some x =>
      obtain ⟨p', pc'⟩ := x
      rw [hs] at hn
      cases hn
      have e : pc' = .done (.opened c) := by
        have := ho
        unfold Opened at this
        simp only at this
        rw [getElem?_set_self' hi] at this
        exact Option.some.inj this
      subst e
      have htr := tr hs
      cases htr
      exact (live_of h).2.live c (List.mem_of_getElem? hi)

/-- C51 at work: `Close` of the pool closes the first of two sockets and panics on the second; its connection has been
returned, and `OpenPool` opens another socket for it. -/
def halfClosed : List Act :=
  openNew 0 ++ openNew 1 ++ closeIt 2 0 ++ [.call .poolClose, .run 3 .go, .run 3 .go, .run 3 .go, .run 3 .go, .run 3 .closePanics, .run 3 .go]

example : (after 2 halfClosed).pool.shut 0 = true ∧ (after 2 halfClosed).pool.chan = [2] ∧ sockOf (after 2 halfClosed) 2 = some 0 ∧
    (after 2 (halfClosed ++ openNew 4)).calls[4]? = some (.done (.opened 2)) ∧ sockOf (after 2 (halfClosed ++ openNew 4)) 2 = some 2 := by decide

end Bolt.Pooling
