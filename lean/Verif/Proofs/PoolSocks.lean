import Verif.Props.Pool3

/-!
# The sockets of a pool, when connections are closed once

Every open socket is that of a slot of the pool, or of a connection on which an error was recorded.
-/

namespace Bolt.Pooling

variable {max : Nat}

/-- Where the open sockets are. -/
structure Socks (s : State) : Prop where
  pooled : ∀ c < s.pool.nConns, ¬ Given s c → (s.pool.conns c).pooled = true ∧ (s.pool.conns c).closed = false
  shut : ∀ c, (s.pool.conns c).closed = true → Shut s.pool c
  held : ∀ k < s.pool.nSocks, s.pool.shut k = false →
    ∃ c < s.pool.nConns, (s.pool.conns c).sock = some k ∧ (0 < toks s c ∨ (s.pool.conns c).connErr = true)

theorem socks_init (max : Nat) : Socks (.init max) :=
  ⟨fun _ _ _ => ⟨rfl, rfl⟩, fun _ h => (by cases h), fun _ h => (by cases h)⟩

theorem socks_call {p : Pool} {calls : List PC} {k : Call} (hk : Rules.disciplined.call p k) (h : Socks ⟨p, calls⟩) :
    Socks ⟨(k.start p).1, calls ++ [(k.start p).2]⟩ := by
  obtain ⟨h1, h2, h3⟩ := h
  have e : (k.start p).1.nConns = p.nConns ∧ (k.start p).1.nSocks = p.nSocks ∧ (k.start p).1.shut = p.shut ∧ (k.start p).1.handed = p.handed ∧
      (∀ d, ((k.start p).1.conns d).sock = (p.conns d).sock ∧ ((k.start p).1.conns d).closed = (p.conns d).closed ∧
        ((k.start p).1.conns d).pooled = (p.conns d).pooled ∧ ((p.conns d).connErr = true → ((k.start p).1.conns d).connErr = true)) := by
    cases k with
    | use c e n =>
      refine ⟨rfl, rfl, rfl, rfl, fun d => ?_⟩
      unfold Call.start upd; simp only; split
      · next h => subst h; exact ⟨rfl, rfl, rfl, fun h => by simp [h]⟩
      · exact ⟨rfl, rfl, rfl, id⟩
    | _ => exact ⟨rfl, rfl, rfl, rfl, fun _ => ⟨rfl, rfl, rfl, id⟩⟩
  obtain ⟨e1, e2, e3, e4, e5⟩ := e
  have ht : ∀ c, toks ⟨(k.start p).1, calls ++ [(k.start p).2]⟩ c = toks ⟨p, calls⟩ c := fun c => by
    unfold toks
    simp only [tot_mid, tot_nil]
    cases k with
    | close d =>
      have hc : d ∈ p.out := hk
      simp only [Call.start, PC.tok, List.count_erase]
      have := List.count_pos_iff.mpr hc
      unfold one
      by_cases e : d = c
      · subst e; simp; omega
      · have : (d == c) = false := by simpa using e
        simp [this, e]
    | _ => simp only [Call.start, PC.tok]; omega
  have hg : ∀ c, Given ⟨p, calls⟩ c → Given ⟨(k.start p).1, calls ++ [(k.start p).2]⟩ c := fun c h => by
    rcases h with h | h
    · exact .inl (by simp only [e4]; exact h)
    · exact .inr (List.mem_append_left _ h)
  refine ⟨fun c hc hn => ?_, fun c hc k' hk' => ?_, fun k' hk' hs => ?_⟩
  · simp only [e1] at hc
    simp only [(e5 c).2.1, (e5 c).2.2.1]
    exact h1 c hc fun h => hn (hg c h)
  · simp only [(e5 c).1] at hk'
    simp only [(e5 c).2.1] at hc
    simp only [e3]
    exact h2 c hc k' hk'
  · simp only [e2] at hk'
    simp only [e3] at hs
    obtain ⟨c, a, b, d⟩ := h3 k' hk' hs
    refine ⟨c, by simp only [e1]; exact a, (e5 c).1.trans b, ?_⟩
    rcases d with d | d
    · exact .inl (by rw [ht]; exact d)
    · exact .inr ((e5 c).2.2.2 d)

theorem socks_step {p p' : Pool} {ch : Choice} {pc pc' : PC} {pre post : List PC} (h : Tr p ch pc p' pc') (hp : ch ≠ .panics ∧ ch ≠ .closePanics)
    (ho : Own ⟨p, pre ++ pc :: post⟩) (hs : Slots ⟨p, pre ++ pc :: post⟩) (hk : Socks ⟨p, pre ++ pc :: post⟩) : Socks ⟨p', pre ++ pc' :: post⟩ := by
  obtain ⟨h1, h2, h3⟩ := hk
  have hg : ∀ c, Given ⟨p, pre ++ pc :: post⟩ c → Given ⟨p', pre ++ pc' :: post⟩ c := fun c hc => by
    have g1 := (tr_given h).1
    rcases hc with hc | hc
    · rcases g1 c (.inl hc) with h | h
      · exact .inl h
      · exact .inr (mem_mid.mpr (.inl h.symm))
    · rcases mem_mid.mp hc with hc | hc
      · rcases g1 c (.inr hc.symm) with h | h
        · exact .inl h
        · exact .inr (mem_mid.mpr (.inl h.symm))
      · exact .inr (mem_mid.mpr (.inr hc))
  have hng : ∀ c, 0 < pc.mine c → pc ≠ .opened (some c) → ¬ Given ⟨p, pre ++ pc :: post⟩ c := fun c hm hne hgi => by
    have := given_place ho hgi hne
    omega
  have hlt := mine_lt ho
  have htame := hs.tame pc (mem_mid.mpr (.inl rfl))
  -- the connections as they were, and the slots too
  have same : p'.conns = p.conns → p'.nConns = p.nConns → p'.nSocks = p.nSocks → p'.shut = p.shut → (∀ c, loc p pc c ≤ loc p' pc' c) →
      Socks ⟨p', pre ++ pc' :: post⟩ := fun a b c d e => by
    refine ⟨fun x hx hn => ?_, fun x hx k hk => ?_, fun k hk hsh => ?_⟩
    · simp only [a]; simp only [b] at hx; exact h1 x hx fun h => hn (hg x h)
    · simp only [a] at hx hk; simp only [d]; exact h2 x hx k hk
    · simp only [c] at hk; simp only [d] at hsh
      obtain ⟨x, i, j, l⟩ := h3 k hk hsh
      refine ⟨x, by simp only [b]; exact i, by simp only [a]; exact j, l.imp (fun l => ?_) (fun l => by simp only [a]; exact l)⟩
      rw [toks_mid] at l ⊢
      have := e x; omega
  -- a new socket, or none, for a connection from the channel
  have init : ∀ c v, pc = .received c → nilOrClosed p c = true → p'.conns = upd p.conns c v → p'.nConns = p.nConns → p'.shut = p.shut →
      (p'.nSocks = p.nSocks ∨ (p'.nSocks = p.nSocks + 1 ∧ v.sock = some p.nSocks)) → v.pooled = (p.conns c).pooled → v.closed = (p.conns c).closed →
      (∀ d, loc p pc d ≤ loc p' pc' d) → Socks ⟨p', pre ++ pc' :: post⟩ := fun c v hpc hnil hcs hn hsh hns hvp hvc hloc => by
    have hmc : 0 < pc.mine c := by rw [hpc, PC.mine, one_same]; omega
    have hnc := hlt c (.inl hmc)
    have hok := h1 c hnc (hng c hmc (by rw [hpc]; intro e; cases e))
    refine ⟨fun x hx hng' => ?_, fun x hx k hk => ?_, fun k hk hsk => ?_⟩
    · simp only [hcs]; simp only [hn] at hx
      by_cases e : x = c
      · subst e; rw [upd_same, hvp, hvc]; exact hok
      · rw [upd_other _ _ e]; exact h1 x hx fun h => hng' (hg x h)
    · simp only [hcs] at hx hk
      simp only [hsh]
      by_cases e : x = c
      · subst e; rw [upd_same, hvc] at hx; rw [hok.2] at hx; cases hx
      · rw [upd_other _ _ e] at hx hk; exact h2 x hx k hk
    · simp only [hsh] at hsk
      simp only [hcs, hn]
      by_cases e : k < p.nSocks
      · obtain ⟨x, i, j, l⟩ := h3 k e hsk
        have hne : x ≠ c := fun e => by
          subst e
          unfold nilOrClosed at hnil
          simp only at j
          rw [j] at hnil
          simp only at hnil
          rw [hsk] at hnil; cases hnil
        refine ⟨x, i, by rw [upd_other _ _ hne]; exact j, l.imp (fun l => ?_) (fun l => by rw [upd_other _ _ hne]; exact l)⟩
        rw [toks_mid] at l ⊢
        have := hloc x; omega
      · rcases hns with hns | ⟨hns, hv⟩
        · simp only [hns] at hk; exact absurd hk e
        · simp only [hns] at hk
          have : k = p.nSocks := by omega
          subst this
          refine ⟨c, hnc, by rw [upd_same]; exact hv, .inl ?_⟩
          rw [toks_mid]
          have := hloc c
          have h5 : loc p pc c ≥ 1 := by unfold loc; rw [hpc]; simp only [PC.tok, one_same]; omega
          omega
  -- a `Close` that returns
  have ret : ∀ {q c ch' ok}, Closes p c ch' (.ret q ok) → Given ⟨p, pre ++ pc :: post⟩ c → p'.conns = q.conns → p'.nConns = q.nConns → p'.nSocks = q.nSocks → p'.shut = q.shut →
      (∀ d, loc p pc d ≤ loc p' pc' d ∨ (d = c ∧ ok = true)) → Socks ⟨p', pre ++ pc' :: post⟩ := fun {q c ch' ok} hcl hgiv a b cc d hloc => by
    have key : q.nConns = p.nConns ∧ q.nSocks = p.nSocks ∧ (∀ k, p.shut k = true → q.shut k = true) ∧ (∀ x, (q.conns x).sock = (p.conns x).sock) ∧
        (∀ x, x ≠ c → q.conns x = p.conns x) ∧ ((p.conns c).connErr = true → (q.conns c).connErr = true) ∧
        ((q.conns c).closed = true → Shut q c) ∧ (ok = true → Shut q c) := by
      rcases closes_ret hcl with ⟨rfl, h'⟩ | ⟨s, bad, _, _, hs', rfl, _⟩
      · refine ⟨rfl, rfl, fun _ h => h, fun _ => rfl, fun _ _ => rfl, id, fun h => h2 c h, fun ho' => ?_⟩
        rcases h' with h' | ⟨_, h'⟩ | ⟨_, h', _⟩
        · exact h2 c h'.1
        · rw [h'] at ho'; cases ho'
        · intro k hk; rw [h'] at hk; cases hk
      · have hsc : Shut (shutConn p c s bad) c := fun k hk => by
          unfold shutConn at hk ⊢
          simp only [upd_same] at hk ⊢
          rw [hs'] at hk
          cases hk
          exact upd_same _ _ _
        refine ⟨rfl, rfl, fun k hk => ?_, fun x => ?_, fun x hx => ?_, fun h => ?_, fun _ => hsc, fun _ => hsc⟩
        · unfold shutConn upd; simp only; split
          · rfl
          · exact hk
        · unfold shutConn upd; simp only; split
          · next e => subst e; rfl
          · rfl
        · unfold shutConn; simp only [upd_other _ _ hx]
        · unfold shutConn; simp only [upd_same, h, Bool.true_or]
    obtain ⟨k1, k2, k3, k4, k5, k6, k7, k8⟩ := key
    refine ⟨fun x hx hn => ?_, fun x hx k hk => ?_, fun k hk hsk => ?_⟩
    · simp only [a]; simp only [b, k1] at hx
      by_cases e : x = c
      · subst e; exact absurd (hg x hgiv) hn
      · rw [k5 x e]; exact h1 x hx fun h => hn (hg x h)
    · simp only [a] at hx hk; simp only [d]
      by_cases e : x = c
      · subst e; exact k7 hx k hk
      · rw [k5 x e] at hx hk; exact k3 k (h2 x hx k hk)
    · simp only [cc, k2] at hk; simp only [d] at hsk
      have hsk' : p.shut k = false := by
        cases e : p.shut k with
        | false => rfl
        | true => rw [k3 k e] at hsk; cases hsk
      obtain ⟨x, i, j, l⟩ := h3 k hk hsk'
      refine ⟨x, by simp only [b, k1]; exact i, by simp only [a, k4]; exact j, ?_⟩
      rcases l with l | l
      · rcases hloc x with hx | ⟨rfl, hok⟩
        · refine .inl ?_
          rw [toks_mid] at l ⊢; omega
        · have := k8 hok k ((k4 x).trans j)
          rw [this] at hsk; cases hsk
      · refine .inr ?_
        simp only [a]
        by_cases e : x = c
        · subst e; exact k6 l
        · rw [k5 x e]; exact l
  -- a `reclaim`
  have recl : ∀ x, p' = (reclaim p x).1 → x < p.nConns → (p.conns x).closed = false → (p.conns x).pooled = true →
      (∀ c, loc p' pc' c + one c x = loc p pc c + one c p.nConns) → Socks ⟨p', pre ++ pc' :: post⟩ := fun x hp hx hxc hxp hm => by
    subst hp
    refine ⟨fun c hc hn => ?_, fun c hc k hk => ?_, fun k hk hsk => ?_⟩
    · simp only [reclaim_conns]
      by_cases e : c = p.nConns
      · rw [if_pos e]; split
        · exact ⟨rfl, rfl⟩
        · exact ⟨hxp, hxc⟩
      · rw [if_neg e]
        have : c < p.nConns + 1 := hc
        exact h1 c (by simp only; omega) fun h => hn (hg c h)
    · simp only [reclaim_conns] at hc hk
      by_cases e : c = p.nConns
      · rw [if_pos e] at hc; split at hc
        · cases hc
        · rw [hxc] at hc; cases hc
      · rw [if_neg e] at hc hk; exact h2 c hc k hk
    · obtain ⟨c, i, j, l⟩ := h3 k hk hsk
      simp only at i j l
      by_cases e : c = x
      · subst e
        cases hce : (p.conns c).connErr with
        | true => exact ⟨c, Nat.lt_succ_of_lt i, by simp only [reclaim_conns]; rw [if_neg (by omega)]; exact j, .inr (by simp only [reclaim_conns]; rw [if_neg (by omega)]; exact hce)⟩
        | false =>
          refine ⟨p.nConns, Nat.lt_succ_self _, by simp only [reclaim_conns, if_true, hce, hxc, Bool.or_self]; exact j, .inl ?_⟩
          have := hm p.nConns
          have e1 : one p.nConns c = 0 := if_neg (by omega)
          rw [one_same, e1] at this
          rw [toks_mid]; omega
      · refine ⟨c, Nat.lt_succ_of_lt i, by simp only [reclaim_conns]; rw [if_neg (by omega)]; exact j, l.imp (fun l => ?_) (fun l => by simp only [reclaim_conns]; rw [if_neg (by omega)]; exact l)⟩
        have := hm c
        have e1 : one c x = 0 := if_neg (Ne.symm e)
        have e2 : one c p.nConns = 0 := if_neg (by omega)
        rw [toks_mid] at l ⊢; omega
  have gw : ∀ c ∈ pc.works, Given ⟨p, pre ++ pc :: post⟩ c := fun c hc => ho.works pc (mem_mid.mpr (.inl rfl)) c hc
  cases h with
  | lock => exact same rfl rfl rfl rfl fun _ => Nat.le_refl _
  | refuse => exact same rfl rfl rfl rfl fun _ => Nat.le_refl _
  | check => exact same rfl rfl rfl rfl fun _ => Nat.le_refl _
  | receive hc =>
    refine same rfl rfl rfl rfl fun c => ?_
    simp only [loc, hc, count_cons', PC.tok]; omega
  | @dialFail c hn => exact init c _ rfl hn rfl rfl rfl (.inl rfl) rfl rfl fun _ => Nat.le_refl _
  | @initOk c hn => exact init c _ rfl hn rfl rfl rfl (.inr ⟨rfl, rfl⟩) rfl rfl fun _ => Nat.le_refl _
  | @initFail c e n hn => exact init c _ rfl hn rfl rfl rfl (.inr ⟨rfl, rfl⟩) rfl rfl fun _ => Nat.le_refl _
  | alive => exact same rfl rfl rfl rfl fun _ => Nat.le_refl _
  | failedEnd => exact same rfl rfl rfl rfl fun _ => Nat.le_refl _
  | @failedRet c n q ok hcl =>
    have hm : 0 < (PC.failed c (n + 1)).mine c := by simp only [PC.mine, one_same]; omega
    have := h1 c (hlt c (.inl hm)) (hng c hm (by intro e; cases e))
    rcases closes_ret hcl with ⟨_, h' | h' | h'⟩ | ⟨s, bad, _, h', _⟩
    · rw [this.2] at h'; cases h'.1
    · cases h'.1
    · rw [this.1] at h'; cases h'.1
    · rw [this.1] at h'; cases h'
  | @failedReclaim c n q m hcl =>
    obtain ⟨a, b, rfl, rfl⟩ := closes_send hcl
    obtain rfl : n = 0 := by simp only [PC.Tame] at htame; omega
    refine recl c rfl (hlt c (.inl (by simp only [PC.mine, one_same]; omega))) a b fun d => ?_
    simp only [loc, reclaim, PC.tok]; omega
  | @failedSend m c n =>
    refine same rfl rfl rfl rfl fun d => ?_
    have e : n = 0 := htame
    subst e
    simp only [loc, count_snoc, PC.tok]; omega
  | openedNone => exact same rfl rfl rfl rfl fun _ => Nat.le_refl _
  | openedSome =>
    refine same rfl rfl rfl rfl fun d => ?_
    simp only [loc, count_snoc, PC.tok]; omega
  | @closed c _ hcl =>
    refine ret hcl (gw c (by simp [PC.works])) rfl rfl rfl rfl fun d => ?_
    by_cases e : d = c
    · exact .inr ⟨e, rfl⟩
    · refine .inl ?_
      have : p'.chan = p.chan ∧ p'.out = p.out := by rcases closes_ret hcl with ⟨rfl, _⟩ | ⟨s, bad, _, _, _, rfl, _⟩ <;> exact ⟨rfl, rfl⟩
      simp only [loc, PC.tok, this.1, this.2, one, if_neg (Ne.symm e)]; omega
  | @closeErr c q hcl =>
    refine ret hcl (gw c (by simp [PC.works])) rfl rfl rfl rfl fun d => .inl ?_
    have : q.chan = p.chan ∧ q.out = p.out := by rcases closes_ret hcl with ⟨rfl, _⟩ | ⟨s, bad, _, _, _, rfl, _⟩ <;> exact ⟨rfl, rfl⟩
    simp only [loc, PC.tok, this.1, this.2, count_snoc]; omega
  | @closeReclaim c q m hcl =>
    obtain ⟨a, b, rfl, rfl⟩ := closes_send hcl
    refine recl c rfl (hlt c (.inr (by simp [PC.works]))) a b fun d => ?_
    simp only [loc, reclaim, PC.tok]; omega
  | closeSend =>
    refine same rfl rfl rfl rfl fun d => ?_
    simp only [loc, count_snoc, PC.tok]; omega
  | useEnd => exact same rfl rfl rfl rfl fun _ => Nat.le_refl _
  | useRet => cases htame
  | useReclaim => cases htame
  | useSend => exact htame.elim
  | poolLock => exact same rfl rfl rfl rfl fun _ => Nat.le_refl _
  | poolEnd => exact same rfl rfl rfl rfl fun _ => Nat.le_refl _
  | @poolNext c rest =>
    have hgc := gw c (by simp [PC.works])
    have hv : ∀ x, (upd p.conns c { p.conns c with pooled := false } x).sock = (p.conns x).sock ∧ (upd p.conns c { p.conns c with pooled := false } x).closed = (p.conns x).closed ∧
        (upd p.conns c { p.conns c with pooled := false } x).connErr = (p.conns x).connErr := fun x => by
      unfold upd; split
      · next e => subst e; exact ⟨rfl, rfl, rfl⟩
      · exact ⟨rfl, rfl, rfl⟩
    refine ⟨fun x hx hn => ?_, fun x hx k hk => ?_, fun k hk hsk => ?_⟩
    · by_cases e : x = c
      · subst e; exact absurd (hg x hgc) hn
      · simp only [upd_other _ _ e]; exact h1 x hx fun h => hn (hg x h)
    · exact h2 x ((hv x).2.1.symm.trans hx) k ((hv x).1.symm.trans hk)
    · obtain ⟨x, i, j, l⟩ := h3 k hk hsk
      refine ⟨x, i, (hv x).1.trans j, l.imp (fun l => ?_) (fun l => (hv x).2.2.trans l)⟩
      rw [toks_mid] at l ⊢
      simp only [loc, PC.tok] at l ⊢; omega
  | @poolConn c rest _ hcl =>
    refine ret hcl (gw c (by simp [PC.works])) rfl rfl rfl rfl fun d => .inl ?_
    have : p'.chan = p.chan ∧ p'.out = p.out := by rcases closes_ret hcl with ⟨rfl, _⟩ | ⟨s, bad, _, _, _, rfl, _⟩ <;> exact ⟨rfl, rfl⟩
    simp only [loc, PC.tok, this.1, this.2]; omega
  | @poolErr c rest q hcl =>
    refine ret hcl (gw c (by simp [PC.works])) rfl rfl rfl rfl fun d => .inl ?_
    have : q.chan = p.chan ∧ q.out = p.out := by rcases closes_ret hcl with ⟨rfl, _⟩ | ⟨s, bad, _, _, _, rfl, _⟩ <;> exact ⟨rfl, rfl⟩
    simp only [loc, PC.tok, this.1, this.2]; omega
  | poolUnlock => exact same rfl rfl rfl rfl fun _ => Nat.le_refl _
  | initPanic _ hc => exact absurd hc hp.1
  | poolPanic hc => exact absurd hc hp.2
  | panicEnd => exact same rfl rfl rfl rfl fun _ => Nat.le_refl _

theorem socks_reach {s : State} (h : Reach .calm (.init max) s) : Own s ∧ Slots s ∧ Socks s :=
  h.inv (I := fun s => Own s ∧ Slots s ∧ Socks s) ⟨own_init max, slots_init max, socks_init max⟩
    (fun _ _ _ hi hc hl => ⟨own_call hl hi.1, slots_call hc hi.2.1, socks_call hc hi.2.2⟩)
    (fun _ _ _ _ _ _ _ hi hc hs => ⟨own_step (tr hs) hi.1, slots_step (tr hs) hc.2 hi.1 hi.2.1, socks_step (tr hs) hc.1 hi.1 hi.2.1 hi.2.2⟩)

/-! ## Counting -/

/-- The slot that a call holds. -/
def PC.slot : PC → List Nat
  | .received d => [d]
  | .failed _ 0 => []
  | .failed d _ => [d]
  | .failedSend m _ _ => [m]
  | .opened (some d) => [d]
  | .closing d => [d]
  | .closeSend m => [m]
  | _ => []

theorem slot_size (pc : PC) : pc.slot.length = pc.size := by
  cases pc with
  | failed d n => cases n <;> rfl
  | opened r => cases r <;> rfl
  | _ => rfl

theorem slot_tok (pc : PC) (c : Nat) (h : 0 < pc.tok c) : c ∈ pc.slot := by
  have key : ∀ {d}, 0 < one c d → c ∈ [d] := fun {d} h => by
    unfold one at h
    split at h
    · next e => simp [e]
    · omega
  cases pc with
  | failed d n => cases n with
    | zero => simp [PC.tok] at h
    | succ n => exact key h
  | opened r => cases r with
    | none => simp [PC.tok] at h
    | some d => exact key h
  | received d => exact key h
  | failedSend m d n => exact key h
  | closing d => exact key h
  | closeSend m => exact key h
  | _ => simp [PC.tok] at h

theorem length_le {m : List Nat} : ∀ {l : List Nat}, l.Nodup → (∀ x ∈ l, x ∈ m) → l.length ≤ m.length := by
  intro l
  induction l generalizing m with
  | nil => intros; exact Nat.zero_le _
  | cons a l ih =>
    intro hn hm
    have ha := hm a (by simp)
    obtain ⟨h1, h2⟩ := List.nodup_cons.mp hn
    have := ih (m := m.erase a) h2 fun x hx => (List.mem_erase_of_ne (fun e => h1 (by rw [← e]; exact hx))).mpr (hm x (by simp [hx]))
    rw [List.length_erase_of_mem ha] at this
    have := List.length_pos_of_mem ha
    simp only [List.length_cons]
    omega

theorem slots_count (s : State) {l : List Nat} (hn : l.Nodup) (h : ∀ c ∈ l, 0 < toks s c) : l.length ≤ sizes s := by
  have hl : ∀ calls : List PC, (calls.flatMap PC.slot).length = tot PC.size calls := by
    intro calls
    induction calls with
    | nil => rfl
    | cons pc calls ih =>
      rw [List.flatMap_cons, List.length_append, ih, slot_size]
      have := tot_mid PC.size [] calls pc
      simp only [List.nil_append, tot_nil] at this
      omega
  have hm : ∀ (calls : List PC) c, 0 < tot (PC.tok c) calls → c ∈ calls.flatMap PC.slot := by
    intro calls c
    induction calls with
    | nil => intro h; cases h
    | cons pc calls ih =>
      intro h
      have := tot_mid (PC.tok c) [] calls pc
      simp only [List.nil_append, tot_nil] at this
      rw [List.flatMap_cons, List.mem_append]
      by_cases e : 0 < pc.tok c
      · exact .inl (slot_tok pc c e)
      · exact .inr (ih (by omega))
  have := length_le (m := s.pool.chan ++ s.pool.out ++ s.calls.flatMap PC.slot) hn fun c hc => by
    have := h c hc
    unfold toks at this
    by_cases h1 : 0 < s.pool.chan.count c
    · simp [List.count_pos_iff.mp h1]
    · by_cases h2 : 0 < s.pool.out.count c
      · simp [List.count_pos_iff.mp h2]
      · exact List.mem_append_right _ (hm _ _ (by omega))
  unfold sizes
  rw [← hl]
  simpa [List.length_append, Nat.add_assoc] using this

end Bolt.Pooling
