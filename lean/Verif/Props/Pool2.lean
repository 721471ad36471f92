import Verif.Props.Pool1

/-!
# Pools: connections handed out are initialised (C51), closing the pool closes the sockets (C54)
-/

namespace Bolt.Pooling

variable {max : Nat}

/-! ## C51 -/

/-- Every failed initialisation that has opened a socket sets `connErr`. -/
def Rules.failuresSet : Rules := ⟨fun _ _ => True, fun ch => ∀ n, ch ≠ .initFail false n⟩

/-- Fit for the pool. -/
def Ok (p : Pool) (c : Nat) : Prop := ((p.conns c).connErr = false ∧ (p.conns c).closed = false) ∧ ∀ k, (p.conns c).sock = some k → p.inited k = true

/-- Initialised. -/
def Live (p : Pool) (c : Nat) : Prop := ∃ k, (p.conns c).sock = some k ∧ p.inited k = true

/-- Its initialisation failed. -/
def Dud (p : Pool) (c : Nat) : Prop := (p.conns c).connErr = true ∨ (p.conns c).sock = none

/-- What a call knows about its connections. -/
def PC.Good (p : Pool) : PC → Prop
  | .received c => Ok p c
  | .failed c _ => Dud p c
  | .failedSend m c _ => Ok p m ∧ Dud p c
  | .opened (some c) => Live p c
  | .closeSend m => Ok p m
  | .usingSend m _ _ => Ok p m
  | _ => True

/-- All connections in the pool are fit for it, all handed out are initialised. -/
structure Good (s : State) : Prop where
  chan : ∀ c ∈ s.pool.chan, Ok s.pool c
  handed : ∀ c ∈ s.pool.handed, Live s.pool c
  calls : ∀ pc ∈ s.calls, pc.Good s.pool

theorem ok_frame {p p' : Pool} {c : Nat} (h : p'.conns c = p.conns c) (hi : ∀ k, p.inited k = true → p'.inited k = true) (ho : Ok p c) : Ok p' c := by
  unfold Ok
  rw [h]
  exact ⟨ho.1, fun k hk => hi k (ho.2 k hk)⟩

theorem live_frame {p p' : Pool} {c : Nat} (h : (p'.conns c).sock = (p.conns c).sock) (hi : ∀ k, p.inited k = true → p'.inited k = true) (ho : Live p c) : Live p' c := by
  obtain ⟨k, h1, h2⟩ := ho
  exact ⟨k, h.trans h1, hi k h2⟩

theorem dud_frame {p p' : Pool} {c : Nat} (h : (p'.conns c).sock = (p.conns c).sock) (he : (p.conns c).connErr = true → (p'.conns c).connErr = true) (ho : Dud p c) : Dud p' c := by
  rcases ho with ho | ho
  · exact .inl (he ho)
  · exact .inr (h.trans ho)

theorem ok_reclaim {p : Pool} {c : Nat} (h : Dud p c ∨ Live p c ∨ Ok p c) : Ok (reclaim p c).1 p.nConns := by
  unfold Ok reclaim
  simp only [upd_same]
  cases he : (p.conns c).connErr with
  | true => simp only [Bool.true_or, if_true]; exact ⟨⟨rfl, rfl⟩, fun k hk => by cases hk⟩
  | false =>
    cases hc : (p.conns c).closed with
    | true => simp only [Bool.or_true, if_true]; exact ⟨⟨rfl, rfl⟩, fun k hk => by cases hk⟩
    | false =>
      simp only [Bool.or_self, Bool.false_eq_true, if_false]
      refine ⟨⟨he, hc⟩, fun k hk => ?_⟩
      rcases h with (h | h) | ⟨k', h1, h2⟩ | h
      · rw [he] at h; cases h
      · rw [h] at hk; cases hk
      · rw [h1] at hk; cases hk; exact h2
      · exact h.2 k hk

theorem good_call {p : Pool} {calls : List PC} {k : Call} (ho : Own ⟨p, calls⟩) (hl : k.legal p) (h : Good ⟨p, calls⟩) :
    Good ⟨(k.start p).1, calls ++ [(k.start p).2]⟩ := by
  obtain ⟨h1, h2, h3⟩ := h
  have same : ∀ q : Pool, q.chan = p.chan → q.handed = p.handed → q.conns = p.conns → q.inited = p.inited → ∀ x : PC, x.Good q → Good ⟨q, calls ++ [x]⟩ := by
    intro q e1 e2 e3 e4 x hx
    have e4' : ∀ k, p.inited k = true → q.inited k = true := fun k h => by rw [e4]; exact h
    refine ⟨fun c hc => ok_frame (by rw [e3]) e4' (h1 c (by simp only [e1] at hc; exact hc)), fun c hc => live_frame (by rw [e3]) e4' (h2 c (by simp only [e2] at hc; exact hc)), fun pc hm => ?_⟩
    rcases List.mem_append.mp hm with hm | hm
    · have := h3 pc hm
      simp only
      unfold PC.Good Ok Live Dud at this ⊢
      simp only [e3, e4] at this ⊢
      exact this
    · rw [List.mem_singleton.mp hm]; exact hx
  cases k with
  | openPool => exact same p rfl rfl rfl rfl PC.opening trivial
  | close c => exact same { p with out := p.out.erase c } rfl rfl rfl rfl (PC.closing c) trivial
  | poolClose => exact same p rfl rfl rfl rfl PC.poolClosing trivial
  | use c e n =>
    have hg : Given ⟨p, calls⟩ c := .inl hl
    have hsock : ∀ d, ((Call.start p (.use c e n)).1.conns d).sock = (p.conns d).sock := fun d => by
      unfold Call.start upd; simp only; split
      · next h => subst h; rfl
      · rfl
    have herr : ∀ d, (p.conns d).connErr = true → ((Call.start p (.use c e n)).1.conns d).connErr = true := fun d h => by
      unfold Call.start upd; simp only; split
      · next e => subst e; simp [h]
      · exact h
    have hoth : ∀ d, d ≠ c → (Call.start p (.use c e n)).1.conns d = p.conns d := fun d h => upd_other _ _ h
    have hinit : ∀ k, p.inited k = true → (Call.start p (.use c e n)).1.inited k = true := fun k h => h
    refine ⟨fun d hd => ok_frame (hoth d fun e => ?_) hinit (h1 d hd), fun d hd => live_frame (hsock d) hinit (h2 d hd), fun pc hm => ?_⟩
    · subst e; exact given_chan ho hg hd
    · rcases List.mem_append.mp hm with hm | hm
      · have hpc := h3 pc hm
        have hne : ∀ d, 0 < pc.mine d → d = c → pc = .opened (some d) := fun d hd e => by
          subst e
          refine Classical.byContradiction fun hn => ?_
          obtain ⟨pre, post, rfl⟩ := List.append_of_mem (show pc ∈ calls by assumption)
          have := given_place ho hg hn
          omega
        simp only at hpc ⊢
        cases pc with
        | received d => exact ok_frame (hoth d fun e => by cases hne d (by simp [PC.mine, one_same]) e) hinit hpc
        | failed d _ => exact dud_frame (hsock d) (herr d) hpc
        | failedSend m d _ => exact ⟨ok_frame (hoth m fun e => by cases hne m (by simp only [PC.mine, one_same]; omega) e) hinit hpc.1, dud_frame (hsock d) (herr d) hpc.2⟩
        | opened r =>
          cases r with
          | none => trivial
          | some d => exact live_frame (hsock d) hinit hpc
        | closeSend m => exact ok_frame (hoth m fun e => by cases hne m (by simp [PC.mine, one_same]) e) hinit hpc
        | usingSend m _ _ => exact ok_frame (hoth m fun e => by cases hne m (by simp [PC.mine, one_same]) e) hinit hpc
        | _ => trivial
      · rw [List.mem_singleton.mp hm]; trivial

theorem good_step {p p' : Pool} {ch : Choice} {pc pc' : PC} {pre post : List PC} (ho : Own ⟨p, pre ++ pc :: post⟩) (h : Tr p ch pc p' pc') (hch : ∀ n, ch ≠ .initFail false n)
    (hg : Good ⟨p, pre ++ pc :: post⟩) : Good ⟨p', pre ++ pc' :: post⟩ := by
  obtain ⟨h1, h2, h3⟩ := hg
  simp only at h1 h2 h3
  have hi := (tr_socks h).1
  have hme := h3 pc (mem_mid.mpr (.inl rfl))
  have kc : ∀ c ∈ p.chan, Ok p' c := fun c hc => by
    obtain ⟨a, b, w⟩ := chan_other ho hc
    exact ok_frame ((tr_frame h b a).2.2 w) hi (h1 c hc)
  have kh : ∀ c ∈ p.handed, Live p' c := fun c hc => by
    obtain ⟨a, b⟩ := handed_other ho hc
    exact live_frame (tr_frame h b a).1 hi (h2 c hc)
  have kp : ∀ q, q ∈ pre ∨ q ∈ post → q.Good p' := fun q hq => by
    have hq' := h3 q (mem_mid.mpr (.inr hq))
    have hother : ∀ d, 0 < q.mine d → (∀ d', q ≠ .opened (some d')) → p'.conns d = p.conns d := fun d hd hn => by
      obtain ⟨a, b, w⟩ := mine_other ho hq hd
      exact (tr_frame h b a).2.2 fun hw => hn d (w hw)
    cases q with
    | received d => exact ok_frame (hother d (by simp [PC.mine, one_same]) (fun _ e => by cases e)) hi hq'
    | failed d n =>
      have := hother d (by simp [PC.mine, one_same]) (fun _ e => by cases e)
      exact dud_frame (by rw [this]) (by rw [this]; exact id) hq'
    | failedSend m d n =>
      have e1 := hother m (by simp only [PC.mine, one_same]; omega) (fun _ e => by cases e)
      have e2 := hother d (by simp only [PC.mine, one_same]; omega) (fun _ e => by cases e)
      exact ⟨ok_frame e1 hi hq'.1, dud_frame (by rw [e2]) (by rw [e2]; exact id) hq'.2⟩
    | opened r =>
      cases r with
      | none => trivial
      | some d =>
        obtain ⟨a, b, -⟩ := mine_other ho hq (d := d) (by simp [PC.mine, one_same])
        exact live_frame (tr_frame h b a).1 hi hq'
    | closeSend m => exact ok_frame (hother m (by simp [PC.mine, one_same]) (fun _ e => by cases e)) hi hq'
    | usingSend m c n => exact ok_frame (hother m (by simp [PC.mine, one_same]) (fun _ e => by cases e)) hi hq'
    | _ => trivial
  have given : ∀ c ∈ pc.works, Live p c := fun c hc => by
    rcases ho.works pc (mem_mid.mpr (.inl rfl)) c hc with h | h
    · exact h2 c h
    · exact h3 _ h
  have mk : (∀ c ∈ p'.chan, Ok p' c) → (∀ c ∈ p'.handed, Live p' c) → pc'.Good p' → Good ⟨p', pre ++ pc' :: post⟩ := fun a b c =>
    ⟨a, b, fun q hq => (mem_mid.mp hq).elim (fun e => by rw [e]; exact c) (kp q)⟩
  have ret : ∀ {c ch ok q}, Closes p c ch (.ret q ok) → q.chan = p.chan ∧ q.handed = p.handed := fun {c ch ok q} h => by
    rcases closes_ret h with ⟨rfl, _⟩ | ⟨s, bad, _, _, _, rfl, _⟩ <;> exact ⟨rfl, rfl⟩
  have snoc : ∀ {m}, Ok p' m → ∀ c ∈ p.chan ++ [m], Ok p' c := fun hm c hc => by
    rcases List.mem_append.mp hc with hc | hc
    · exact kc c hc
    · rw [List.mem_singleton.mp hc]; exact hm
  cases h with
  | receive h =>
    refine mk (fun c hc => kc c (by rw [h]; exact List.mem_cons_of_mem _ hc)) kh ?_
    exact h1 _ (by rw [h]; exact List.mem_cons_self)
  | dialFail => refine mk kc kh (.inr ?_); simp only [upd_same]
  | @initOk c => refine mk kc kh ⟨p.nSocks, ?_, ?_⟩ <;> simp only [upd_same]
  | @initFail c e n _ hc =>
    refine mk kc kh (.inl ?_)
    simp only [upd_same]
    cases e with
    | true => simp
    | false => exact absurd hc (hch n)
  | @alive c hn =>
    refine mk kc kh ?_
    unfold nilOrClosed at hn
    cases hs : (p.conns c).sock with
    | none => rw [hs] at hn; cases hn
    | some k => exact ⟨k, hs, hme.2 k hs⟩
  | @failedRet c n _ _ h =>
    refine mk ?_ ?_ ?_
    · rw [(ret h).1]; exact kc
    · rw [(ret h).2]; exact kh
    · rcases closes_ret h with ⟨rfl, _⟩ | ⟨s, bad, _, _, _, rfl, _⟩
      · exact hme
      · refine dud_frame (p := p) ?_ ?_ hme <;> simp only [shutConn, upd_same]
        intro h; simp [h]
  | @failedReclaim c n _ _ h =>
    obtain ⟨_, _, rfl, rfl⟩ := closes_send h
    refine mk kc kh ⟨ok_reclaim (.inl hme), ?_⟩
    have hlt : c < p.nConns := by
      refine Nat.lt_of_not_le fun hn => ?_
      have := ho.fresh c hn
      unfold places at this
      simp only [tot_mid, PC.mine, one_same] at this
      omega
    have : (reclaim p c).1.conns c = p.conns c := upd_other _ _ (by omega)
    exact dud_frame (by rw [this]) (by rw [this]; exact id) hme
  | failedSend h => exact mk (snoc hme.1) kh hme.2
  | openedSome =>
    refine mk kc (fun c hc => ?_) trivial
    rcases List.mem_append.mp hc with hc | hc
    · exact kh c hc
    · rw [List.mem_singleton.mp hc]; exact hme
  | closed h => exact mk (by rw [(ret h).1]; exact kc) (by rw [(ret h).2]; exact kh) trivial
  | closeErr h => exact mk (by simp only; rw [(ret h).1]; exact kc) (by simp only; rw [(ret h).2]; exact kh) trivial
  | @closeReclaim c _ _ h =>
    obtain ⟨_, _, rfl, rfl⟩ := closes_send h
    exact mk kc kh (ok_reclaim (.inr (.inl (given c (by simp [PC.works])))))
  | closeSend h => exact mk (snoc hme) kh trivial
  | useRet h => exact mk (by rw [(ret h).1]; exact kc) (by rw [(ret h).2]; exact kh) trivial
  | @useReclaim c n _ _ h =>
    obtain ⟨_, _, rfl, rfl⟩ := closes_send h
    exact mk kc kh (ok_reclaim (.inr (.inl (given c (by simp [PC.works])))))
  | useSend h => exact mk (snoc hme) kh trivial
  | poolConn h => exact mk (by rw [(ret h).1]; exact kc) (by rw [(ret h).2]; exact kh) trivial
  | poolErr h => exact mk (by simp only; rw [(ret h).1]; exact kc) (by simp only; rw [(ret h).2]; exact kh) trivial
  | failedEnd => exact mk kc kh trivial
  | _ => exact mk kc kh trivial

theorem good_init (max : Nat) : Good (.init max) := ⟨fun c _ => ⟨⟨rfl, rfl⟩, fun k hk => by cases hk⟩, fun c h => (by cases h), fun c h => (by cases h)⟩

theorem opened_handed {R : Rules} {s : State} (h : Reach R (.init max) s) : ∀ c, PC.done (.opened c) ∈ s.calls → c ∈ s.pool.handed := by
  refine h.inv (I := fun s => ∀ c, PC.done (.opened c) ∈ s.calls → c ∈ s.pool.handed) (fun c h => by cases h) ?_ ?_
  · intro p calls k ih _ _ c hc
    have e : (k.start p).1.handed = p.handed := by cases k <;> rfl
    simp only [e]
    rcases List.mem_append.mp hc with hc | hc
    · exact ih c hc
    · have := List.mem_singleton.mp hc
      cases k <;> cases this
  · intro p pre pc post ch p' pc' ih _ hs c hc
    have ht := tr hs
    have hmono : c ∈ p.handed → c ∈ p'.handed := fun hm => by
      rcases (tr_given ht).1 c (.inl hm) with h | h
      · exact h
      · subst h
        cases ht with
        | initOk => exact hm
        | alive => exact hm
    rcases mem_mid.mp hc with e | hc
    · clear hc ih
      cases ht <;> cases e
      exact List.mem_append_right _ (List.mem_singleton.mpr rfl)
    · exact hmono (ih c (mem_mid.mpr (.inr hc)))

/-- C51: every connection that an `OpenPool` returns has a socket on which handshake and INIT succeeded, in all runs of
any number of clients, whatever they do, in which every failed initialisation sets `connErr`. Missing: failures that do
not set it, see `c51_false`. -/
theorem c51_initialised_partial {s : State} (h : Reach .failuresSet (.init max) s) (ho : Opened s i c) :
    ∃ k, sockOf s c = some k ∧ s.pool.inited k = true := by
  have key := h.inv (I := fun s => Own s ∧ Good s) ⟨own_init max, good_init max⟩ (fun _ _ _ hi _ hl => ⟨own_call hl hi.1, good_call hi.1 hl hi.2⟩)
    (fun _ _ _ _ _ _ _ hi hc hs => ⟨own_step (tr hs) hi.1, good_step hi.1 (tr hs) hc hi.2⟩)
  exact key.2.handed c (opened_handed h c (List.mem_of_getElem? ho))

/-! ## C54 -/

/-- Every initialisation that opens a socket succeeds. -/
def Rules.noFailures : Rules := ⟨fun _ _ => True, fun ch => ch ≠ .panics ∧ ∀ e n, ch ≠ .initFail e n⟩

/-- The socket of this connection, if any, is closed. -/
def Shut (p : Pool) (c : Nat) : Prop := ∀ k, (p.conns c).sock = some k → p.shut k = true

/-- How far a `Close` of the pool has come. -/
def PC.Closed (p : Pool) : PC → Prop
  | .poolClose rest => (∀ c ∈ rest, c ∈ p.refs) ∧ ∀ c ∈ p.refs, c ∈ rest ∨ Shut p c
  | .poolCloseConn d rest => (∀ c ∈ d :: rest, c ∈ p.refs) ∧ ∀ c ∈ p.refs, c ∈ d :: rest ∨ Shut p c
  | .poolClosed true => ∀ c ∈ p.refs, Shut p c
  | .done (.poolClosed true) => ∀ c ∈ p.refs, Shut p c
  | _ => True

/-- Every socket belongs to a connection in `connRefs`. -/
structure Known (s : State) : Prop where
  known : ∀ k < s.pool.nSocks, ∃ c ∈ s.pool.refs, (s.pool.conns c).sock = some k
  closed : ∀ c ∈ s.pool.refs, (s.pool.conns c).closed = true → Shut s.pool c
  calls : ∀ pc ∈ s.calls, pc.Closed s.pool

theorem closed_frame {p p' : Pool} (hr : p'.refs = p.refs) (hs : ∀ c ∈ p.refs, Shut p c → Shut p' c) {q : PC} (h : q.Closed p) : q.Closed p' := by
  unfold PC.Closed at h ⊢
  rw [hr]
  split
  · exact ⟨h.1, fun c hc => (h.2 c hc).imp id (hs c hc)⟩
  · exact ⟨h.1, fun c hc => (h.2 c hc).imp id (hs c hc)⟩
  · intro c hc; exact hs c hc (h c hc)
  · intro c hc; exact hs c hc (h c hc)
  · trivial

theorem known_call {p : Pool} {calls : List PC} {k : Call} (h : Known ⟨p, calls⟩) : Known ⟨(k.start p).1, calls ++ [(k.start p).2]⟩ := by
  obtain ⟨h1, h2, h3⟩ := h
  have e : (k.start p).1.refs = p.refs ∧ (k.start p).1.nSocks = p.nSocks ∧ (k.start p).1.shut = p.shut ∧
      (∀ d, ((k.start p).1.conns d).sock = (p.conns d).sock ∧ ((k.start p).1.conns d).closed = (p.conns d).closed) ∧ (∀ q : Pool, (k.start p).2.Closed q) := by
    cases k with
    | use c e n =>
      refine ⟨rfl, rfl, rfl, fun d => ?_, fun _ => trivial⟩
      unfold Call.start upd; simp only; split
      · next h => subst h; exact ⟨rfl, rfl⟩
      · exact ⟨rfl, rfl⟩
    | _ => exact ⟨rfl, rfl, rfl, fun _ => ⟨rfl, rfl⟩, fun _ => trivial⟩
  obtain ⟨e1, e2, e3, e4, e5⟩ := e
  have hs : ∀ c, Shut p c → Shut (k.start p).1 c := fun c h k' hk => by rw [e3]; exact h k' ((e4 c).1.symm.trans hk)
  refine ⟨fun k' hk => ?_, fun c hr hc => hs c (h2 c (by simp only [e1] at hr; exact hr) ((e4 c).2.symm.trans hc)), fun pc hm => ?_⟩
  · simp only [e2] at hk
    obtain ⟨c, a, b⟩ := h1 k' hk
    exact ⟨c, by simp only [e1]; exact a, (e4 c).1.trans b⟩
  · rcases List.mem_append.mp hm with hm | hm
    · exact closed_frame e1 (fun c _ => hs c) (h3 pc hm)
    · rw [List.mem_singleton.mp hm]; exact e5 _

theorem known_step {p p' : Pool} {ch : Choice} {pc pc' : PC} {pre post : List PC} (ho : Own ⟨p, pre ++ pc :: post⟩) (hl : Locked ⟨p, pre ++ pc :: post⟩)
    (hd : ∀ q ∈ pre ++ pc :: post, (∃ ok, q = .poolClosed ok ∨ q = .done (.poolClosed ok)) → p.closed = true)
    (hgood : Good ⟨p, pre ++ pc :: post⟩) (h : Tr p ch pc p' pc') (hch : ch ≠ .panics ∧ ∀ e n, ch ≠ .initFail e n) (hk : Known ⟨p, pre ++ pc :: post⟩) : Known ⟨p', pre ++ pc' :: post⟩ := by
  obtain ⟨h1, h2, h3⟩ := hk
  simp only at h1 h2 h3
  have hpc := h3 pc (mem_mid.mpr (.inl rfl))
  have hsock : ∀ c ∈ p.refs, (p'.conns c).sock = (p.conns c).sock := fun c hc => by
    have hg := ho.refs c hc
    by_cases hx : pc = .opened (some c)
    · subst hx; cases h; rfl
    · exact (tr_frame h (given_lt ho hg) (given_place ho hg hx)).1
  have hshut : ∀ c ∈ p.refs, Shut p c → Shut p' c := fun c hc h' k hk => (tr_socks h).2.1 k (h' k ((hsock c hc).symm.trans hk))
  have hrm : ∀ x, pc = .received x → ∀ c ∈ p.refs, c ≠ x := fun x hx c hc e => by
    have := given_place ho (ho.refs c hc) (by rw [hx]; intro e; cases e)
    rw [hx, e, PC.mine, one_same] at this; cases this
  have hlt : ∀ c ∈ p.refs, c ≠ p.nConns := fun c hc e => by have := given_lt ho (ho.refs c hc); simp only at this; omega
  have mk : p'.refs = p.refs → p'.nSocks = p.nSocks → (∀ c ∈ p.refs, (p'.conns c).closed = true → (p.conns c).closed = true ∨ Shut p' c) → pc'.Closed p' →
      Known ⟨p', pre ++ pc' :: post⟩ := fun hr hn hc hme => by
    refine ⟨fun k hk => ?_, fun c hr' hc' => ?_, fun q hq => ?_⟩
    · simp only [hn] at hk
      obtain ⟨c, a, b⟩ := h1 k hk
      exact ⟨c, by simp only [hr]; exact a, (hsock c a).trans b⟩
    · simp only [hr] at hr'
      rcases hc c hr' hc' with h' | h'
      · exact hshut c hr' (h2 c hr' h')
      · exact h'
    · rcases mem_mid.mp hq with rfl | hq
      · exact hme
      · exact closed_frame hr hshut (h3 q (mem_mid.mpr (.inr hq)))
  have ret : ∀ {c ch ok q}, Closes p c ch (.ret q ok) → q.refs = p.refs ∧ q.nSocks = p.nSocks ∧
      (∀ d ∈ p.refs, (q.conns d).closed = true → (p.conns d).closed = true ∨ Shut q d) ∧ (ok = true → c ∈ p.refs → Shut q c) := fun {c ch ok q} h => by
    rcases closes_ret h with ⟨rfl, h'⟩ | ⟨s, bad, _, _, hs, rfl, _⟩
    · refine ⟨rfl, rfl, fun _ _ h => .inl h, fun ho hc => ?_⟩
      rcases h' with h' | ⟨_, h'⟩ | ⟨_, h', _⟩
      · exact h2 c hc h'.1
      · rw [h'] at ho; cases ho
      · intro k hk; rw [h'] at hk; cases hk
    · have hsc : Shut (shutConn p c s bad) c := fun k hk => by
        unfold shutConn at hk ⊢
        simp only [upd_same] at hk ⊢
        rw [hs] at hk
        cases hk
        exact upd_same _ _ _
      refine ⟨rfl, rfl, fun d _ hd => ?_, fun _ _ => hsc⟩
      by_cases hdc : d = c
      · subst hdc; exact .inr hsc
      · unfold shutConn at hd
        simp only [upd_other _ _ hdc] at hd
        exact .inl hd
  have snd : ∀ {c ch m q}, Closes p c ch (.send q m) → q.refs = p.refs ∧ q.nSocks = p.nSocks ∧
      (∀ d ∈ p.refs, (q.conns d).closed = true → (p.conns d).closed = true ∨ Shut q d) := fun {c ch ok q} h => by
    obtain ⟨_, _, rfl, rfl⟩ := closes_send h
    refine ⟨rfl, rfl, fun d hd h => .inl ?_⟩
    have : (reclaim p c).1.conns d = p.conns d := upd_other _ _ (hlt d hd)
    rw [this] at h; exact h
  cases h with
  | @initOk c hn _ =>
    have hin : p.closed = false := hl.notClosed _ (mem_mid.mpr (.inl rfl)) rfl
    refine ⟨fun k hk => ?_, fun d hd hc => ?_, fun q hq => ?_⟩
    · simp only at hk
      by_cases hkn : k = p.nSocks
      · subst hkn; exact ⟨c, List.mem_append_right _ (List.mem_singleton.mpr rfl), by simp only [upd_same]⟩
      · obtain ⟨d, a, b⟩ := h1 k (by omega)
        exact ⟨d, List.mem_append_left _ a, (hsock d a).trans b⟩
    · rcases List.mem_append.mp hd with hd | hd
      · refine hshut d hd (h2 d hd ?_)
        have hne : d ≠ c := hrm c rfl d hd
        simp only [upd_other _ _ hne] at hc
        exact hc
      · rw [List.mem_singleton.mp hd] at hc ⊢
        simp only [upd_same] at hc
        have : Ok p c := hgood.calls _ (mem_mid.mpr (.inl rfl))
        rw [this.1.2] at hc; cases hc
    · rcases mem_mid.mp hq with rfl | hq
      · trivial
      · have hnh : q.holds = false := by
          have := hl.one
          simp only [count_mid] at this
          have hb : p.lock.toNat ≤ 1 := by cases p.lock <;> simp
          have h1 : (PC.received c).holds.toNat = 1 := rfl
          cases hqh : q.holds with
          | false => rfl
          | true =>
            rcases hq with hq | hq
            · have := List.countP_pos_iff.mpr ⟨q, hq, hqh⟩; omega
            · have := List.countP_pos_iff.mpr ⟨q, hq, hqh⟩; omega
        have hnd : ∀ ok, q ≠ .done (.poolClosed ok) := fun ok e => by
          have := hd q (mem_mid.mpr (.inr hq)) ⟨ok, .inr e⟩
          rw [hin] at this; cases this
        simp only
        cases q with
        | poolClose => cases hnh
        | poolCloseConn => cases hnh
        | poolClosed => cases hnh
        | done r =>
          cases r with
          | poolClosed ok => exact absurd rfl (hnd ok)
          | _ => trivial
        | _ => trivial
  | initFail _ h => exact absurd h (hch.2 _ _)
  | initPanic _ h => exact absurd h hch.1
  | @dialFail c =>
    refine mk rfl rfl (fun d hd h => .inl ?_) trivial
    have hne : d ≠ c := hrm c rfl d hd
    simp only [upd_other _ _ hne] at h
    exact h
  | failedRet h => obtain ⟨a, b, c, -⟩ := ret h; exact mk a b c trivial
  | failedReclaim h => obtain ⟨a, b, c⟩ := snd h; exact mk a b c trivial
  | closed h => obtain ⟨a, b, c, -⟩ := ret h; exact mk a b c trivial
  | closeErr h => obtain ⟨a, b, c, -⟩ := ret h; exact mk a b c trivial
  | closeReclaim h => obtain ⟨a, b, c⟩ := snd h; exact mk a b c trivial
  | useRet h => obtain ⟨a, b, c, -⟩ := ret h; exact mk a b c trivial
  | useReclaim h => obtain ⟨a, b, c⟩ := snd h; exact mk a b c trivial
  | poolLock => exact mk rfl rfl (fun _ _ h => .inl h) ⟨fun _ h => h, fun _ h => .inl h⟩
  | poolEnd => exact mk rfl rfl (fun _ _ h => .inl h) fun c hc => (hpc.2 c hc).elim (fun h => by cases h) (hshut c hc)
  | @poolNext d rest =>
    refine mk rfl rfl (fun c hc h => .inl ?_) ⟨hpc.1, fun c hc => (hpc.2 c hc).imp id (hshut c hc)⟩
    simp only at h
    unfold upd at h
    split at h
    · next e => subst e; exact h
    · exact h
  | @poolConn d rest _ h =>
    obtain ⟨a, b, c, e⟩ := ret h
    refine mk a b c ⟨fun x hx => by rw [a]; exact hpc.1 x (List.mem_cons_of_mem _ hx), fun x hx => ?_⟩
    rw [a] at hx
    rcases hpc.2 x hx with h' | h'
    · rcases List.mem_cons.mp h' with rfl | h'
      · exact .inr (e rfl hx)
      · exact .inl h'
    · exact .inr (hshut x hx h')
  | poolErr h => obtain ⟨a, b, c, -⟩ := ret h; exact mk a b c trivial
  | @poolUnlock ok =>
    refine mk rfl rfl (fun _ _ h => .inl h) ?_
    cases ok with
    | true => exact fun c hc => hshut c hc (hpc c hc)
    | false => trivial
  | _ => exact mk rfl rfl (fun _ _ h => .inl h) trivial

theorem known_init (max : Nat) : Known (.init max) := ⟨fun k hk => (by cases hk), fun c h => (by cases h), fun c h => (by cases h)⟩

/-- C54: when a `Close` of a pool has returned nil, every socket that the pool ever opened is closed, in all runs of any
number of clients, whatever they do, in which every initialisation that opens a socket succeeds; calls of `Close` of the pool
before it may have panicked. Missing: failed initialisations, see `c54_false`. -/
theorem c54_closed_partial {s : State} (h : Reach .noFailures (.init max) s) (hc : PC.done (.poolClosed true) ∈ s.calls) :
    ∀ k < s.pool.nSocks, s.pool.shut k = true := by
  have key : (Own s ∧ Locked s ∧ Good s) ∧ Reach .noFailures (.init max) s ∧ Known s := by
    clear hc
    induction h with
    | refl => exact ⟨⟨own_init max, locked_init max, good_init max⟩, .refl, known_init max⟩
    | call h0 h1 h ih =>
      obtain ⟨⟨i1, i2, i3⟩, i4, i5⟩ := ih
      have h' := h
      obtain ⟨hl, rfl⟩ := next_call h
      exact ⟨⟨own_call hl i1, locked_call _ i2, good_call i1 hl i3⟩, .call h0 h1 h', known_call i5⟩
    | @run t u i ch h0 h1 h ih =>
      have h' := h
      obtain ⟨⟨i1, i2, i3⟩, i4, i5⟩ := ih
      obtain ⟨pre, pc, post, p', pc', e, hs, rfl⟩ := next_run h
      obtain ⟨p, calls⟩ := t
      simp only at e hs
      subst e
      have hd := closed_of_done i4
      exact ⟨⟨own_step (tr hs) i1, locked_step (tr hs) i2, good_step i1 (tr hs) (fun n => h1.2 _ n) i3⟩, .run h0 h1 h', known_step i1 i2 hd i3 (tr hs) h1 i5⟩
  intro k hk
  obtain ⟨c, a, b⟩ := key.2.2.known k hk
  exact key.2.2.calls _ hc c a k b

/-- C54 at work: two connections, one of them closed by its client before. -/
example : (after 2 (openNew 0 ++ openNew 1 ++ closeIt 2 0 ++ closePool 3 2)).calls[3]? = some (.done (.poolClosed true)) ∧
    (after 2 (openNew 0 ++ openNew 1 ++ closeIt 2 0 ++ closePool 3 2)).pool.nSocks = 2 := by decide

/-- C51 at work: a failed initialisation, and another attempt. -/
example : (after 1 ([.call .openPool, .run 0 .go, .run 0 .go, .run 0 .go, .run 0 (.initFail true 0), .run 0 .go, .run 0 .go, .run 0 .go, .run 0 .go] ++ openNew 1)).calls
    = [.done .openFailed, .done (.opened 1)] := by decide

end Bolt.Pooling
