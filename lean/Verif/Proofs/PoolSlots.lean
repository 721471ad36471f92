import Verif.Proofs.PoolOwn

/-!
# The slots of a pool, when connections are closed once

Clients close and use only what they hold, and the handling of failures does not close connections. Then the connections
in the channel, handed out and on their way make up the slots of the pool, except for those lost in panics.
-/

namespace Bolt.Pooling

variable {max : Nat}

/-- Clients close and use only what they hold, and only clients and `initialize` close connections. -/
def Rules.disciplined : Rules where
  call p
    | .close c => c ∈ p.out
    | .use c _ n => c ∈ p.out ∧ n = 0
    | _ => True
  run ch := ∀ e n, ch ≠ .initFail e (n + 1)

/-- And `initialize` and `Close` of the pool do not panic. -/
def Rules.calm : Rules := ⟨Rules.disciplined.call, fun ch => (ch ≠ .panics ∧ ch ≠ .closePanics) ∧ Rules.disciplined.run ch⟩

theorem Reach.disciplined {s t : State} (h : Reach .calm s t) : Reach .disciplined s t :=
  h.mono (R := .calm) (R' := .disciplined) (fun _ _ h => h) (fun _ h => h.2)

/-- What such calls look like. -/
def PC.Tame : PC → Prop
  | .failed _ n => n ≤ 1
  | .failedSend _ _ n => n = 0
  | .using _ n => n = 0
  | .usingSend _ _ _ => False
  | _ => True

/-- How often a connection occurs as the slot that a call holds. -/
def PC.tok (c : Nat) : PC → Nat
  | .received d => one c d
  | .failed _ 0 => 0
  | .failed d _ => one c d
  | .failedSend m _ _ => one c m
  | .opened (some d) => one c d
  | .closing d => one c d
  | .closeSend m => one c m
  | _ => 0

/-- How many slots a call holds. -/
def PC.size : PC → Nat
  | .received _ => 1
  | .failed _ 0 => 0
  | .failed _ _ => 1
  | .failedSend _ _ _ => 1
  | .opened (some _) => 1
  | .closing _ => 1
  | .closeSend _ => 1
  | _ => 0

/-- A call that panicked: `OpenPool` loses the connection it has received. -/
def PC.lost : PC → Nat
  | .panicking | .done .panicked => 1
  | _ => 0

def loc (p : Pool) (pc : PC) (c : Nat) : Nat := p.chan.count c + p.out.count c + pc.tok c

def size (p : Pool) (pc : PC) : Nat := p.chan.length + p.out.length + pc.size

/-- How often a connection is a slot. -/
def toks (s : State) (c : Nat) : Nat := s.pool.chan.count c + s.pool.out.count c + tot (PC.tok c) s.calls

/-- How many slots there are. -/
def sizes (s : State) : Nat := s.pool.chan.length + s.pool.out.length + tot PC.size s.calls

/-- No `Close` of the pool has got to a connection. -/
def Clean (p : Pool) : Prop := ∀ c < p.nConns, (p.conns c).pooled = true ∧ (p.conns c).closed = false

theorem clean_upd {p p' : Pool} {c : Nat} {v : PConn} (hc : Clean p') (hn : p'.nConns = p.nConns) (h : p'.conns = upd p.conns c v)
    (hv : v.pooled = (p.conns c).pooled ∧ v.closed = (p.conns c).closed) : Clean p := fun d hd => by
  have := hc d (by rw [hn]; exact hd)
  rw [h] at this
  unfold upd at this
  split at this
  · next e => subst e; rw [hv.1, hv.2] at this; exact this
  · exact this

/-- What a step does to the slots, when it is not a `reclaim`. -/
structure Keeps (p : Pool) (pc : PC) (p' : Pool) (pc' : PC) : Prop where
  nConns : p'.nConns = p.nConns
  loc : ∀ c, loc p' pc' c ≤ loc p pc c
  size : size p' pc' ≤ size p pc
  clean : Clean p' → Clean p ∧ Pooling.size p pc + pc.lost ≤ Pooling.size p' pc' + pc'.lost
  sock : ∀ d, (p'.conns d).sock = (p.conns d).sock ∨ (p'.conns d).sock = none ∨
    ((p'.conns d).sock = some p.nSocks ∧ p'.nSocks = p.nSocks + 1 ∧ pc = .received d)

/-- What a `reclaim` does to the slots. -/
def Moves (p : Pool) (pc : PC) (p' : Pool) (pc' : PC) : Prop :=
  ∃ x, p' = (reclaim p x).1 ∧ (∀ c, loc p' pc' c + one c x = loc p pc c + one c p.nConns) ∧ size p' pc' = size p pc ∧ pc'.lost = pc.lost ∧ 0 < pc.tok x

theorem keeps_conns {p p' : Pool} {pc pc' : PC} (hn : p'.nConns = p.nConns) (hl : ∀ c, loc p' pc' c ≤ loc p pc c) (hs : size p' pc' = size p pc) (hc : p'.conns = p.conns) (hl' : pc'.lost = pc.lost := by rfl) : Keeps p pc p' pc' :=
  ⟨hn, hl, Nat.le_of_eq hs, fun h => ⟨fun c hlt => by have := h c (by rw [hn]; exact hlt); rw [hc] at this; exact this, by rw [hs, hl']; exact Nat.le_refl _⟩, fun d => .inl (by rw [hc])⟩

theorem keeps_ret {p q : Pool} {c : Nat} {ch : Choice} {ok : Bool} (hlt : c < p.nConns) (h : Closes p c ch (.ret q ok)) :
    q.nConns = p.nConns ∧ q.chan = p.chan ∧ q.out = p.out ∧ q.max = p.max ∧ (Clean q → q = p ∧ ch = .stmtFails ∧ ok = false) ∧
      (∀ d, (q.conns d).sock = (p.conns d).sock) := by
  rcases closes_ret h with ⟨rfl, h'⟩ | ⟨s, bad, h1, h2, h3, rfl, h4⟩
  · refine ⟨rfl, rfl, rfl, rfl, fun hc => ⟨rfl, ?_⟩, fun _ => rfl⟩
    rcases h' with ⟨h', _⟩ | ⟨h', h''⟩ | ⟨h', _⟩
    · rw [(hc c hlt).2] at h'; cases h'
    · exact ⟨h', h''⟩
    · rw [(hc c hlt).1] at h'; cases h'
  · refine ⟨rfl, rfl, rfl, rfl, fun hc => ?_, fun d => ?_⟩
    · have := (hc c hlt).2
      unfold shutConn at this
      simp only [upd_same] at this
      cases this
    · unfold shutConn upd
      simp only
      split
      · next e => subst e; rfl
      · rfl

theorem tr_slots {p p' : Pool} {ch : Choice} {pc pc' : PC} (h : Tr p ch pc p' pc') (ht : pc.Tame) (hch : ∀ e n, ch ≠ .initFail e (n + 1))
    (hlt : ∀ c, 0 < pc.tok c ∨ c ∈ pc.works → c < p.nConns) :
    pc'.Tame ∧ p'.max = p.max ∧ (Keeps p pc p' pc' ∨ Moves p pc p' pc') := by
  cases h with
  | lock => exact ⟨trivial, rfl, .inl (keeps_conns rfl (fun _ => Nat.le_refl _) rfl rfl)⟩
  | refuse => exact ⟨trivial, rfl, .inl (keeps_conns rfl (fun _ => Nat.le_refl _) rfl rfl)⟩
  | check => exact ⟨trivial, rfl, .inl (keeps_conns rfl (fun _ => Nat.le_refl _) rfl rfl)⟩
  | receive h =>
    refine ⟨trivial, rfl, .inl (keeps_conns rfl (fun c => ?_) ?_ rfl)⟩
    · simp only [loc, h, count_cons', PC.tok]; omega
    · simp only [size, h, List.length_cons, PC.size]; omega
  | @dialFail c =>
    refine ⟨Nat.le_refl _, rfl, .inl ⟨rfl, fun _ => Nat.le_refl _, Nat.le_refl _, fun hc => ⟨by refine clean_upd (c := c) (v := _) hc rfl rfl ?_; exact ⟨rfl, rfl⟩, Nat.le_refl _⟩, fun d => ?_⟩⟩
    by_cases e : d = c
    · subst e; simp only [upd_same]; exact .inr (.inl trivial)
    · simp only [upd_other _ _ e]; exact .inl trivial
  | @initOk c =>
    refine ⟨trivial, rfl, .inl ⟨rfl, fun _ => Nat.le_refl _, Nat.le_refl _, fun hc => ⟨by refine clean_upd (c := c) (v := _) hc rfl rfl ?_; exact ⟨rfl, rfl⟩, Nat.le_refl _⟩, fun d => ?_⟩⟩
    by_cases e : d = c
    · subst e; simp only [upd_same]; exact .inr (.inr ⟨trivial, trivial, trivial⟩)
    · simp only [upd_other _ _ e]; exact .inl trivial
  | @initFail c e n _ hc =>
    cases n with
    | succ n => exact absurd hc (hch e n)
    | zero =>
      refine ⟨Nat.le_refl _, rfl, .inl ⟨rfl, fun _ => Nat.le_refl _, Nat.le_refl _, fun hc => ⟨by refine clean_upd (c := c) (v := _) hc rfl rfl ?_; exact ⟨rfl, rfl⟩, Nat.le_refl _⟩, fun d => ?_⟩⟩
      by_cases e : d = c
      · subst e; simp only [upd_same]; exact .inr (.inr ⟨trivial, trivial, trivial⟩)
      · simp only [upd_other _ _ e]; exact .inl trivial
  | @initPanic c =>
    refine ⟨trivial, rfl, .inl ⟨rfl, fun d => ?_, ?_, fun hc => ⟨by refine clean_upd (c := c) (v := _) hc rfl rfl ?_; exact ⟨rfl, rfl⟩, ?_⟩, fun d => ?_⟩⟩
    · simp only [loc, PC.tok]; omega
    · simp only [size, PC.size]; omega
    · simp only [size, PC.size, PC.lost]; omega
    · by_cases e : d = c
      · subst e; simp only [upd_same]; exact .inr (.inr ⟨trivial, trivial, trivial⟩)
      · simp only [upd_other _ _ e]; exact .inl trivial
  | poolPanic => exact ⟨trivial, rfl, .inl ⟨rfl, fun _ => Nat.le_refl _, Nat.le_refl _, fun hc => ⟨hc, Nat.le_add_right _ _⟩, fun d => .inl rfl⟩⟩
  | panicEnd => exact ⟨trivial, rfl, .inl (keeps_conns rfl (fun _ => Nat.le_refl _) rfl rfl)⟩
  | alive => exact ⟨trivial, rfl, .inl (keeps_conns rfl (fun _ => Nat.le_refl _) rfl rfl)⟩
  | failedEnd => exact ⟨trivial, rfl, .inl (keeps_conns rfl (fun _ => Nat.le_refl _) rfl rfl)⟩
  | @failedRet c n _ _ h =>
    obtain ⟨e1, e2, e3, e4, e5, e6⟩ := keeps_ret (hlt c (.inl (by simp [PC.tok, one_same]))) h
    obtain rfl : n = 0 := by simp only [PC.Tame] at ht; omega
    refine ⟨Nat.zero_le _, e4, .inl ⟨e1, fun d => ?_, ?_, fun hc => ?_, fun d => .inl (e6 d)⟩⟩
    · simp only [loc, e2, e3, PC.tok]; omega
    · simp only [size, e2, e3, PC.size]; omega
    · cases (e5 hc).2.1
  | @failedReclaim c n _ _ h =>
    obtain ⟨_, _, rfl, rfl⟩ := closes_send h
    obtain rfl : n = 0 := by simp only [PC.Tame] at ht; omega
    refine ⟨rfl, rfl, .inr ⟨c, rfl, fun d => ?_, rfl, rfl, ?_⟩⟩
    · simp only [loc, reclaim, PC.tok]; omega
    · simp only [PC.tok, one_same]; omega
  | @failedSend m c n h =>
    have ht' : n = 0 := ht
    subst ht'
    refine ⟨Nat.zero_le _, rfl, .inl (keeps_conns rfl (fun d => ?_) ?_ rfl)⟩
    · simp only [loc, count_snoc, PC.tok]; omega
    · simp only [size, List.length_append, List.length_singleton, PC.size]; omega
  | openedNone => exact ⟨trivial, rfl, .inl (keeps_conns rfl (fun _ => Nat.le_refl _) rfl rfl)⟩
  | openedSome =>
    refine ⟨trivial, rfl, .inl (keeps_conns rfl (fun d => ?_) ?_ rfl)⟩
    · simp only [loc, count_snoc, PC.tok]; omega
    · simp only [size, List.length_append, List.length_singleton, PC.size]; omega
  | closed h =>
    obtain ⟨e1, e2, e3, e4, e5, e6⟩ := keeps_ret (hlt _ (.inl (by simp [PC.tok, one_same]))) h
    refine ⟨trivial, e4, .inl ⟨e1, fun d => ?_, ?_, fun hc => ?_, fun d => .inl (e6 d)⟩⟩
    · simp only [loc, e2, e3, PC.tok]; omega
    · simp only [size, e2, e3, PC.size]; omega
    · cases (e5 hc).2.2
  | closeErr h =>
    obtain ⟨e1, e2, e3, e4, e5, e6⟩ := keeps_ret (hlt _ (.inl (by simp [PC.tok, one_same]))) h
    refine ⟨trivial, e4, .inl ⟨e1, fun d => ?_, ?_, fun hc => ⟨?_, ?_⟩, fun d => .inl (e6 d)⟩⟩
    · simp only [loc, e2, e3, count_snoc, PC.tok]; omega
    · simp only [size, e2, e3, List.length_append, List.length_singleton, PC.size]; omega
    · have := (e5 hc).1; subst this; exact hc
    · simp only [size, e2, e3, List.length_append, List.length_singleton, PC.size, PC.lost]; omega
  | @closeReclaim c _ _ h =>
    obtain ⟨_, _, rfl, rfl⟩ := closes_send h
    refine ⟨trivial, rfl, .inr ⟨c, rfl, fun d => ?_, rfl, rfl, ?_⟩⟩
    · simp only [loc, reclaim, PC.tok]; omega
    · simp only [PC.tok, one_same]; omega
  | closeSend h =>
    refine ⟨trivial, rfl, .inl (keeps_conns rfl (fun d => ?_) ?_ rfl)⟩
    · simp only [loc, count_snoc, PC.tok]; omega
    · simp only [size, List.length_append, List.length_singleton, PC.size]; omega
  | useEnd => exact ⟨trivial, rfl, .inl (keeps_conns rfl (fun _ => Nat.le_refl _) rfl rfl)⟩
  | useRet => cases ht
  | useReclaim => cases ht
  | useSend => exact ht.elim
  | poolLock => exact ⟨trivial, rfl, .inl (keeps_conns rfl (fun _ => Nat.le_refl _) rfl rfl)⟩
  | poolEnd => exact ⟨trivial, rfl, .inl (keeps_conns rfl (fun _ => Nat.le_refl _) rfl rfl)⟩
  | @poolNext c rest =>
    refine ⟨trivial, rfl, .inl ⟨rfl, fun _ => Nat.le_refl _, Nat.le_refl _, fun hc => ?_, fun d => ?_⟩⟩
    · have := (hc c (hlt c (.inr (by simp [PC.works])))).1
      simp only [upd_same] at this
      cases this
    · by_cases e : d = c
      · subst e; simp only [upd_same]; exact .inl trivial
      · simp only [upd_other _ _ e]; exact .inl trivial
  | poolConn h =>
    obtain ⟨e1, e2, e3, e4, e5, e6⟩ := keeps_ret (hlt _ (.inr (by simp [PC.works]))) h
    refine ⟨trivial, e4, .inl ⟨e1, fun d => ?_, ?_, fun hc => ?_, fun d => .inl (e6 d)⟩⟩
    · simp only [loc, e2, e3, PC.tok]; omega
    · simp only [size, e2, e3, PC.size]; omega
    · cases (e5 hc).2.2
  | poolErr h =>
    obtain ⟨e1, e2, e3, e4, e5, e6⟩ := keeps_ret (hlt _ (.inr (by simp [PC.works]))) h
    refine ⟨trivial, e4, .inl ⟨e1, fun d => ?_, ?_, fun hc => ⟨?_, ?_⟩, fun d => .inl (e6 d)⟩⟩
    · simp only [loc, e2, e3, PC.tok]; omega
    · simp only [size, e2, e3, PC.size]; omega
    · have := (e5 hc).1; subst this; exact hc
    · simp only [size, e2, e3, PC.size, PC.lost]; omega
  | poolUnlock => exact ⟨trivial, rfl, .inl (keeps_conns rfl (fun _ => Nat.le_refl _) rfl rfl)⟩

/-- Every slot is there once, and no two slots have the same socket. -/
structure Slots (s : State) : Prop where
  tame : ∀ pc ∈ s.calls, pc.Tame
  once : ∀ c, toks s c ≤ 1
  fresh : ∀ c, s.pool.nConns ≤ c → toks s c = 0
  len : sizes s ≤ s.pool.max
  full : Clean s.pool → s.pool.max ≤ sizes s + tot PC.lost s.calls
  socks : ∀ c d k, 0 < toks s c → 0 < toks s d → (s.pool.conns c).sock = some k → (s.pool.conns d).sock = some k → c = d
  sockLt : ∀ c k, (s.pool.conns c).sock = some k → k < s.pool.nSocks

theorem slots_init (max : Nat) : Slots (.init max) where
  tame pc h := by cases h
  once c := by have := (own_init max).once c; simp only [places, toks, State.init, Pool.new, tot_nil] at this ⊢; exact this
  fresh c h := by have := (own_init max).fresh c h; simp only [places, toks, State.init, Pool.new, tot_nil] at this ⊢; exact this
  len := by simp [sizes, State.init, Pool.new, tot]
  full _ := by simp [sizes, State.init, Pool.new, tot]
  socks c d k _ _ h := by cases h
  sockLt c k h := by cases h

theorem slots_call {p : Pool} {calls : List PC} {k : Call} (hk : Rules.disciplined.call p k) (h : Slots ⟨p, calls⟩) : Slots ⟨(k.start p).1, calls ++ [(k.start p).2]⟩ := by
  have e : (k.start p).1.nConns = p.nConns ∧ (k.start p).1.max = p.max ∧ (k.start p).1.nSocks = p.nSocks ∧
      (∀ d, ((k.start p).1.conns d).sock = (p.conns d).sock) ∧ (Clean (k.start p).1 → Clean p) ∧ (k.start p).2.Tame ∧
      (∀ c, loc (k.start p).1 (k.start p).2 c = p.chan.count c + p.out.count c) ∧ size (k.start p).1 (k.start p).2 = p.chan.length + p.out.length := by
    cases k with
    | openPool => exact ⟨rfl, rfl, rfl, fun _ => rfl, id, trivial, fun _ => rfl, rfl⟩
    | poolClose => exact ⟨rfl, rfl, rfl, fun _ => rfl, id, trivial, fun _ => rfl, rfl⟩
    | close c =>
      have hc : c ∈ p.out := hk
      refine ⟨rfl, rfl, rfl, fun _ => rfl, id, trivial, fun d => ?_, ?_⟩
      · simp only [Call.start, loc, PC.tok, List.count_erase]
        have := List.count_pos_iff.mpr hc
        unfold one
        by_cases e : c = d
        · subst e; simp; omega
        · have : (c == d) = false := by simpa using e
          simp [this, e]
      · simp only [Call.start, size, PC.size]
        have := List.length_pos_of_mem hc
        rw [List.length_erase_of_mem hc]; omega
    | use c e n =>
      refine ⟨rfl, rfl, rfl, fun d => ?_, fun hc => (by refine clean_upd (p := p) (c := c) (v := _) hc rfl rfl ?_; exact ⟨rfl, rfl⟩), hk.2, fun _ => rfl, rfl⟩
      unfold Call.start upd; simp only; split
      · next h => subst h; rfl
      · rfl
  obtain ⟨e1, e2, e3, e4, e5, e6, e7, e8⟩ := e
  have ht : ∀ c, toks ⟨(k.start p).1, calls ++ [(k.start p).2]⟩ c = toks ⟨p, calls⟩ c := fun c => by
    have := e7 c
    unfold toks; unfold loc at this
    simp only [tot_mid, tot_nil]
    omega
  have hz : sizes ⟨(k.start p).1, calls ++ [(k.start p).2]⟩ = sizes ⟨p, calls⟩ := by
    unfold sizes; unfold size at e8
    simp only [tot_mid, tot_nil]
    omega
  refine ⟨fun pc hm => ?_, fun c => by rw [ht]; exact h.once c, fun c hc => by rw [ht]; exact h.fresh c (by simp only [e1] at hc; exact hc), ?_, fun hc => ?_, ?_, ?_⟩
  · rcases List.mem_append.mp hm with hm | hm
    · exact h.tame pc hm
    · rw [List.mem_singleton.mp hm]; exact e6
  · rw [hz]; simp only [e2]; exact h.len
  · have hl : (k.start p).2.lost = 0 := by cases k <;> rfl
    have := h.full (e5 hc)
    rw [hz]
    simp only [e2, tot_mid, tot_nil, hl] at this ⊢; omega
  · intro c d k' h1 h2 h3 h4
    rw [ht] at h1 h2
    simp only [e4] at h3 h4
    exact h.socks c d k' h1 h2 h3 h4
  · intro c k' hk'
    simp only [e4] at hk'
    simp only [e3]
    exact h.sockLt c k' hk'

theorem toks_mid (p : Pool) (pre post : List PC) (pc : PC) (c : Nat) :
    toks ⟨p, pre ++ pc :: post⟩ c = loc p pc c + (tot (PC.tok c) pre + tot (PC.tok c) post) := by
  unfold toks loc; simp only [tot_mid]; omega

theorem sizes_mid (p : Pool) (pre post : List PC) (pc : PC) :
    sizes ⟨p, pre ++ pc :: post⟩ = size p pc + (tot PC.size pre + tot PC.size post) := by
  unfold sizes size; simp only [tot_mid]; omega

theorem reclaim_conns (p : Pool) (x d : Nat) : (reclaim p x).1.conns d = if d = p.nConns then (if (p.conns x).connErr || (p.conns x).closed then PConn.fresh else p.conns x) else p.conns d := rfl

theorem reclaim_sock {p : Pool} {x k : Nat} (h : ((reclaim p x).1.conns p.nConns).sock = some k) : (p.conns x).sock = some k ∧ (p.conns x).connErr = false := by
  rw [reclaim_conns, if_pos rfl] at h
  split at h
  · cases h
  · next hn =>
    refine ⟨h, ?_⟩
    cases he : (p.conns x).connErr with
    | false => rfl
    | true => rw [he] at hn; simp at hn

theorem slots_step {p p' : Pool} {ch : Choice} {pc pc' : PC} {pre post : List PC} (h : Tr p ch pc p' pc') (hch : ∀ e n, ch ≠ .initFail e (n + 1))
    (ho : Own ⟨p, pre ++ pc :: post⟩) (hs : Slots ⟨p, pre ++ pc :: post⟩) : Slots ⟨p', pre ++ pc' :: post⟩ := by
  obtain ⟨g1, g2, g3⟩ := tr_slots h (hs.tame pc (mem_mid.mpr (.inl rfl))) hch fun c hc => by
    rcases hc with hc | hc
    · refine Nat.lt_of_not_le fun hn => ?_
      have := hs.fresh c hn
      rw [toks_mid] at this
      unfold loc at this
      omega
    · exact given_lt ho (ho.works pc (mem_mid.mpr (.inl rfl)) c hc)
  have tame : ∀ q ∈ pre ++ pc' :: post, q.Tame := fun q hq => by
    rcases mem_mid.mp hq with rfl | hq
    · exact g1
    · exact hs.tame q (mem_mid.mpr (.inr hq))
  have hlen := hs.len
  rcases g3 with g | ⟨x, rfl, m1, m2, m4, m3⟩
  · have le : ∀ c, toks ⟨p', pre ++ pc' :: post⟩ c ≤ toks ⟨p, pre ++ pc :: post⟩ c := fun c => by
      rw [toks_mid, toks_mid]; have := g.loc c; omega
    refine ⟨tame, fun c => Nat.le_trans (le c) (hs.once c), fun c hc => ?_, ?_, fun hc => ?_, ?_, ?_⟩
    · have := hs.fresh c (by simp only [g.nConns] at hc; exact hc)
      have := le c; omega
    · rw [sizes_mid] at hlen ⊢
      have := g.size
      simp only [g2] at hlen ⊢; omega
    · obtain ⟨a, b⟩ := g.clean hc
      have := hs.full a
      rw [sizes_mid] at this ⊢
      simp only [g2, tot_mid] at this ⊢; omega
    · intro c d k h1 h2 h3 h4
      simp only at h3 h4
      have h1' := Nat.lt_of_lt_of_le h1 (le c)
      have h2' := Nat.lt_of_lt_of_le h2 (le d)
      rcases g.sock c with e | e | ⟨e, _, e'⟩
      · rcases g.sock d with f | f | ⟨f, _, f'⟩
        · rw [e] at h3; rw [f] at h4; exact hs.socks c d k h1' h2' h3 h4
        · rw [f] at h4; cases h4
        · rw [f] at h4; cases h4
          rw [e] at h3
          have := hs.sockLt c _ h3
          simp only at this; omega
      · rw [e] at h3; cases h3
      · rcases g.sock d with f | f | ⟨f, _, f'⟩
        · rw [e] at h3; cases h3
          rw [f] at h4
          have := hs.sockLt d _ h4
          simp only at this; omega
        · rw [f] at h4; cases h4
        · rw [e'] at f'; cases f'; rfl
    · intro c k hk
      have mono := (tr_socks h).2.2
      simp only at hk ⊢
      rcases g.sock c with e | e | ⟨e, e', _⟩
      · rw [e] at hk; have := hs.sockLt c k hk; simp only at this; omega
      · rw [e] at hk; cases hk
      · rw [e] at hk; cases hk; omega
  · have hx : 0 < toks ⟨p, pre ++ pc :: post⟩ x := by rw [toks_mid]; unfold loc; omega
    have hxlt : x < p.nConns := Nat.lt_of_not_le fun hn => by have := hs.fresh x hn; omega
    have eq : ∀ c, toks ⟨(reclaim p x).1, pre ++ pc' :: post⟩ c + one c x = toks ⟨p, pre ++ pc :: post⟩ c + one c p.nConns := fun c => by
      rw [toks_mid, toks_mid]; have := m1 c; omega
    have hnew : toks ⟨p, pre ++ pc :: post⟩ p.nConns = 0 := hs.fresh _ (Nat.le_refl _)
    have one_le : ∀ c d, one c d ≤ 1 := fun c d => by unfold one; split <;> omega
    refine ⟨tame, fun c => ?_, fun c hc => ?_, ?_, fun hc => ?_, ?_, ?_⟩
    · have h1 := eq c
      have h2 := hs.once c
      have h3 := one_le c p.nConns
      by_cases e : p.nConns = c
      · subst e; omega
      · have : one c p.nConns = 0 := if_neg e
        omega
    · have h1 := eq c
      have hc' : p.nConns + 1 ≤ c := hc
      have h2 := hs.fresh c (by simp only; omega)
      have : one c p.nConns = 0 := if_neg (by omega)
      omega
    · rw [sizes_mid] at hlen ⊢
      have : (reclaim p x).1.max = p.max := rfl
      simp only [this] at hlen ⊢; omega
    · have hcl : Clean p := fun c hlt => by
        have := hc c (Nat.lt_succ_of_lt hlt)
        rw [reclaim_conns, if_neg (by omega)] at this
        exact this
      have := hs.full hcl
      rw [sizes_mid] at this ⊢
      have e : (reclaim p x).1.max = p.max := rfl
      simp only [e, tot_mid] at this ⊢; omega
    · -- where the socket of a slot comes from
      have orig : ∀ c k, 0 < toks ⟨(reclaim p x).1, pre ++ pc' :: post⟩ c → ((reclaim p x).1.conns c).sock = some k →
          ∃ o, 0 < toks ⟨p, pre ++ pc :: post⟩ o ∧ (p.conns o).sock = some k ∧ ((c = p.nConns ∧ o = x) ∨ (c ≠ p.nConns ∧ o = c ∧ c ≠ x)) := by
        intro c k h1 h2
        by_cases e : c = p.nConns
        · subst e
          exact ⟨x, hx, (reclaim_sock h2).1, .inl ⟨rfl, rfl⟩⟩
        · rw [reclaim_conns, if_neg e] at h2
          have h3 := eq c
          have h4 : one c p.nConns = 0 := if_neg (Ne.symm e)
          refine ⟨c, by omega, h2, .inr ⟨e, rfl, fun e' => ?_⟩⟩
          subst e'
          rw [one_same] at h3
          have := hs.once c
          omega
      intro c d k h1 h2 h3 h4
      obtain ⟨o, a1, a2, a3⟩ := orig c k h1 h3
      obtain ⟨o', b1, b2, b3⟩ := orig d k h2 h4
      have := hs.socks o o' k a1 b1 a2 b2
      rcases a3 with ⟨a3, a4⟩ | ⟨a3, a4, a5⟩ <;> rcases b3 with ⟨b3, b4⟩ | ⟨b3, b4, b5⟩
      · rw [a3, b3]
      · exact absurd (by rw [← b4, ← this, a4]) b5
      · exact absurd (by rw [← a4, this, b4]) a5
      · rw [← a4, ← b4, this]
    · intro c k hk
      have : (reclaim p x).1.nSocks = p.nSocks := rfl
      simp only [this]
      simp only at hk
      by_cases e : c = p.nConns
      · subst e; exact hs.sockLt x k (reclaim_sock hk).1
      · rw [reclaim_conns, if_neg e] at hk; exact hs.sockLt c k hk

/-- Without panics no slot is lost. -/
theorem Slots.all {s : State} (h : Slots s) (hl : tot PC.lost s.calls = 0) (hc : Clean s.pool) : sizes s = s.pool.max := by
  have := h.full hc
  have := h.len
  omega

theorem tr_lost {p p' : Pool} {ch : Choice} {pc pc' : PC} (h : Tr p ch pc p' pc') (hch : ch ≠ .panics ∧ ch ≠ .closePanics) : pc'.lost = pc.lost := by
  cases h with
  | initPanic _ h => exact absurd h hch.1
  | poolPanic h => exact absurd h hch.2
  | _ => rfl

theorem lost_calm {max : Nat} {s : State} (h : Reach .calm (.init max) s) : tot PC.lost s.calls = 0 := by
  refine h.inv (I := fun s => tot PC.lost s.calls = 0) rfl ?_ ?_
  · intro p calls k ih _ _
    simp only [tot_mid, tot_nil] at ih ⊢
    cases k <;> simpa [Call.start, PC.lost] using ih
  · intro p pre pc post ch p' pc' ih hr hs
    simp only [tot_mid] at ih ⊢
    rw [tr_lost (tr hs) hr.1]; exact ih

theorem slots_reach {s t : State} (ho : Own s) (hs : Slots s) (h : Reach .disciplined s t) : Own t ∧ Slots t :=
  h.inv (I := fun s => Own s ∧ Slots s) ⟨ho, hs⟩ (fun _ _ _ hi hc hl => ⟨own_call hl hi.1, slots_call hc hi.2⟩)
    (fun _ _ _ _ _ _ _ hi hc hs => ⟨own_step (tr hs) hi.1, slots_step (tr hs) hc hi.1 hi.2⟩)

end Bolt.Pooling
