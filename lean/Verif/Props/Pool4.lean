import Verif.Props.Pool3

/-!
# Pools: no deadlock (C55)

No run goes on for ever once no new calls of `OpenPool` or `Close` of the pool are made, and it stops only when all calls
have returned.
-/

namespace Bolt.Pooling

variable {max : Nat} {s t u : State}

/-- From some time on clients only close what they hold. The server may still refuse, but the handling of failures does not
close connections, and closing statements does not fail. -/
def Rules.quiet : Rules where
  call p
    | .close c => c ∈ p.out
    | _ => False
  run ch := ch ≠ .stmtFails ∧ (ch ≠ .panics ∧ ch ≠ .closePanics) ∧ ∀ e n, ch ≠ .initFail e (n + 1)

/-- Something happens. -/
def Step (R : Rules) (s u : State) : Prop := (∃ k, R.call s.pool k ∧ s.next (.call k) = some u) ∨ ∃ i ch, R.run ch ∧ s.next (.run i ch) = some u

theorem Step.reach {R : Rules} (h : Step R s u) : Reach R s u := by
  rcases h with ⟨k, h1, h2⟩ | ⟨i, ch, h1, h2⟩
  · exact Reach.call (t := s) .refl h1 h2
  · exact Reach.run (t := s) .refl h1 h2

theorem Reach.quiet (h : Reach .quiet s t) : Reach .calm s t := by
  refine h.mono (fun p k hk => ?_) (fun ch (hc : ch ≠ .stmtFails ∧ (ch ≠ .panics ∧ ch ≠ .closePanics) ∧ ∀ e n, ch ≠ .initFail e (n + 1)) => hc.2)
  cases k with
  | close c => exact hk
  | _ => exact hk.elim

/-! ## A measure -/

/-- Calls that have yet to take the lock. -/
def PC.waits : PC → Nat
  | .opening | .poolClosing => 1
  | _ => 0

/-- A bound on the steps a call still makes, with what the client does to the connection it gets. -/
def PC.steps (p : Pool) : PC → Nat
  | .opening | .poolClosing => 0
  | .locked => 20
  | .receiving => 19
  | .received _ => 18
  | .failed _ n => 8 + 3 * n
  | .failedSend _ _ n => 10 + 3 * n
  | .opened _ => 7
  | .closing c => if (p.conns c).closed then 2 else 5
  | .closeSend _ => 1
  | .using _ n => 2 * n + 1
  | .usingSend _ _ n => 2 * n + 2
  | .poolClose rest => 2 * rest.length + 2
  | .poolCloseConn _ rest => 2 * rest.length + 3
  | .poolClosed _ | .panicking => 1
  | .done _ => 0

/-- The same for connections that are out. -/
def outSteps (p : Pool) (l : List Nat) : Nat := (l.map fun c => if (p.conns c).closed then 3 else 6).sum

theorem outSteps_cons (p : Pool) (c : Nat) (l : List Nat) : outSteps p (c :: l) = (if (p.conns c).closed then 3 else 6) + outSteps p l := by
  simp [outSteps]

theorem outSteps_append (p : Pool) (l m : List Nat) : outSteps p (l ++ m) = outSteps p l + outSteps p m := by
  simp [outSteps]

theorem outSteps_nil (p : Pool) : outSteps p [] = 0 := rfl

theorem outSteps_erase (p : Pool) {c : Nat} : ∀ {l : List Nat}, c ∈ l → outSteps p (l.erase c) + (if (p.conns c).closed then 3 else 6) = outSteps p l
  | [], h => by cases h
  | d :: l, h => by
    by_cases e : d = c
    · subst e; rw [List.erase_cons_head, outSteps_cons]; omega
    · have hm : c ∈ l := by rcases List.mem_cons.mp h with h | h; exact absurd h.symm e; exact h
      have := outSteps_erase p hm
      rw [List.erase_cons_tail (by simpa using e), outSteps_cons, outSteps_cons]; omega

/-- Connections are only ever closed. -/
def Closer (p p' : Pool) : Prop := ∀ d < p.nConns, (p.conns d).closed = true → (p'.conns d).closed = true

theorem tr_closer {p p' : Pool} {ch : Choice} {pc pc' : PC} (h : Tr p ch pc p' pc') : Closer p p' ∧ ∀ d < p.nConns, (p.conns d).pooled = false → (p'.conns d).pooled = false := by
  have ret : ∀ {q c ch ok}, Closes p c ch (.ret q ok) → Closer p q ∧ ∀ d < p.nConns, (p.conns d).pooled = false → (q.conns d).pooled = false := fun {q c ch ok} h => by
    rcases closes_ret h with ⟨rfl, _⟩ | ⟨s, bad, _, e, _, rfl, _⟩
    · exact ⟨fun _ _ => id, fun _ _ => id⟩
    · refine ⟨fun d hd h' => ?_, fun d hd h' => ?_⟩
      · unfold shutConn upd; simp only; split
        · rfl
        · exact h'
      · unfold shutConn upd; simp only; split
        · next e => subst e; exact h'
        · exact h'
  have snd : ∀ {q c ch m}, Closes p c ch (.send q m) → Closer p q ∧ ∀ d < p.nConns, (p.conns d).pooled = false → (q.conns d).pooled = false := fun {q c ch m} h => by
    obtain ⟨e1, e2, rfl, rfl⟩ := closes_send h
    refine ⟨fun d hd h => ?_, fun d hd h => ?_⟩ <;> (rw [reclaim_conns, if_neg (by omega)]; exact h)
  have updc : ∀ {c : Nat} {v : PConn}, (v.closed = (p.conns c).closed ∧ ((p.conns c).pooled = false → v.pooled = false)) →
      (∀ d < p.nConns, (p.conns d).closed = true → (upd p.conns c v d).closed = true) ∧ ∀ d < p.nConns, (p.conns d).pooled = false → (upd p.conns c v d).pooled = false := fun {c v} hv => by
    refine ⟨fun d hd h => ?_, fun d hd h => ?_⟩ <;> (unfold upd; split)
    · next e => subst e; rw [hv.1]; exact h
    · exact h
    · next e => subst e; exact hv.2 h
    · exact h
  cases h with
  | dialFail => refine updc (v := _) ?_; exact ⟨rfl, id⟩
  | initOk => refine updc (v := _) ?_; exact ⟨rfl, id⟩
  | initFail => refine updc (v := _) ?_; exact ⟨rfl, id⟩
  | initPanic => refine updc (v := _) ?_; exact ⟨rfl, id⟩
  | poolNext => refine updc (v := _) ?_; exact ⟨rfl, fun _ => rfl⟩
  | failedRet h => exact ret h
  | failedReclaim h => exact snd h
  | closed h => exact ret h
  | closeErr h => have := ret h; exact this
  | closeReclaim h => exact snd h
  | useRet h => exact ret h
  | useReclaim h => exact snd h
  | poolConn h => exact ret h
  | poolErr h => have := ret h; exact this
  | _ => exact ⟨fun _ _ => id, fun _ _ => id⟩

theorem outSteps_le {p p' : Pool} (h : Closer p p') : ∀ {l : List Nat}, (∀ c ∈ l, c < p.nConns) → outSteps p' l ≤ outSteps p l
  | [], _ => Nat.le_refl _
  | c :: l, hl => by
    rw [outSteps_cons, outSteps_cons]
    have := outSteps_le h (l := l) fun d hd => hl d (List.mem_cons_of_mem _ hd)
    have hc := h c (hl c List.mem_cons_self)
    split <;> split
    · omega
    · omega
    · next a b => exact absurd (hc b) a
    · omega

theorem steps_le {p p' : Pool} (h : Closer p p') {pc : PC} (hw : ∀ c ∈ pc.works, c < p.nConns) : pc.steps p' ≤ pc.steps p := by
  cases pc with
  | closing c =>
    have hc := h c (hw c List.mem_cons_self)
    simp only [PC.steps]
    split <;> split
    · omega
    · omega
    · next a b => exact absurd (hc b) a
    · omega
  | _ => exact Nat.le_refl _

theorem tot_le {f g : PC → Nat} : ∀ {l : List PC}, (∀ pc ∈ l, f pc ≤ g pc) → tot f l ≤ tot g l
  | [], _ => Nat.le_refl _
  | pc :: l, h => by
    have e : ∀ f : PC → Nat, tot f (pc :: l) = tot f l + f pc := fun f => by have := tot_mid f [] l pc; simp [tot_nil] at this; simpa using this
    rw [e, e]
    have := tot_le (l := l) fun q hq => h q (List.mem_cons_of_mem _ hq)
    have := h pc List.mem_cons_self
    omega

/-- Steps still to be made. -/
def todo (s : State) : Nat := tot (PC.steps s.pool) s.calls + outSteps s.pool s.pool.out

/-- Calls still before the lock. -/
def waiting (s : State) : Nat := tot PC.waits s.calls

theorem tr_steps {p p' : Pool} {ch : Choice} {pc pc' : PC} (h : Tr p ch pc p' pc') (hch : ch ≠ .stmtFails) (hn : (ch ≠ .panics ∧ ch ≠ .closePanics) ∧ ∀ e n, ch ≠ .initFail e (n + 1))
    (hw : ∀ c ∈ pc.works, c < p.nConns) (ho : ∀ c ∈ p.out, c < p.nConns) :
    (pc.waits = 1 ∧ pc'.waits = 0) ∨ (pc'.waits = pc.waits ∧ pc'.steps p' + outSteps p' p'.out < pc.steps p + outSteps p p.out) := by
  have hcl := (tr_closer h).1
  have keep : p'.out = p.out → pc'.steps p' < pc.steps p → pc'.steps p' + outSteps p' p'.out < pc.steps p + outSteps p p.out := fun e hlt => by
    rw [e]
    have := outSteps_le hcl ho
    omega
  have ret : ∀ {q d ch ok}, Closes p d ch (.ret q ok) → q.out = p.out := fun h => by
    rcases closes_ret h with ⟨rfl, _⟩ | ⟨s, bad, _, _, _, rfl, _⟩ <;> rfl
  have snd : ∀ {q d ch m}, Closes p d ch (.send q m) → q.out = p.out := fun h => by
    obtain ⟨_, _, rfl, rfl⟩ := closes_send h; rfl
  have cl : ∀ c (p : Pool), 2 ≤ PC.steps p (.closing c) := fun c p => by simp only [PC.steps]; split <;> omega
  cases h with
  | lock => exact .inl ⟨rfl, rfl⟩
  | poolLock => exact .inl ⟨rfl, rfl⟩
  | refuse => exact .inr ⟨rfl, keep rfl (by simp only [PC.steps]; omega)⟩
  | check => exact .inr ⟨rfl, keep rfl (by simp only [PC.steps]; omega)⟩
  | receive => exact .inr ⟨rfl, keep rfl (by simp only [PC.steps]; omega)⟩
  | dialFail => exact .inr ⟨rfl, keep rfl (by simp only [PC.steps]; omega)⟩
  | initOk => exact .inr ⟨rfl, keep rfl (by simp only [PC.steps]; omega)⟩
  | @initFail c e n _ hc =>
    cases n with
    | succ n => exact absurd hc (hn.2 e n)
    | zero => exact .inr ⟨rfl, keep rfl (by simp only [PC.steps]; omega)⟩
  | alive => exact .inr ⟨rfl, keep rfl (by simp only [PC.steps]; omega)⟩
  | failedEnd => exact .inr ⟨rfl, keep rfl (by simp only [PC.steps]; omega)⟩
  | failedRet h => exact .inr ⟨rfl, keep (ret h) (by simp only [PC.steps]; omega)⟩
  | failedReclaim h => exact .inr ⟨rfl, keep (snd h) (by simp only [PC.steps]; omega)⟩
  | failedSend => exact .inr ⟨rfl, keep rfl (by simp only [PC.steps]; omega)⟩
  | openedNone => exact .inr ⟨rfl, keep rfl (by simp only [PC.steps]; omega)⟩
  | openedSome =>
    refine .inr ⟨rfl, ?_⟩
    simp only [PC.steps]
    rw [outSteps_append, outSteps_cons, outSteps_nil]
    have := outSteps_le hcl ho
    split <;> omega
  | @closed c _ h => exact .inr ⟨rfl, keep (ret h) (by have := cl c p; simp only [PC.steps] at this ⊢; omega)⟩
  | @closeErr c q h =>
    refine .inr ⟨rfl, ?_⟩
    have := outSteps_le hcl ho
    rcases closes_ret h with ⟨_, h'⟩ | ⟨s, bad, h1, _, _, rfl, _⟩
    · rcases h' with ⟨_, h'⟩ | ⟨h', _⟩ | ⟨_, _, h'⟩
      · cases h'
      · exact absurd h' hch
      · cases h'
    · have e : outSteps (p := { shutConn p c s bad with out := (shutConn p c s bad).out ++ [c] }) ((shutConn p c s bad).out ++ [c]) = outSteps { shutConn p c s bad with out := (shutConn p c s bad).out ++ [c] } p.out + 3 := by
        rw [outSteps_append, outSteps_cons, outSteps_nil]
        have : (({ shutConn p c s bad with out := (shutConn p c s bad).out ++ [c] } : Pool).conns c).closed = true := by
          unfold shutConn; simp only [upd_same]
        rw [if_pos this]
        rfl
      simp only [PC.steps, h1]
      simp only at e
      rw [e]
      simp only [Bool.false_eq_true, if_false]
      omega
  | @closeReclaim c _ _ h => exact .inr ⟨rfl, keep (snd h) (by have := cl c p; simp only [PC.steps] at this ⊢; omega)⟩
  | closeSend => exact .inr ⟨rfl, keep rfl (by simp only [PC.steps]; omega)⟩
  | useEnd => exact .inr ⟨rfl, keep rfl (by simp only [PC.steps]; omega)⟩
  | useRet h => exact .inr ⟨rfl, keep (ret h) (by simp only [PC.steps]; omega)⟩
  | useReclaim h => exact .inr ⟨rfl, keep (snd h) (by simp only [PC.steps]; omega)⟩
  | useSend => exact .inr ⟨rfl, keep rfl (by simp only [PC.steps]; omega)⟩
  | poolEnd => exact .inr ⟨rfl, keep rfl (by simp only [PC.steps]; omega)⟩
  | poolNext => exact .inr ⟨rfl, keep rfl (by simp only [PC.steps, List.length_cons]; omega)⟩
  | poolConn h => exact .inr ⟨rfl, keep (ret h) (by simp only [PC.steps]; omega)⟩
  | poolErr h => exact .inr ⟨rfl, keep (by have := ret h; exact this) (by simp only [PC.steps]; omega)⟩
  | poolUnlock => exact .inr ⟨rfl, keep rfl (by simp only [PC.steps]; omega)⟩
  | initPanic _ hc => exact absurd hc hn.1.1
  | poolPanic hc => exact absurd hc hn.1.2
  | panicEnd => exact .inr ⟨rfl, keep rfl (by simp only [PC.steps]; omega)⟩

theorem out_lt {R : Rules} (h : Reach R (.init max) s) : ∀ c ∈ s.pool.out, c < s.pool.nConns := fun c hc =>
  given_lt (own_reach (own_init max) h) (.inl ((out_handed h).1 c hc))

/-- Every step leaves fewer calls before the lock, or as many and fewer steps to be made. -/
theorem step_less (h : Reach .calm (.init max) s) (hs : Step .quiet s u) : waiting u < waiting s ∨ (waiting u = waiting s ∧ todo u < todo s) := by
  have ho := (slots_of h.disciplined).1
  have hout := out_lt h
  rcases hs with ⟨k, h1, h2⟩ | ⟨i, ch, h1, h2⟩
  · obtain ⟨-, rfl⟩ := next_call h2
    cases k with
    | close c =>
      refine .inr ⟨?_, ?_⟩
      · unfold waiting; simp only [tot_mid, tot_nil, Call.start, PC.waits]; omega
      · have := outSteps_erase s.pool h1
        unfold todo
        simp only [tot_mid, tot_nil, Call.start]
        have e1 : PC.steps { s.pool with out := s.pool.out.erase c } = PC.steps s.pool := rfl
        have e2 : outSteps { s.pool with out := s.pool.out.erase c } = outSteps s.pool := rfl
        rw [e1, e2]
        simp only [PC.steps]
        split <;> split at this <;> first | omega | (next a b => exact absurd b a) | (next a b => exact absurd a b)
    | _ => exact h1.elim
  · obtain ⟨p, calls⟩ := s
    obtain ⟨pre, pc, post, p', pc', e, hst, rfl⟩ := next_run h2
    simp only at e hst hout
    subst e
    have hw : ∀ q ∈ pre ++ pc :: post, ∀ c ∈ q.works, c < p.nConns := fun q hq c hc => given_lt ho (ho.works q hq c hc)
    have hcl := (tr_closer (tr hst)).1
    have l1 : tot (PC.steps p') pre ≤ tot (PC.steps p) pre := tot_le fun q hq => steps_le hcl (hw q (mem_mid.mpr (.inr (.inl hq))))
    have l2 : tot (PC.steps p') post ≤ tot (PC.steps p) post := tot_le fun q hq => steps_le hcl (hw q (mem_mid.mpr (.inr (.inr hq))))
    rcases tr_steps (tr hst) h1.1 h1.2 (hw pc (mem_mid.mpr (.inl rfl))) hout with ⟨a, b⟩ | ⟨a, b⟩
    · refine .inl ?_
      unfold waiting; simp only [tot_mid]; omega
    · refine .inr ⟨?_, ?_⟩
      · unfold waiting; simp only [tot_mid]; omega
      · unfold todo; simp only [tot_mid]; omega

theorem no_endless : ∀ (a b : Nat) (f : Nat → State), waiting (f 0) = a → todo (f 0) = b → Reach .calm (.init max) (f 0) → ¬ ∀ n, Step .quiet (f n) (f (n + 1)) := by
  intro a
  induction a using Nat.strongRecOn with
  | ind a iha =>
    intro b
    induction b using Nat.strongRecOn with
    | ind b ihb =>
      intro f ha hb hr hf
      have hr' : Reach .calm (.init max) (f 1) := hr.trans (hf 0).reach.quiet
      rcases step_less hr (hf 0) with h | ⟨h1, h2⟩
      · exact iha (waiting (f 1)) (ha ▸ h) _ (fun n => f (n + 1)) rfl rfl hr' fun n => hf (n + 1)
      · exact ihb (todo (f 1)) (hb ▸ h2) (fun n => f (n + 1)) (h1.trans ha) rfl hr' fun n => hf (n + 1)

/-! ## Where runs stop -/

theorem unpooled {R : Rules} (h : Reach R (.init max) s) : ∀ c rest, PC.poolCloseConn c rest ∈ s.calls → (s.pool.conns c).pooled = false := by
  have key : Own s ∧ ∀ c rest, PC.poolCloseConn c rest ∈ s.calls → (s.pool.conns c).pooled = false := by
    refine h.inv (I := fun s => Own s ∧ ∀ c rest, PC.poolCloseConn c rest ∈ s.calls → (s.pool.conns c).pooled = false) ⟨own_init max, fun c rest h => (by cases h)⟩ ?_ ?_
    · rintro p calls k ⟨i1, i2⟩ _ hl
      refine ⟨own_call hl i1, fun c rest hm => ?_⟩
      have hm : PC.poolCloseConn c rest ∈ calls := by
        rcases List.mem_append.mp hm with h | h
        · exact h
        · have := List.mem_singleton.mp h; cases k <;> cases this
      have := i2 c rest hm
      cases k with
      | use d e n =>
        unfold Call.start upd; simp only; split
        · next e => subst e; exact this
        · exact this
      | _ => exact this
    · rintro p pre pc post ch p' pc' ⟨i1, i2⟩ _ hs
      refine ⟨own_step (tr hs) i1, fun c rest hm => ?_⟩
      rcases mem_mid.mp hm with e | hm
      · clear hm
        cases tr hs <;> cases e
        simp only [upd_same]
      · have hlt := given_lt i1 (i1.works _ (mem_mid.mpr (.inr hm)) c (by simp [PC.works]))
        exact (tr_closer (tr hs)).2 c hlt (i2 c rest (mem_mid.mpr (.inr hm)))
  exact key.2

/-- Calls that can wait: for the lock, or for a connection. -/
def PC.Waits : PC → Prop
  | .opening | .poolClosing | .receiving | .done _ => True
  | _ => False

/-- All other calls can go on. -/
theorem goes_on (h : Reach .calm (.init max) s) {pc : PC} (hm : pc ∈ s.calls) (hn : ¬ pc.Waits) :
    ∃ ch x, (ch ≠ .stmtFails ∧ (ch ≠ .panics ∧ ch ≠ .closePanics) ∧ ∀ e n, ch ≠ .initFail e (n + 1)) ∧ step s.pool ch pc = some x := by
  obtain ⟨ho, hs⟩ := slots_of h.disciplined
  have ht := hs.tame pc hm
  have hgo : Choice.go ≠ .stmtFails ∧ (Choice.go ≠ .panics ∧ Choice.go ≠ .closePanics) ∧ ∀ e n, Choice.go ≠ .initFail e (n + 1) := ⟨by simp, ⟨by simp, by simp⟩, by simp⟩
  have room : 1 ≤ pc.size → s.pool.chan.length < s.pool.max := fun h1 => by
    have hlen := hs.len
    unfold sizes at hlen
    have := tot_mem (f := PC.size) hm
    omega
  cases pc with
  | opening => exact absurd trivial hn
  | poolClosing => exact absurd trivial hn
  | receiving => exact absurd trivial hn
  | done => exact absurd trivial hn
  | locked =>
    refine ⟨.go, if s.pool.closed then (s.pool, .opened none) else (s.pool, .receiving), hgo, ?_⟩
    simp only [step]; split <;> rfl
  | received c =>
    cases hc : nilOrClosed s.pool c with
    | true => exact ⟨.initOk, _, ⟨by simp, ⟨by simp, by simp⟩, by simp⟩, by simp only [step, hc, if_true]; rfl⟩
    | false => exact ⟨.go, (s.pool, .opened (some c)), hgo, by simp [step, hc]⟩
  | failed c n =>
    cases n with
    | zero => exact ⟨.go, _, hgo, rfl⟩
    | succ n =>
      refine ⟨.go, ?_⟩
      simp only [step]
      cases closeConn .go s.pool c with
      | ret q ok => exact ⟨_, hgo, rfl⟩
      | send q m => exact ⟨_, hgo, rfl⟩
  | failedSend m c n => exact ⟨.go, _, hgo, if_pos (room (Nat.le_refl _))⟩
  | opened r =>
    cases r with
    | none => exact ⟨.go, _, hgo, rfl⟩
    | some c => exact ⟨.go, _, hgo, rfl⟩
  | closing c =>
    refine ⟨.go, ?_⟩
    simp only [step]
    cases closeConn .go s.pool c with
    | ret q ok => cases ok <;> exact ⟨_, hgo, rfl⟩
    | send q m => exact ⟨_, hgo, rfl⟩
  | closeSend m => exact ⟨.go, _, hgo, if_pos (room (Nat.le_refl _))⟩
  | «using» c n =>
    have : n = 0 := ht
    subst this
    exact ⟨.go, _, hgo, rfl⟩
  | usingSend => exact ht.elim
  | poolClose rest => cases rest <;> exact ⟨.go, _, hgo, rfl⟩
  | poolCloseConn c rest =>
    have hp := unpooled h c rest hm
    refine ⟨.go, ?_⟩
    simp only [step]
    cases hr : closeConn .go s.pool c with
    | ret q ok => cases ok <;> exact ⟨_, hgo, rfl⟩
    | send q m =>
      have := closes s.pool c .go
      rw [hr] at this
      rw [(closes_send this).2.1] at hp
      cases hp
  | poolClosed ok => exact ⟨.go, _, hgo, rfl⟩
  | panicking => exact ⟨.go, _, hgo, rfl⟩

theorem step_of {pc : PC} {ch : Choice} {x : Pool × PC} (hm : pc ∈ s.calls) (hch : ch ≠ .stmtFails ∧ (ch ≠ .panics ∧ ch ≠ .closePanics) ∧ ∀ e n, ch ≠ .initFail e (n + 1))
    (hx : step s.pool ch pc = some x) : ∃ u, Step .quiet s u := by
  obtain ⟨pre, post, e⟩ := List.append_of_mem hm
  obtain ⟨p, calls⟩ := s
  simp only at e hx
  subst e
  exact ⟨_, .inr ⟨pre.length, ch, hch, next_of_step (p' := x.1) (pc' := x.2) hx⟩⟩

/-- Where nothing can happen, all calls have returned and all connections are closed. -/
theorem stops (hmax : 0 < max) (h : Reach .calm (.init max) s) (hn : ∀ u, ¬ Step .quiet s u) :
    s.pool.out = [] ∧ ∀ pc ∈ s.calls, ∃ r, pc = .done r := by
  obtain ⟨ho, hs⟩ := slots_of h.disciplined
  have hl := locked_reach (locked_init max) h
  have hout : s.pool.out = [] := by
    cases e : s.pool.out with
    | nil => rfl
    | cons c l =>
      have hc : c ∈ s.pool.out := by rw [e]; exact List.mem_cons_self
      exact absurd (.inl ⟨.close c, hc, if_pos ((out_handed h).1 c hc)⟩) (hn _)
  have hw : ∀ pc ∈ s.calls, pc.Waits := fun pc hm => Classical.byContradiction fun hnw => by
    obtain ⟨ch, x, h1, h2⟩ := goes_on h hm hnw
    obtain ⟨u, hu⟩ := step_of hm h1 h2
    exact hn u hu
  have hgo : Choice.go ≠ .stmtFails ∧ (Choice.go ≠ .panics ∧ Choice.go ≠ .closePanics) ∧ ∀ e n, Choice.go ≠ .initFail e (n + 1) := ⟨by simp, ⟨by simp, by simp⟩, by simp⟩
  have hr : PC.receiving ∉ s.calls := fun hm => by
    have hchan : s.pool.chan = [] := by
      cases e : s.pool.chan with
      | nil => rfl
      | cons c r =>
        obtain ⟨u, hu⟩ := step_of (x := ({ s.pool with chan := r }, .received c)) hm hgo (by simp only [step, e])
        exact absurd hu (hn u)
    have hclean : Clean s.pool := by
      rcases clean_reach (R := .calm) (fun _ h => h.1.2) h with h | h | ⟨pc, hm', hp⟩
      · exact h
      · rw [hl.notClosed _ hm rfl] at h; cases h
      · have := hw pc hm'
        cases pc <;> first | exact this.elim | cases hp
    have hfull := hs.all (lost_calm h) hclean
    have hz : tot PC.size s.calls ≤ tot (fun _ => 0) s.calls := tot_le fun pc hm => by
      have := hw pc hm
      cases pc <;> first | exact Nat.le_refl _ | exact this.elim
    have hz' : tot (fun _ => 0) s.calls = 0 := by
      generalize s.calls = l
      induction l with
      | nil => rfl
      | cons pc l ih => have := tot_mid (fun _ => 0) [] l pc; simp only [List.nil_append, tot_nil] at this; omega
    unfold sizes at hfull
    rw [hchan, hout, max_of h] at hfull
    simp only [List.length_nil] at hfull
    omega
  have hlock : s.pool.lock = false := by
    have := hl.one
    rw [List.countP_eq_zero.mpr] at this
    · cases e : s.pool.lock with
      | false => rfl
      | true => rw [e] at this; cases this
    · intro pc hm
      have := hw pc hm
      cases pc <;> first | exact absurd hm hr | exact this.elim | simp [PC.holds]
  refine ⟨hout, fun pc hm => ?_⟩
  have := hw pc hm
  cases pc with
  | done r => exact ⟨r, rfl⟩
  | receiving => exact absurd hm hr
  | opening =>
    obtain ⟨u, hu⟩ := step_of (x := ({ s.pool with lock := true }, .locked)) hm hgo (by simp [step, hlock])
    exact absurd hu (hn u)
  | poolClosing =>
    obtain ⟨u, hu⟩ := step_of (x := ({ s.pool with lock := true }, .poolClose s.pool.refs)) hm hgo (by simp [step, hlock])
    exact absurd hu (hn u)
  | _ => exact this.elim

/-- C55, for a pool that holds at least one connection: from every state that clients reach which close and use only what
they hold, when from then on they do nothing but close what they hold, no run goes on for ever, and a run stops only when
all calls of `OpenPool` and `Close` have returned. Missing: a maximum of 0 (`c55_zero_false`), connections closed by the
handling of failures (`c55_server_false`), and endless streams of new calls, where the lock has to be fair. -/
theorem c55_returns_partial (hmax : 0 < max) (h : Reach .calm (.init max) s) :
    (∀ f : Nat → State, f 0 = s → ∃ n, ¬ Step .quiet (f n) (f (n + 1))) ∧
    (∀ t, Reach .quiet s t → (∀ u, ¬ Step .quiet t u) → t.pool.out = [] ∧ ∀ pc ∈ t.calls, ∃ r, pc = .done r) := by
  refine ⟨fun f hf => Classical.byContradiction fun hn => ?_, fun t ht hn => stops hmax (h.trans ht.quiet) hn⟩
  refine no_endless _ _ f rfl rfl (by rw [hf]; exact h) fun n => Classical.byContradiction fun hs => hn ⟨n, hs⟩

/-- C55 at work: a pool of one with its connection out, an `OpenPool` and a `Close` of the pool waiting. -/
example : (after 1 (openNew 0 ++ [.call .openPool, .run 1 .go, .run 1 .go, .call .poolClose])).calls = [.done (.opened 0), .receiving, .poolClosing] := by decide

end Bolt.Pooling
