import Verif.Proofs.PoolOwn

/-!
# Pools: a closed pool (C53), and how the other properties fail
-/

namespace Bolt.Pooling

variable {max : Nat}

/-- A call of `Close` of the pool has returned. -/
def PoolClosed (s : State) : Prop := ∃ ok, PC.done (.poolClosed ok) ∈ s.calls

/-- Call number `i` is an `OpenPool` that returned connection `c`. -/
def Opened (s : State) (i c : Nat) : Prop := s.calls[i]? = some (.done (.opened c))

theorem tr_poolClosed {p p' : Pool} {ch : Choice} {pc pc' : PC} (h : Tr p ch pc p' pc') :
    (p.closed = true → p'.closed = true) ∧
    (∀ ok, pc' = .done (.poolClosed ok) → pc = .poolClosed ok) ∧ (∀ ok, pc' = .poolClosed ok → p'.closed = true) := by
  cases h with
  | failedRet h => exact ⟨fun e => (closes_lock h).2.trans e, fun _ e => (by cases e), fun _ e => (by cases e)⟩
  | failedReclaim h => exact ⟨fun e => (closes_lock' h).2.trans e, fun _ e => (by cases e), fun _ e => (by cases e)⟩
  | closed h => exact ⟨fun e => (closes_lock h).2.trans e, fun _ e => (by cases e), fun _ e => (by cases e)⟩
  | closeErr h => exact ⟨fun e => (closes_lock h).2.trans e, fun _ e => (by cases e), fun _ e => (by cases e)⟩
  | closeReclaim h => exact ⟨fun e => (closes_lock' h).2.trans e, fun _ e => (by cases e), fun _ e => (by cases e)⟩
  | useRet h => exact ⟨fun e => (closes_lock h).2.trans e, fun _ e => (by cases e), fun _ e => (by cases e)⟩
  | useReclaim h => exact ⟨fun e => (closes_lock' h).2.trans e, fun _ e => (by cases e), fun _ e => (by cases e)⟩
  | poolConn h => exact ⟨fun e => (closes_lock h).2.trans e, fun _ e => (by cases e), fun _ e => (by cases e)⟩
  | poolErr h => exact ⟨fun e => rfl, fun _ e => (by cases e), fun _ e => rfl⟩
  | poolEnd => exact ⟨fun e => rfl, fun _ e => (by cases e), fun _ e => rfl⟩
  | poolUnlock => exact ⟨fun e => e, fun _ e => by cases e; rfl, fun _ e => (by cases e)⟩
  | _ => exact ⟨fun e => e, fun _ e => (by cases e), fun _ e => (by cases e)⟩

/-- Once a `Close` of the pool has come to its end the pool is marked as closed. -/
theorem closed_of_done {R : Rules} {s : State} (h : Reach R (.init max) s) :
    ∀ pc ∈ s.calls, (∃ ok, pc = .poolClosed ok ∨ pc = .done (.poolClosed ok)) → s.pool.closed = true := by
  refine h.inv (I := fun s => ∀ pc ∈ s.calls, (∃ ok, pc = .poolClosed ok ∨ pc = .done (.poolClosed ok)) → s.pool.closed = true)
    (fun pc h => by cases h) ?_ ?_
  · intro p calls k ih _ _ pc hm hok
    have e : (k.start p).1.closed = p.closed := by cases k <;> rfl
    simp only at ih ⊢
    rw [e]
    rcases List.mem_append.mp hm with hm | hm
    · exact ih pc hm hok
    · rw [List.mem_singleton.mp hm] at hok
      obtain ⟨ok, h | h⟩ := hok <;> cases k <;> cases h
  · intro p pre pc post ch p' pc' ih _ hs q hm hok
    obtain ⟨h1, h2, h3⟩ := tr_poolClosed (tr hs)
    simp only at ih ⊢
    rcases mem_mid.mp hm with rfl | hm
    · obtain ⟨ok, h | h⟩ := hok
      · exact h3 ok h
      · exact h1 (ih pc (mem_mid.mpr (.inl rfl)) ⟨ok, .inl (h2 ok h)⟩)
    · exact h1 (ih q (mem_mid.mpr (.inr hm)) hok)

theorem closes_keeps {p p' : Pool} {c : Nat} {ch : Choice} {ok : Bool} (h : Closes p c ch (.ret p' ok)) : p'.nSocks = p.nSocks ∧ p'.handed = p.handed := by
  rcases closes_ret h with ⟨rfl, _⟩ | ⟨s, bad, _, _, _, rfl, _⟩ <;> exact ⟨rfl, rfl⟩

theorem tr_after {p p' : Pool} {ch : Choice} {pc pc' : PC} (h : Tr p ch pc p' pc') (hc : p.closed = true) (hi : pc.inside = true → p.closed = false) :
    p'.nSocks = p.nSocks ∧ p'.handed = p.handed ∧ (∀ c, pc' ≠ .done (.opened c)) := by
  cases h with
  | initOk => rw [hi rfl] at hc; cases hc
  | initFail => rw [hi rfl] at hc; cases hc
  | initPanic => rw [hi rfl] at hc; cases hc
  | openedSome => rw [hi rfl] at hc; cases hc
  | failedRet h => exact ⟨(closes_keeps h).1, (closes_keeps h).2, fun _ e => (by cases e)⟩
  | failedReclaim h => cases h <;> exact ⟨rfl, rfl, fun _ e => (by cases e)⟩
  | closed h => exact ⟨(closes_keeps h).1, (closes_keeps h).2, fun _ e => (by cases e)⟩
  | closeErr h => exact ⟨(closes_keeps h).1, (closes_keeps h).2, fun _ e => (by cases e)⟩
  | closeReclaim h => cases h <;> exact ⟨rfl, rfl, fun _ e => (by cases e)⟩
  | useRet h => exact ⟨(closes_keeps h).1, (closes_keeps h).2, fun _ e => (by cases e)⟩
  | useReclaim h => cases h <;> exact ⟨rfl, rfl, fun _ e => (by cases e)⟩
  | poolConn h => exact ⟨(closes_keeps h).1, (closes_keeps h).2, fun _ e => (by cases e)⟩
  | poolErr h => exact ⟨(closes_keeps h).1, (closes_keeps h).2, fun _ e => (by cases e)⟩
  | _ => exact ⟨rfl, rfl, fun _ e => (by cases e)⟩

/-- What happens after the pool was closed. -/
theorem after_closed {R R' : Rules} {s t : State} (h : Reach R (.init max) s) (hc : s.pool.closed = true) (h' : Reach R' s t) :
    t.pool.closed = true ∧ t.pool.nSocks = s.pool.nSocks ∧ t.pool.handed = s.pool.handed ∧ ∀ i c, Opened t i c → Opened s i c := by
  have hl := locked_reach (locked_init max) h
  have key := h'.inv (I := fun t => Locked t ∧ t.pool.closed = true ∧ t.pool.nSocks = s.pool.nSocks ∧ t.pool.handed = s.pool.handed ∧
      ∀ i c, Opened t i c → Opened s i c) ⟨hl, hc, rfl, rfl, fun _ _ h => h⟩ ?_ ?_
  · exact key.2
  · rintro p calls k ⟨hl, h1, h2, h3, h4⟩ _ _
    refine ⟨locked_call k hl, ?_⟩
    have e : (k.start p).1.closed = p.closed ∧ (k.start p).1.nSocks = p.nSocks ∧ (k.start p).1.handed = p.handed := by cases k <;> exact ⟨rfl, rfl, rfl⟩
    refine ⟨e.1.trans h1, e.2.1.trans h2, e.2.2.trans h3, fun i c hi => h4 i c ?_⟩
    unfold Opened at hi ⊢
    simp only at hi ⊢
    rw [List.getElem?_append] at hi
    split at hi
    · exact hi
    · have := List.mem_of_getElem? hi
      have := List.mem_singleton.mp this
      cases k <;> cases this
  · rintro p pre pc post ch p' pc' ⟨hl, h1, h2, h3, h4⟩ _ hs
    refine ⟨locked_step (tr hs) hl, (tr_poolClosed (tr hs)).1 h1, ?_⟩
    obtain ⟨e1, e2, e3⟩ := tr_after (tr hs) h1 (hl.notClosed pc (mem_mid.mpr (.inl rfl)))
    refine ⟨e1.trans h2, e2.trans h3, fun i c hi => h4 i c ?_⟩
    unfold Opened at hi ⊢
    simp only at hi ⊢
    rw [List.getElem?_append] at hi ⊢
    split
    · next hlt => rw [if_pos hlt] at hi; exact hi
    · next hlt =>
      rw [if_neg hlt] at hi
      cases hi' : i - pre.length with
      | zero => rw [hi'] at hi; simp at hi; exact absurd hi (e3 c)
      | succ j => rw [hi'] at hi; simpa using hi

/-- C53: after `Close` of a pool has returned, whatever it returned, no `OpenPool` returns a connection and no socket is
created, in all runs of any number of clients, whatever they do. -/
theorem c53_closed {s t : State} (h : Reach .any (.init max) s) (hc : PoolClosed s) (h' : Reach .any s t) :
    t.pool.nSocks = s.pool.nSocks ∧ t.pool.handed = s.pool.handed ∧ ∀ i c, Opened t i c → Opened s i c := by
  obtain ⟨ok, hm⟩ := hc
  exact (after_closed h (closed_of_done h _ hm ⟨ok, .inr rfl⟩) h').2

/-! ## Runs -/

/-- `OpenPool`, as call number `i`, on a connection that is initialised by it. -/
def openNew (i : Nat) : List Act := [.call .openPool, .run i .go, .run i .go, .run i .go, .run i .initOk, .run i .go]

/-- `OpenPool`, as call number `i`, on a connection that has been in use. -/
def openOld (i : Nat) : List Act := [.call .openPool, .run i .go, .run i .go, .run i .go, .run i .go, .run i .go]

/-- `Close`, as call number `i`. -/
def closeIt (i c : Nat) : List Act := [.call (.close c), .run i .go, .run i .go]

/-- `Close` of the pool, as call number `i`, with `n` connections to close. -/
def closePool (i n : Nat) : List Act := .call .poolClose :: List.replicate (2 * n + 3) (.run i .go)

/-- The state after these. -/
def after (max : Nat) (as : List Act) : State := ((State.init max).exec as).getD (.init 0)

theorem reach_after (h : ((State.init max).exec as).isSome = true) : Reach .any (.init max) (after max as) := by
  unfold after
  cases h' : (State.init max).exec as with
  | none => rw [h'] at h; cases h
  | some s => exact reach_exec h'

/-- C53 at work: open, close the pool, and try to open again. -/
example : PoolClosed (after 1 (openNew 0 ++ closePool 1 1)) ∧
    (after 1 (openNew 0 ++ closePool 1 1 ++ [.call .openPool, .run 2 .go, .run 2 .go, .run 2 .go])).calls[2]? = some (.done .openFailed) :=
  ⟨⟨true, by decide⟩, by decide⟩

/-- The socket of a connection. -/
def sockOf (s : State) (c : Nat) : Option Nat := (s.pool.conns c).sock

/-- C48 and C49 are false when a client closes a connection twice: with a maximum of 2 there are then three connections
handed out, two of them on one socket. -/
theorem c48_c49_false : ∃ s, Reach .any (.init 2) s ∧ s.pool.max = 2 ∧ s.pool.out = [1, 2, 3] ∧ sockOf s 2 = some 0 ∧ sockOf s 3 = some 0 :=
  ⟨_, reach_after (as := openNew 0 ++ openNew 1 ++ closeIt 2 0 ++ closeIt 3 0 ++ openOld 4 ++ openOld 5) (by decide), by decide, by decide, by decide, by decide⟩

/-- The client closes and uses only what it holds. -/
def held (p : Pool) : Call → Bool
  | .close c | .use c _ _ => p.out.contains c
  | _ => true

/-- Any server, but clients that close and use only what they hold. -/
def Rules.client : Rules := ⟨fun p k => held p k = true, fun _ => True⟩

/-- In these runs the clients close and use only what they hold. -/
def obeys (s : State) : List Act → Bool
  | [] => true
  | a :: as =>
    (match a with | .call k => held s.pool k | _ => true) &&
    (match s.next a with | none => false | some s => obeys s as)

theorem reach_client : ∀ {as : List Act} {s : State}, obeys s as = true → ∃ t, s.exec as = some t ∧ Reach .client s t
  | [], s, _ => ⟨s, rfl, .refl⟩
  | a :: as, s, h => by
    unfold obeys at h
    obtain ⟨h1, h2⟩ := Bool.and_eq_true_iff.mp h
    cases hn : s.next a with
    | none => rw [hn] at h2; cases h2
    | some u =>
      simp only [hn] at h2
      obtain ⟨t, e, hr⟩ := reach_client h2
      refine ⟨t, by simp only [State.exec, hn, e], Reach.trans (t := u) ?_ hr⟩
      cases a with
      | call k => exact Reach.call (t := s) .refl h1 hn
      | run i ch => exact Reach.run (t := s) .refl trivial hn

theorem client_after (h : obeys (.init max) as = true) : Reach .client (.init max) (after max as) := by
  obtain ⟨t, e, hr⟩ := reach_client h
  unfold after
  rw [e]
  exact hr

/-- A call on connection `c`, as call number `i`, in which the handling of a failure closes the connection. -/
def useClosing (i c : Nat) : List Act := [.call (.use c false 1), .run i .go, .run i .go, .run i .go]

/-- C48 and C49 are false also for clients that close each connection once, when the server refuses ACK_FAILURE and RESET
(conn.go:460): the driver closes the connection, which returns it to the pool, and the client closes it again. -/
theorem c48_c49_server_false : ∃ s, Reach .client (.init 2) s ∧ s.pool.max = 2 ∧ s.pool.out = [1, 2, 3] ∧ sockOf s 2 = some 0 ∧ sockOf s 3 = some 0 :=
  ⟨_, client_after (as := openNew 0 ++ openNew 1 ++ useClosing 2 0 ++ closeIt 3 0 ++ openOld 4 ++ openOld 5) (by decide), by decide, by decide, by decide, by decide⟩

/-- Nothing can happen any more to call number `i`. -/
def Stuck (s : State) (i : Nat) : Prop := ∀ ch, s.next (.run i ch) = none

/-- C50 is false: when closing the statement fails, `Close` returns an error and the slot is not returned. With a maximum of
1 the next `OpenPool` waits. -/
theorem c50_slot_false : ∃ s, Reach .client (.init 1) s ∧ s.calls = [.done (.opened 0), .done (.closed false), .receiving] ∧ Stuck s 2 :=
  ⟨_, client_after (as := openNew 0 ++ [.call (.close 0), .run 1 .stmtFails, .call .openPool, .run 2 .go, .run 2 .go]) (by decide), by decide, fun ch => by cases ch <;> rfl⟩

/-- C50 is false: after the driver has closed the connection itself, the client's `Close` blocks. -/
theorem c50_block_false : ∃ s, Reach .client (.init 1) s ∧ s.calls = [.done (.opened 0), .done .used, .closeSend 2] ∧ Stuck s 2 :=
  ⟨_, client_after (as := openNew 0 ++ useClosing 1 0 ++ [.call (.close 0), .run 2 .go]) (by decide), by decide, fun ch => by cases ch <;> rfl⟩

/-- C51 is false: a handshake that fails without `connErr` being set (the server answers that it supports no version)
puts the socket into the pool, and the next `OpenPool` returns it. -/
theorem c51_false : ∃ s, Reach .client (.init 1) s ∧ s.calls = [.done .openFailed, .done (.opened 1)] ∧ sockOf s 1 = some 0 ∧ s.pool.inited 0 = false :=
  ⟨_, client_after (as := [.call .openPool, .run 0 .go, .run 0 .go, .run 0 .go, .run 0 (.initFail false 0), .run 0 .go, .run 0 .go, .run 0 .go, .run 0 .go] ++ openOld 1)
    (by decide), by decide, by decide, by decide⟩

/-- C54 is false: the socket of a failed initialisation stays open when the pool is closed. -/
theorem c54_false : ∃ s, Reach .client (.init 1) s ∧ s.calls = [.done .openFailed, .done (.poolClosed true)] ∧ s.pool.nSocks = 1 ∧ s.pool.shut 0 = false :=
  ⟨_, client_after (as := [.call .openPool, .run 0 .go, .run 0 .go, .run 0 .go, .run 0 (.initFail true 0), .run 0 .go, .run 0 .go, .run 0 .go, .run 0 .go] ++ closePool 1 0)
    (by decide), by decide, by decide, by decide⟩

/-- C55 is false for a maximum of 0: `OpenPool` waits for ever and keeps `Close` of the pool waiting. -/
theorem c55_zero_false : ∃ s, Reach .client (.init 0) s ∧ s.calls = [.receiving, .poolClosing] ∧ s.pool.out = [] ∧ Stuck s 0 ∧ Stuck s 1 :=
  ⟨_, client_after (as := [.call .openPool, .run 0 .go, .run 0 .go, .call .poolClose]) (by decide), by decide, by decide, fun ch => by cases ch <;> rfl, fun ch => by cases ch <;> rfl⟩

/-- C55 is false when the server refuses INIT, ACK_FAILURE and RESET: both the driver's failure handling and `initialize`
close the connection, the second one blocks in `OpenPool`, and with it everything else. -/
theorem c55_server_false : ∃ s, Reach .client (.init 1) s ∧ s.calls = [.failedSend 2 0 0, .opening, .poolClosing] ∧ s.pool.out = [] ∧
    Stuck s 0 ∧ Stuck s 1 ∧ Stuck s 2 :=
  ⟨_, client_after (as := [.call .openPool, .run 0 .go, .run 0 .go, .run 0 .go, .run 0 (.initFail false 1), .run 0 .go, .run 0 .go, .run 0 .go,
      .call .openPool, .call .poolClose]) (by decide), by decide, by decide,
    fun ch => by cases ch <;> rfl, fun ch => by cases ch <;> rfl, fun ch => by cases ch <;> rfl⟩

end Bolt.Pooling
