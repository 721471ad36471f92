import Verif.Proofs.Failures
import Verif.Spec.Histories

/-!
# Failed reads and writes are recorded

The part of C52 that links the pool to sessions: `reclaim` replaces a connection whose `connErr` is set, and every call
that meets a failed read or write sets it.
-/

namespace Bolt

variable {σ : Type} {P : Peer σ}

/-- A read or write of the socket failed, otherwise than by the end of the stream. -/
def Event.broke : Event → Bool
  | .recv .ioerr => true
  | .send _ (some e) => (match e.innerMost with | .badConn => true | _ => false)
  | _ => false

theorem streamFails_of {cs : Nat} {s : Sink} {v : Val} {e : GoErr} (h : (encodeTo cs s v).2 = some e) (he : e.innerMost = .badConn) : streamFails cs s v = true := by
  unfold encodeTo at h
  unfold streamFails
  simp only at h
  split at h
  · next hr => simp only [hr]
  · next hr =>
    simp only [hr]
    split at h
    · next hx =>
      cases h
      obtain ⟨m, hm⟩ := silent_enc v _ hx
      rw [hm] at he
      cases he
    · next hx =>
      split at h
      · cases h
      · next hf => simp [hx, hf]

/-- Failed reads and writes since `w` are recorded. -/
def Records (w w' : World σ) : Prop := ∃ l, w'.log = w.log ++ l ∧ ((∃ x ∈ l, x.broke = true) → w'.connErr = true)

theorem Records.move {w w1 w2 : World σ} (hr : Records w w1) (hm : Move P w1 w2) : Records w w2 := by
  obtain ⟨l, h1, h2⟩ := hr
  cases hm with
  | own _ _ _ h4 _ _ _ h8 => exact ⟨l, by rw [h4, h1], fun hx => h8 (h2 hx)⟩
  | send v =>
    refine ⟨l ++ [.send v (encodeTo w1.chunkSize w1.sink v).2], by simp [send, Out.world, h1], ?_⟩
    rintro ⟨x, hx, hb⟩
    show (w1.connErr || streamFails w1.chunkSize w1.sink v) = true
    rw [Bool.or_eq_true]
    rcases List.mem_append.1 hx with hx | hx
    · exact .inl (h2 ⟨x, hx, hb⟩)
    · obtain rfl := List.mem_singleton.1 hx
      cases he : (encodeTo w1.chunkSize w1.sink v).2 with
      | none => rw [he] at hb; cases hb
      | some e =>
        rw [he] at hb
        refine .inr (streamFails_of he ?_)
        cases hi : e.innerMost <;> simp only [Event.broke, hi] at hb <;> first | rfl | cases hb
  | recv =>
    refine ⟨l ++ [.recv (nextItem P w1)], ?_, ?_⟩
    · unfold recv; simp only; split <;> simp [Out.world, *]
    · rintro ⟨x, hx, hb⟩
      rcases List.mem_append.1 hx with hx | hx
      · have := h2 ⟨x, hx, hb⟩
        unfold recv; simp only; split <;> simp [Out.world, *]
      · obtain rfl := List.mem_singleton.1 hx
        cases hi : nextItem P w1 with
        | ioerr => unfold recv; simp only [hi]; rfl
        | _ => rw [hi] at hb; cases hb
  | shut =>
    exact ⟨l, h1, fun hx => by show (w1.connErr || w1.sockCloseErr) = true; rw [h2 hx]; rfl⟩

/-- C52, for every peer and any calls: when a read or write of the socket failed, the connection's error is recorded. -/
theorem c52_recorded {n : Nat} {w w' : World σ} (h : Reach P n w w') :
    ∃ l, w'.log = w.log ++ l ∧ ((∃ x ∈ l, x.broke = true) → w'.connErr = true) :=
  reach_inv (I := Records w) Records.move (fun _ h => h) h ⟨[], by simp, by simp⟩

/-- The read of the answer fails: the call returns an error, and the error is recorded. -/
example : ∃ e w, (Op.exec [65] []).run script (closeN script 1) (scriptConn [[.ioerr], []]) = .ok (some e) w ∧ (∃ x ∈ w.log, x.broke = true) ∧ w.connErr = true := by
  obtain ⟨a, w, h1, h2⟩ := Out.of_test (o := (Op.exec [65] []).run script (closeN script 1) (scriptConn [[.ioerr], []]))
    (p := fun a w => a.isSome && w.log.any Event.broke) (by decide +kernel)
  rw [Bool.and_eq_true, List.any_eq_true] at h2
  obtain ⟨e, rfl⟩ := Option.isSome_iff_exists.1 h2.1
  obtain ⟨l, h3, h4⟩ := c52_recorded (.step (.refl _) (by trivial) h1)
  have : w.log = l := h3
  exact ⟨e, w, h1, h2.2, h4 (this ▸ h2.2)⟩

end Bolt
