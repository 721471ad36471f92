import Verif.Proofs.Gone
import Verif.Props.Recorded
import Verif.Props.Tenant

/-!
# Nobody gets a connection on which a read or write has failed (C52, C69)
-/

namespace Bolt

variable {σ : Type} {P : Peer σ}

theorem Records.moves {w w1 w2 : World σ} (h : Moves P w1 w2) (hr : Records w w1) : Records w w2 := by
  induction h with
  | refl => exact hr
  | tail _ s ih => exact ih.move s

theorem PoolReach.records {n : Nat} {w0 w : World σ} (h : PoolReach P n w0 w) : Records w0 w := by
  induction h with
  | refl => exact ⟨[], by simp, by simp⟩
  | @call w1 w2 op e _ _ _ hr ih =>
    by_cases hop : ∃ m, op = .setChunkSize m
    · obtain ⟨m, rfl⟩ := hop
      cases hr
      exact ih
    · have h := does_op (does_pooledN (P := P) n) op (fun m hm => hop ⟨m, hm⟩) w1
      rw [hr] at h
      exact ih.moves h
  | @close w1 w2 e _ hr ih =>
    have h := does_pooledClose (does_pooledN (P := P) n) w1
    rw [hr] at h
    exact ih.moves h

/-- C52 and C69, any peer, any calls on any objects by any number of users of one connection of a pool: on the connection the next user gets no read
or write of the socket has failed, neither in the calls of the users before nor while they closed it. The end of the stream does not count as a failed
read: `Pooling.c52_false`. -/
theorem c69_unbroken {n : Nat} {w0 w w1 w2 : World σ} (hr : PoolReach P n w0 w) {e : Option GoErr} (hc : pooledClose P (pooledN P n) w = .ok e w1)
    (hh : handOver w1 = some w2) : ∃ l, w2.log = w0.log ++ l ∧ (∀ i, .recv i ∈ l → i ≠ .ioerr) ∧ ∀ v e, .send v (some e) ∈ l → e.innerMost ≠ .badConn := by
  obtain ⟨l, h1, h2⟩ := (PoolReach.close hr hc).records
  unfold handOver at hh
  split at hh
  · cases hh
  · next hne =>
    simp only [Bool.or_eq_true, not_or, Bool.not_eq_true] at hne
    cases hh
    refine ⟨l, h1, fun i hi hx => ?_, fun v e hi hx => ?_⟩
    · subst hx
      have := h2 ⟨_, hi, rfl⟩
      rw [hne.1] at this
      cases this
    · have := h2 ⟨_, hi, by simp only [Event.broke, hx]⟩
      rw [hne.1] at this
      cases this

/-- A user whose read fails closes the connection: the next user gets another. -/
example : ∃ e w w1, (Op.exec [65] []).run script (pooledN script 1) (scriptConn [[.ioerr], []]) = .ok (some e) w ∧
    pooledClose script (pooledN script 1) w = .ok none w1 ∧ .recv .ioerr ∈ w1.log ∧ handOver w1 = none := by
  obtain ⟨a, w, h1, h2⟩ := Out.of_test (o := (Op.exec [65] []).run script (pooledN script 1) (scriptConn [[.ioerr], []]))
    (p := fun a w => a.isSome && (pooledClose script (pooledN script 1) w).test fun a w => a.isNone && w.log.any fun | .recv .ioerr => true | _ => false) (by decide +kernel)
  rw [Bool.and_eq_true] at h2
  obtain ⟨e, rfl⟩ := Option.isSome_iff_exists.1 h2.1
  obtain ⟨b, w1, h5, h6⟩ := Out.of_test h2.2
  simp only [Bool.and_eq_true, Option.isNone_iff_eq_none, List.any_eq_true] at h6
  obtain ⟨rfl, x, hx, hx'⟩ := h6
  have hm : .recv .ioerr ∈ w1.log := by
    split at hx'
    · exact hx
    · cases hx'
  refine ⟨e, w, w1, h1, h5, hm, ?_⟩
  cases hh : handOver w1 with
  | none => rfl
  | some w2 =>
    obtain ⟨l, k1, k2, _⟩ := c69_unbroken ((PoolReach.refl (scriptConn [[.ioerr], []])).call (op := .exec [65] []) trivial (by simp) h1) h5 hh
    have hl : w2.log = l := k1
    have hw : w2 = w1 := by
      unfold handOver at hh
      split at hh
      · cases hh
      · exact (Option.some.inj hh).symm
    exact absurd rfl (k2 _ (hl ▸ hw ▸ hm))

end Bolt
