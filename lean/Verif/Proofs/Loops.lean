import Verif.Proofs.Run
import Verif.Proofs.Finite

/-!
# The loops of conn.go

The model states what the loops of `ackFailure`, `reset` and `consumeAll` amount to. Here: these meet the equations of the
loops, one iteration at a time.
-/

namespace Bolt

variable {σ : Type} (P : Peer σ)

/-- One iteration of the loops in `ackFailure` and `reset` (conn.go:411-421, 445-455): decode, and `continue` on IGNORED. -/
theorem skip_loop (w : World σ) : (skipIgnored >>= fun _ => recv P) w =
    (recv P >>= fun x => match x with
      | (.ignored, none) => skipIgnored >>= fun _ => recv P
      | x => M.pure x) w := by
  cases h : w.inbox with
  | nil =>
    have e1 : skipIgnored w = .ok () w := by
      unfold skipIgnored; rw [h]
      simp only [List.dropWhile_nil, List.takeWhile_nil, List.map_nil, List.append_nil]
      rw [← h]
    rw [mbind_ok e1]
    have hn : ∀ v, nextItem P w ≠ .val v := by
      intro v
      unfold nextItem
      rw [h]
      dsimp only
      split
      · exact nofun
      · split <;> exact nofun
    rw [mbind_run]
    unfold recv
    dsimp only
    cases hi : nextItem P w with
    | val v => exact absurd hi (hn v)
    | bad e half => cases half <;> rfl
    | _ => rfl
  | cons i t =>
    have hi : nextItem P w = i := by unfold nextItem; rw [h]
    by_cases hg : i.isIgnored = true
    · have hv : i = .val .ignored := by
        cases i with
        | val v => cases v <;> first | rfl | cases hg
        | _ => cases hg
      have h1 : recv P w = .ok (.ignored, none) { w with inbox := t, log := w.log ++ [.recv (.val .ignored)] } := by
        unfold recv; rw [hi, hv, h]; rfl
      rw [mbind_ok h1]
      dsimp only
      have e1 : skipIgnored w = skipIgnored { w with inbox := t, log := w.log ++ [.recv (.val .ignored)] } := by
        unfold skipIgnored
        rw [h]
        subst hv
        simp only [List.dropWhile_cons, List.takeWhile_cons, hg, if_true, List.map_cons]
        simp
      rw [mbind_run, e1, ← mbind_run]
    · have e1 : skipIgnored w = .ok () w := by
        unfold skipIgnored; rw [h]
        simp only [List.dropWhile_cons, List.takeWhile_cons, hg]
        simp only [Bool.false_eq_true, if_false, List.map_nil, List.append_nil]
        rw [← h]
      rw [mbind_ok e1]
      rw [mbind_run]
      unfold recv
      dsimp only
      rw [hi]
      cases i with
      | val v => cases v <;> first | rfl | exact absurd rfl hg
      | bad e half => cases half <;> rfl
      | _ => rfl

/-- The last iteration. -/
theorem consumeAll_stop (close : M σ (Option GoErr)) {w : World σ} (h0 : w.inbox.takeWhile Item.isPlain = [])
    (hn : ∀ v, nextItem P w = .val v → (∃ md, v = .success md) ∨ (∃ md, v = .failure md)) : consumeAll P close w =
    (consume P close >>= fun x => match x with
      | (r, some e) => M.pure ([], r, some e)
      | (.success md, none) => M.pure ([], .success md, none)
      | (r, none) => consumeAll P close >>= fun y => match y with
        | (_, v, some e) => M.pure ([], v, some e)
        | (l, v, none) => M.pure (r :: l, v, none)) w := by
  have h1 : w.inbox.dropWhile Item.isPlain = w.inbox := by
    have := List.takeWhile_append_dropWhile (p := Item.isPlain) (l := w.inbox)
    rw [h0] at this
    exact this
  have h2 : consumeAll P close w = (consume P close >>= fun x => match x with
      | (r, some e) => M.pure ([], r, some e)
      | (r, none) => M.pure ([], r, none)) w := by
    conv => lhs; unfold consumeAll
    simp only [h0, h1, List.map_nil, List.append_nil]
    rfl
  rw [h2]
  refine bind_congr_ok fun a w' ha => ?_
  obtain ⟨r, e⟩ := a
  cases e with
  | some e => rfl
  | none =>
    have hr : ∃ md, r = .success md := by
      unfold consume at ha
      rw [mbind_run] at ha
      unfold recv at ha
      dsimp only at ha
      cases hi : nextItem P w with
      | val v =>
        rw [hi] at ha
        rcases hn v hi with ⟨md, rfl⟩ | ⟨md, rfl⟩
        · refine ⟨md, ?_⟩
          cases ha; rfl
        · dsimp only at ha
          rw [mbind_run] at ha
          split at ha
          · split at ha <;> cases ha
          · cases ha
          · cases ha
      | bad e => rw [hi] at ha; cases ha
      | boom e => rw [hi] at ha; cases ha
      | ioerr => rw [hi] at ha; cases ha
      | eof => rw [hi] at ha; cases ha
    obtain ⟨md, rfl⟩ := hr
    rfl

/-- One iteration of the loop of `consumeAll` (conn.go:579-591): an error ends it, SUCCESS ends it, anything else is put
before what the further iterations collect. -/
theorem consumeAll_loop (close : M σ (Option GoErr)) (w : World σ) : consumeAll P close w =
    (consume P close >>= fun x => match x with
      | (r, some e) => M.pure ([], r, some e)
      | (.success md, none) => M.pure ([], .success md, none)
      | (r, none) => consumeAll P close >>= fun y => match y with
        | (_, v, some e) => M.pure ([], v, some e)
        | (l, v, none) => M.pure (r :: l, v, none)) w := by
  cases h : w.inbox with
  | cons i t =>
    by_cases hg : i.isPlain = true
    · have hv : ∃ v, i = .val v ∧ (∀ md, v ≠ .failure md) ∧ (∀ md, v ≠ .success md) := by
        cases i with
        | val v => exact ⟨v, rfl, fun md e => (by subst e; cases hg), fun md e => (by subst e; cases hg)⟩
        | _ => cases hg
      obtain ⟨v, rfl, h1, h2⟩ := hv
      rw [mbind_ok (consume_val P close h h1)]
      have e2 : (match (v, (none : Option GoErr)) with
          | (r, some e) => M.pure ([], r, some e)
          | (.success md, none) => M.pure ([], .success md, none)
          | (r, none) => consumeAll P close >>= fun y => match y with
            | (_, v, some e) => M.pure ([], v, some e)
            | (l, v, none) => M.pure (r :: l, v, none)) = (consumeAll P close >>= fun y => match y with
            | (_, v, some e) => M.pure ([], v, some e)
            | (l, v', none) => M.pure (v :: l, v', none)) := by
        cases v <;> first | rfl | exact absurd rfl (h2 _)
      rw [e2]
      rw [mbind_run]
      unfold consumeAll
      simp only [h, List.takeWhile_cons, List.dropWhile_cons, hg, if_true, net_inbox, net_log, mbind_run]
      have e3 : ({ w.net w.sink w.srv t (w.log ++ [.recv (.val v)]) with
            inbox := t.dropWhile Item.isPlain
            log := w.log ++ [Event.recv (.val v)] ++ (t.takeWhile Item.isPlain).map Event.recv } : World σ) =
          { w with inbox := t.dropWhile Item.isPlain, log := w.log ++ (Item.val v :: t.takeWhile Item.isPlain).map Event.recv } := by
        simp [World.net]
      rw [e3]
      cases consume P close { w with inbox := t.dropWhile Item.isPlain, log := w.log ++ (Item.val v :: t.takeWhile Item.isPlain).map Event.recv } with
      | ok a w1 =>
        obtain ⟨r, e⟩ := a
        cases e <;> rfl
      | panic => rfl
      | deep => rfl
    · refine consumeAll_stop P close ?_ ?_
      · rw [h, List.takeWhile_cons, if_neg hg]
      · intro v hv
        unfold nextItem at hv
        rw [h] at hv
        dsimp only at hv
        subst hv
        cases v <;> first | exact absurd rfl hg | exact .inl ⟨_, rfl⟩ | exact .inr ⟨_, rfl⟩
  | nil =>
    refine consumeAll_stop P close ?_ ?_
    · rw [h]; rfl
    · intro v hv
      unfold nextItem at hv
      rw [h] at hv
      dsimp only at hv
      split at hv
      · cases hv
      · split at hv <;> cases hv

end Bolt
