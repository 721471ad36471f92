import Verif.Proofs.Steps
import Verif.Proofs.Tenant

/-!
Statements without a connection: closed statements have none, and calls on rows of such statements reach neither the
socket nor the peer.
-/

namespace Bolt

variable {σ : Type} {P : Peer σ}

theorem Moves.inv {I : World σ → Prop} (hs : ∀ {w w'}, I w → Move P w w' → I w') {w w' : World σ} (h : Moves P w w') (h0 : I w) : I w' := by
  induction h with
  | refl => exact h0
  | tail _ s ih => exact hs ih s

theorem send_stmts (v : Val) (w : World σ) : (Bolt.send P v w).world.stmts = w.stmts := by
  unfold Bolt.send
  rfl

theorem recv_stmts (w : World σ) : (Bolt.recv P w).world.stmts = w.stmts := by
  unfold Bolt.recv
  cases nextItem P w <;> rfl

theorem Move.dead {w w' : World σ} (h : w.Dead) (m : Move P w w') : w'.Dead := by
  cases m with
  | own _ _ _ _ _ _ _ _ h9 => exact h9 h
  | send v => unfold World.Dead; rw [send_stmts]; exact h
  | recv => unfold World.Dead; rw [recv_stmts]; exact h
  | shut => exact h

theorem does_pooledClose {close : M σ (Option GoErr)} (hc : Does P close) : Does P (pooledClose P close) := by
  have h1 := does_stmtClose hc
  have h2 := does_txFinish hc qRollback
  unfold pooledClose
  repeat' first | apply h1 | apply h2 | does_step

theorem does_pooledN : ∀ n, Does P (pooledN P n)
  | 0 => fun w => .refl w
  | n + 1 => does_pooledClose (does_pooledN n)

theorem PoolReach.dead {n : Nat} {w w' : World σ} (h : PoolReach P n w w') (h0 : w.Dead) : w'.Dead := by
  induction h with
  | refl => exact h0
  | @call w1 w2 op e _ _ _ hr ih =>
    by_cases hop : ∃ m, op = .setChunkSize m
    · obtain ⟨m, rfl⟩ := hop
      cases hr
      exact ih
    · have h := does_op (does_pooledN (P := P) n) op (fun m hm => hop ⟨m, hm⟩) w1
      rw [hr] at h
      exact h.inv Move.dead ih
  | @close w1 w2 e _ hr ih =>
    have h := does_pooledClose (does_pooledN (P := P) n) w1
    rw [hr] at h
    exact h.inv Move.dead ih

/-- No statement has a connection. -/
def World.Cut (w : World σ) : Prop := ∀ x ∈ w.stmts, x.conn = false

theorem World.Cut.conn {w : World σ} (h : w.Cut) (s : Nat) : (w.stmt s).conn = false := by
  unfold World.stmt
  by_cases hs : s < w.stmts.length
  · rw [List.getElem?_eq_getElem hs]
    exact h _ (List.getElem_mem _)
  · rw [List.getElem?_eq_none (by omega)]
    rfl

theorem World.Cut.of {w : World σ} (hd : w.Dead) (h : ∀ s, s < w.stmts.length → (w.stmt s).closed = true) : w.Cut := by
  intro x hx
  refine hd x hx ?_
  obtain ⟨i, hi, rfl⟩ := List.mem_iff_getElem.mp hx
  have := h i hi
  rwa [World.stmt, List.getElem?_eq_getElem hi] at this

/-- Nothing was written, read or logged. -/
structure Unheard (w w' : World σ) : Prop where
  sink : w'.sink = w.sink
  inbox : w'.inbox = w.inbox
  srv : w'.srv = w.srv
  log : w'.log = w.log

/-- The call does not reach the socket when no statement has a connection. -/
def Mute {α : Type} (x : M σ α) : Prop := ∀ w, w.Cut → (x w).world.Cut ∧ Unheard w (x w).world

theorem Unheard.tr {a b c : World σ} (h : Unheard a b) (h' : Unheard b c) : Unheard a c :=
  ⟨h'.1.trans h.1, h'.2.trans h.2, h'.3.trans h.3, h'.4.trans h.4⟩

theorem Mute.bind {α β : Type} {x : M σ α} {f : α → M σ β} (h : Mute x) (hf : ∀ a, Mute (f a)) : Mute (x >>= f) := by
  intro w hw
  have h := h w hw
  rw [mbind_run]
  cases hx : x w with
  | ok a w' =>
    rw [hx] at h
    have h2 := hf a w' h.1
    exact ⟨h2.1, h.2.tr h2.2⟩
  | panic p w' => rw [hx] at h; exact h
  | deep w' => rw [hx] at h; exact h

theorem Mute.pure {α : Type} (a : α) : Mute (M.pure a : M σ α) := fun _ h => ⟨h, ⟨rfl, rfl, rfl, rfl⟩⟩
theorem Mute.get {α : Type} (f : World σ → α) : Mute (M.get f) := fun _ h => ⟨h, ⟨rfl, rfl, rfl, rfl⟩⟩
theorem Mute.deep {α : Type} : Mute (fun w => .deep w : M σ α) := fun _ h => ⟨h, ⟨rfl, rfl, rfl, rfl⟩⟩
theorem Mute.setRow {r : Nat} {f : Rows → Rows} : Mute (M.modify fun w : World σ => w.setRow r f) := fun _ h => ⟨h, ⟨rfl, rfl, rfl, rfl⟩⟩

theorem World.Cut.modify {w w' : World σ} {s : Nat} {f : Stmt → Stmt} (hw : w'.stmts = w.stmts.modify s f) (hf : ∀ x, x.conn = false → (f x).conn = false)
    (h : w.Cut) : w'.Cut := by
  intro x hx
  rw [hw] at hx
  obtain ⟨i, hi, rfl⟩ := List.mem_iff_getElem.mp hx
  rw [List.getElem_modify]
  split
  · exact hf _ (h _ (List.getElem_mem _))
  · exact h _ (List.getElem_mem _)

theorem Mute.setStmt {s : Nat} {f : Stmt → Stmt} (hf : ∀ x, (f x).conn = x.conn) : Mute (M.modify fun w : World σ => w.setStmt s f) :=
  fun _ h => ⟨h.modify rfl fun x hx => (hf x).trans hx, ⟨rfl, rfl, rfl, rfl⟩⟩

theorem Mute.newRows {row : Rows} : Mute (newRowsObj row : M σ Nat) := fun _ h => ⟨h, ⟨rfl, rfl, rfl, rfl⟩⟩

/-- What is done on the connection of a statement is not reached. -/
theorem Mute.withConn {α : Type} {s : Nat} {k : M σ α} : Mute (Bolt.withConn s k) := by
  intro w hw
  unfold Bolt.withConn
  rw [if_neg (by rw [hw.conn s]; simp)]
  exact ⟨hw, ⟨rfl, rfl, rfl, rfl⟩⟩

theorem Mute.ite {α : Type} {c : Prop} [Decidable c] {x y : M σ α} (hx : Mute x) (hy : Mute y) : Mute (if c then x else y) := by
  split
  · exact hx
  · exact hy

macro "mute_step" : tactic => `(tactic| first
  | exact Mute.pure _ | exact Mute.get _ | exact Mute.deep | exact Mute.setRow | exact Mute.setStmt (fun _ => rfl) | exact Mute.newRows | exact Mute.withConn
  | assumption
  | refine Mute.bind ?_ (fun _ => ?_)
  | apply Mute.ite
  | split)

variable {close : M σ (Option GoErr)}

theorem mute_drain (r : Nat) : Mute (rowsDrain P close r) := by
  intro w
  unfold rowsDrain
  simp only
  split
  · exact (show Mute (_ : M σ (Option GoErr)) by repeat' mute_step) w
  · split
    · exact (show Mute (_ : M σ (Option GoErr)) by repeat' mute_step) w
    · exact fun h => ⟨h, ⟨rfl, rfl, rfl, rfl⟩⟩

theorem mute_mark (r : Nat) : Mute (rowsMark r : M σ Unit) :=
  fun _ h => ⟨h.modify rfl fun _ hx => hx, ⟨rfl, rfl, rfl, rfl⟩⟩

theorem mute_stmtMark (s : Nat) : Mute (stmtMark s : M σ Unit) := by
  intro w h
  unfold stmtMark
  rw [if_neg (by rw [h.conn s]; simp)]
  exact ⟨h.modify rfl fun _ hx => hx, ⟨rfl, rfl, rfl, rfl⟩⟩

theorem mute_stmtClose (s : Nat) : Mute (stmtClose P close s) := by
  have h1 := fun r => mute_drain (P := P) (close := close) r
  have h2 := fun r => mute_mark (σ := σ) r
  have h3 := mute_stmtMark (σ := σ) s
  unfold stmtClose rowsClose0
  repeat' first | apply h1 | apply h2 | mute_step

theorem mute_rowsClose (r : Nat) : Mute (rowsClose P close r) := by
  have h1 := mute_drain (P := P) (close := close) r
  have h2 := mute_mark (σ := σ) r
  have h3 := fun s => mute_stmtClose (P := P) (close := close) s
  unfold rowsClose
  repeat' first | apply h3 | mute_step

theorem mute_next (r : Nat) : Mute (nextNeo P close r) := by
  unfold nextNeo
  repeat' mute_step

theorem mute_nextPipe (r : Nat) : Mute (nextPipeline P close r) := by
  unfold nextPipeline pipeHeader
  repeat' mute_step

theorem mute_allLoop (r : Nat) : ∀ f out, Mute (allLoop P close r f out)
  | 0, _ => Mute.deep
  | f + 1, out => by
    have h1 := mute_next (P := P) (close := close) r
    have ih := fun out => mute_allLoop r f out
    unfold allLoop
    repeat' first | apply ih | mute_step

theorem mute_all (r : Nat) : Mute (rowsAll P close r) := fun w => mute_allLoop r _ _ w

end Bolt
