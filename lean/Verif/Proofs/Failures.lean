import Verif.Spec.Failures
import Verif.Proofs.Steps
import Verif.Proofs.Accept
import Verif.Proofs.Quiet

/-!
What every call sends and receives conforms to `Handled`, and an error that reports FAILURE reports one received during
the call.
-/

namespace Bolt

variable {σ : Type}

/-! ## The sequences -/

theorem Handled.append {a b : List Event} (ha : Handled a) (hb : Handled b) : Handled (a ++ b) := by
  induction ha with
  | nil => exact hb
  | plain h _ ih => exact .plain h ih
  | failure md h _ ih =>
    rw [List.cons_append, List.append_assoc]
    exact .failure md h ih

theorem handled_plain {l : List Event} (h : ∀ e ∈ l, e.plain = true) : Handled l := by
  induction l with
  | nil => exact .nil
  | cons e l ih => exact .plain (h e (by simp)) (ih fun e he => h e (by simp [he]))

theorem Reported.left {md : KVs} {a : List Event} (b : List Event) (h : Reported md a) : Reported md (a ++ b) := by
  rcases h with ⟨l1, x, l2, rfl, hx⟩ | ⟨l1, x, l2, rfl, hx⟩
  · exact .inl ⟨l1, x, l2 ++ b, by simp, hx⟩
  · exact .inr ⟨l1, x, l2 ++ b, by simp, hx⟩

theorem Reported.right {md : KVs} {b : List Event} (a : List Event) (h : Reported md b) : Reported md (a ++ b) := by
  rcases h with ⟨l1, x, l2, rfl, hx⟩ | ⟨l1, x, l2, rfl, hx⟩
  · exact .inl ⟨a ++ l1, x, l2, by simp, hx⟩
  · exact .inr ⟨a ++ l1, x, l2, by simp, hx⟩

/-! ## Errors that report FAILURE -/

/-- The result carries an error that reports FAILURE with this metadata. -/
class Reports (α : Type) where
  says : α → KVs → Prop
export Reports (says)

instance (priority := low) {α : Type} : Reports α := ⟨fun _ _ => False⟩
instance : Reports GoErr := ⟨fun e md => e.innerMost = .failure md⟩
instance {α : Type} [Reports α] : Reports (Option α) := ⟨fun | none, _ => False | some a, md => says a md⟩
instance {α β : Type} [Reports α] [Reports β] : Reports (α × β) := ⟨fun x md => says x.1 md ∨ says x.2 md⟩
instance {α : Type} [Reports α] : Reports (Except GoErr α) := ⟨fun | .error e, md => says e md | .ok a, md => says a md⟩
instance : Reports PipeRes := ⟨fun x md => says x.err md⟩

/-- What was met when reading reports FAILURE though it is none: an error of the decoder, which has no such error. -/
def Misread (md : KVs) (l : List Event) : Prop := ∃ e half, .recv (.bad e half) ∈ l ∧ e.innerMost = .failure md

theorem Misread.left {md : KVs} {a : List Event} (b : List Event) (h : Misread md a) : Misread md (a ++ b) := by
  obtain ⟨e, half, h1, h2⟩ := h
  exact ⟨e, half, by simp [h1], h2⟩
theorem Misread.right {md : KVs} {b : List Event} (a : List Event) (h : Misread md b) : Misread md (a ++ b) := by
  obtain ⟨e, half, h1, h2⟩ := h
  exact ⟨e, half, by simp [h1], h2⟩

/-- The call conforms, and the FAILUREs its result reports are in `E` or were received. -/
def Tells {α : Type} [Reports α] (E : KVs → Prop) (x : M σ α) : Prop := ∀ w, ∃ l, (x w).world.log = w.log ++ l ∧ Handled l ∧
  ∀ a w', x w = .ok a w' → ∀ md, says a md → E md ∨ Reported md l ∨ Misread md l

/-- The FAILUREs reported by `a`, or in `E`. -/
def more {α : Type} [Reports α] (E : KVs → Prop) (a : α) : KVs → Prop := fun md => E md ∨ says a md

theorem Tells.weak {α : Type} [Reports α] {E E' : KVs → Prop} {x : M σ α} (h : Tells E x) (hE : ∀ md, E md → E' md) : Tells E' x := by
  intro w
  obtain ⟨l, h1, h2, h3⟩ := h w
  exact ⟨l, h1, h2, fun a w' ha md hmd => (h3 a w' ha md hmd).imp (hE md) id⟩

theorem Tells.any {α : Type} [Reports α] {E : KVs → Prop} {x : M σ α} (h : Tells (fun _ => False) x) : Tells E x := h.weak fun _ h => h.elim

theorem Tells.bind {α β : Type} [Reports α] [Reports β] {E : KVs → Prop} {x : M σ α} {f : α → M σ β} (h : Tells E x) (hf : ∀ a, Tells (more E a) (f a)) :
    Tells E (x >>= f) := by
  intro w
  obtain ⟨l, h1, h2, h3⟩ := h w
  rw [mbind_run]
  cases hx : x w with
  | ok a w' =>
    rw [hx] at h1
    obtain ⟨l', h4, h5, h6⟩ := hf a w'
    refine ⟨l ++ l', by rw [h4, show w'.log = _ from h1, List.append_assoc], h2.append h5, fun b w2 hb md hmd => ?_⟩
    rcases h6 b w2 hb md hmd with (h | h) | h | h
    · exact .inl h
    · exact (h3 a w' hx md h).imp id fun h => h.imp (·.left _) (·.left _)
    · exact .inr (.inl (h.right _))
    · exact .inr (.inr (h.right _))
  | panic p w' => rw [hx] at h1; exact ⟨l, h1, h2, fun _ _ h => by cases h⟩
  | deep w' => rw [hx] at h1; exact ⟨l, h1, h2, fun _ _ h => by cases h⟩

theorem Tells.same {α : Type} [Reports α] {E : KVs → Prop} {x : M σ α} (h : ∀ w, (x w).world.log = w.log)
    (hs : ∀ w a w', x w = .ok a w' → ∀ md, says a md → E md) : Tells E x :=
  fun w => ⟨[], by rw [h w, List.append_nil], .nil, fun a w' ha md hmd => .inl (hs w a w' ha md hmd)⟩

theorem Tells.pure {α : Type} [Reports α] {E : KVs → Prop} (a : α) (h : ∀ md, says a md → E md) : Tells E (M.pure a : M σ α) :=
  .same (fun _ => rfl) fun _ _ _ ha => by cases ha; exact h
theorem Tells.panic {α : Type} [Reports α] {E : KVs → Prop} (p : Panic) : Tells E (M.panic p : M σ α) := .same (fun _ => rfl) fun _ _ _ ha => by cases ha
theorem Tells.modify {E : KVs → Prop} {f : World σ → World σ} (h : ∀ w, (f w).log = w.log) : Tells E (M.modify f) :=
  .same h fun _ _ _ _ _ h => h.elim

theorem Tells.withConn {α : Type} [Reports α] {E : KVs → Prop} {s : Nat} {k : M σ α} (h : Tells E k) : Tells E (Bolt.withConn s k) := by
  intro w
  unfold Bolt.withConn
  split
  · exact h w
  · exact ⟨[], by simp [Out.world], .nil, fun _ _ h => by cases h⟩

theorem Tells.ite {α : Type} [Reports α] {E : KVs → Prop} {c : Prop} [Decidable c] {x y : M σ α} (hx : Tells E x) (hy : Tells E y) : Tells E (if c then x else y) := by
  split
  · exact hx
  · exact hy

/-! ## Sending -/

/-- The errors of the encoder are its own. -/
def Ops.Silent (o : Ops) : Prop := ∀ e, o.err = some e → ∃ m, e.innerMost = .new m

theorem silent_none {o : Ops} (h : o.err = none) : o.Silent := fun e he => by rw [h] at he; cases he
theorem silent_write (p : Bytes) : (Ops.write p).Silent := silent_none rfl
theorem silent_done : Ops.done.Silent := silent_none rfl
theorem silent_fail (m : String) : (Ops.fail (.new m)).Silent := fun e he => by cases he; exact ⟨m, rfl⟩
theorem Ops.Silent.seq {a b : Ops} (ha : a.Silent) (hb : b.Silent) : (a.seq b).Silent := by
  unfold Ops.seq
  split
  · next e h => intro e' he; cases he; exact ha e h
  · exact hb
theorem Ops.Silent.wrap {a : Ops} (ha : a.Silent) (m : String) : (a.wrapErr m).Silent := by
  intro e he
  unfold Ops.wrapErr at he
  cases h : a.err with
  | none => rw [h] at he; cases he
  | some e' => rw [h] at he; cases he; exact ha e' h
theorem Ops.Silent.ite {c : Prop} [Decidable c] {a b : Ops} (ha : a.Silent) (hb : b.Silent) : (if c then a else b).Silent := by split <;> assumption

macro "silent" : tactic => `(tactic| repeat' first
  | exact silent_write _ | exact silent_done | exact silent_fail _ | assumption | apply Ops.Silent.seq | apply Ops.Silent.wrap | apply Ops.Silent.ite)

theorem silent_str (s : Str) : (encodeString s).Silent := by unfold encodeString; silent
theorem silent_slice (n : Nat) : (sliceHeader n).Silent := by unfold sliceHeader; silent
theorem silent_map (n : Nat) : (mapHeader n).Silent := by unfold mapHeader; silent
theorem silent_struct (n : Nat) (s : _root_.Int) : (structHeader n s).Silent := by unfold structHeader; silent
theorem silent_intKind (k : IntKind) (v : _root_.Int) : (encodeIntKind k v).Silent := by
  unfold encodeIntKind encodeInt
  cases k <;> simp only <;> silent
theorem silent_each {α : Type} {f : α → Ops} (hf : ∀ x, (f x).Silent) : ∀ l : List α, (encodeEach f l).Silent
  | [] => silent_done
  | x :: l => (hf x).seq (silent_each hf l)

macro "silent_struct" : tactic => `(tactic| repeat' first
  | apply silent_struct | apply silent_intKind | apply silent_str | apply silent_slice | apply silent_map | apply silent_each silent_str | apply silent_each (silent_intKind .int)
  | apply Ops.Silent.seq | apply Ops.Silent.wrap | exact silent_write _ | exact silent_done | exact silent_fail _ | assumption)

mutual
theorem silent_enc : (v : Val) → (encOps v).Silent
  | .nil => by unfold encOps encodeNil; silent
  | .bool b => by unfold encOps encodeBool; silent
  | .int k v => by unfold encOps; exact silent_intKind k v
  | .float32 b => by unfold encOps encodeFloat; silent
  | .float64 b => by unfold encOps encodeFloat; silent
  | .str s => by unfold encOps; exact silent_str s
  | .list xs => by have := silent_list xs; unfold encOps; silent_struct
  | .map kvs => by have := silent_kvs kvs; unfold encOps; silent_struct
  | .typedSlice xs => by have := silent_list xs; unfold encOps; silent_struct
  | .other _ => by unfold encOps; silent
  | .node id labels props => by have := silent_kvs props; unfold encOps; silent_struct
  | .rel id s e type props => by have := silent_kvs props; unfold encOps; silent_struct
  | .unbound id type props => by have := silent_kvs props; unfold encOps; silent_struct
  | .path nodes rels seq => by have := silent_list nodes; have := silent_list rels; unfold encOps; silent_struct
  | .record fields => by have := silent_list fields; unfold encOps; silent_struct
  | .success md => by have := silent_kvs md; unfold encOps; silent_struct
  | .failure md => by have := silent_kvs md; unfold encOps; silent_struct
  | .ignored => by unfold encOps; silent_struct
  | .ackFailure => by unfold encOps; silent_struct
  | .discardAll => by unfold encOps; silent_struct
  | .pullAll => by unfold encOps; silent_struct
  | .reset => by unfold encOps; silent_struct
  | .init client auth => by have := silent_kvs auth; unfold encOps; silent_struct
  | .run stmt params => by have := silent_kvs params; unfold encOps; silent_struct
  | .userStruct sig fields => by have := silent_fields fields; unfold encOps; silent_struct
theorem silent_list : (l : List Val) → (encList l).Silent
  | [] => by unfold encList; silent
  | x :: xs => by have := silent_enc x; have := silent_list xs; unfold encList; silent
theorem silent_kvs : (l : List (Str × Val)) → (encKVs l).Silent
  | [] => by unfold encKVs; silent
  | (k, v) :: rest => by have := silent_str k; have := silent_enc v; have := silent_kvs rest; unfold encKVs; silent
theorem silent_fields : (l : List Val) → (encFields l).Silent
  | [] => by unfold encFields; silent
  | x :: xs => by have := silent_enc x; have := silent_fields xs; unfold encFields; silent
end

theorem silent_encode {cs : Nat} {s : Sink} {v : Val} {e : GoErr} (h : (encodeTo cs s v).2 = some e) (md : KVs) : e.innerMost ≠ .failure md := by
  have hs : ∀ md, streamErr.innerMost ≠ .failure md := fun md h => by simp [streamErr, GoErr.innerMost] at h
  unfold encodeTo at h
  simp only at h
  split at h
  · cases h; exact hs md
  · split at h
    · next he => cases h; obtain ⟨m, hm⟩ := silent_enc v _ he; rw [hm]; intro h; cases h
    · split at h
      · cases h
      · cases h; exact hs md

variable {P : Peer σ}

theorem Tells.send {E : KVs → Prop} {v : Val} (hv : ∀ e, (Event.send v e).plain = true) : Tells E (Bolt.send P v) := fun w =>
  ⟨_, rfl, .plain (hv _) .nil, fun a w' ha md hmd => by
    cases ha
    cases he : (encodeTo w.chunkSize w.sink v).2 with
    | none => rw [he] at hmd; exact hmd.elim
    | some e => rw [he] at hmd; exact (silent_encode he md hmd).elim⟩

/-! ## Failure handling -/

theorem ignored_skip (l : List Item) : OnlyIgnored ((l.takeWhile Item.isIgnored).map .recv) := by
  intro e he
  obtain ⟨i, hi, rfl⟩ := List.mem_map.1 he
  have : i.isIgnored = true := by simpa using List.all_eq_true.1 List.all_takeWhile i hi
  cases i with
  | val v => cases v <;> first | rfl | cases this
  | _ => cases this

/-- Skipping IGNORED messages and reading one more. -/
theorem skip_recv (w : World σ) : ∃ ig i w1, OnlyIgnored ig ∧ i.isIgnored = false ∧ skipIgnored w = .ok () w1 ∧ (recv P w1).world.log = w.log ++ ig ++ [.recv i] ∧
    (∀ x w', recv P w1 = .ok x w' → match i with | .val v => x = (v, none) | .bad e half => x = (if half then .success [] else .nil, some e) | .boom _ => False | .ioerr => x = (.nil, some (readErr .badConn)) | .eof => x = (.nil, some (readErr .eof))) ∧
    (∀ p w', recv P w1 = .panic p w' → ∃ p, i = .boom p) := by
  refine ⟨_, nextItem P { w with inbox := w.inbox.dropWhile Item.isIgnored, log := w.log ++ (w.inbox.takeWhile Item.isIgnored).map .recv }, _, ignored_skip w.inbox, ?_, rfl, ?_, ?_, ?_⟩
  · unfold nextItem
    simp only
    cases h : w.inbox.dropWhile Item.isIgnored with
    | nil => simp only; repeat' split
             all_goals rfl
    | cons i l =>
      have := List.head_dropWhile_not (p := Item.isIgnored) (l := w.inbox) (by rw [h]; simp)
      simpa [h] using this
  · unfold recv
    simp only
    split <;> simp [Out.world, *]
  · intro x w' hx
    unfold recv at hx
    simp only at hx
    split at hx <;> cases hx <;> simp [*]
  · intro p w' hx
    unfold recv at hx
    simp only at hx
    split at hx <;> cases hx
    exact ⟨p, by assumption⟩

theorem send_run (v : Val) (w : World σ) : ∃ e w1, send P v w = .ok e w1 ∧ w1.log = w.log ++ [.send v e] ∧ ∀ md, ¬ says e md := by
  refine ⟨_, _, rfl, rfl, fun md h => ?_⟩
  cases he : (encodeTo w.chunkSize w.sink v).2 with
  | none => rw [he] at h; exact h
  | some e => rw [he] at h; exact silent_encode he md h

variable {close : M σ (Option GoErr)}

/-- What was read is an error. -/
theorem misread {i : Item} {v : Val} {e : GoErr} (hx : match i with | .val v' => (v, some e) = (v', none) | .bad e' half => (v, some e) = (if half then .success [] else .nil, some e') | .boom _ => False | .ioerr => (v, some e) = (.nil, some (readErr .badConn)) | .eof => (v, some e) = (.nil, some (readErr .eof)))
    {md : KVs} (h : e.innerMost = .failure md) {l : List Event} (hl : .recv i ∈ l) : Misread md l := by
  cases i with
  | val v' => cases hx
  | bad e' half => injection hx with _ hx; cases hx; exact ⟨e, half, hl, h⟩
  | boom _ => cases hx
  | ioerr => cases hx; simp [readErr, GoErr.innerMost] at h
  | eof => cases hx; simp [readErr, GoErr.innerMost] at h

theorem val_read {i : Item} {v : Val} (hx : match i with | .val v' => (v, (none : Option GoErr)) = (v', none) | .bad e' half => (v, none) = (if half then .success [] else .nil, some e') | .boom _ => False | .ioerr => (v, none) = (.nil, some (readErr .badConn)) | .eof => (v, none) = (.nil, some (readErr .eof))) :
    i = .val v := by
  cases i with
  | val v' => cases hx; rfl
  | bad e half => injection hx with _ hx; cases hx
  | _ => cases hx

theorem close_log (hc : Tells (fun _ => False) close) (w : World σ) (res : Option GoErr) :
    ∃ l, ((close >>= fun _ => M.pure res) w : Out σ (Option GoErr)).world.log = w.log ++ l ∧ Handled l := by
  obtain ⟨l, h1, h2, _⟩ := hc w
  refine ⟨l, ?_, h2⟩
  rw [mbind_run]
  cases h : close w <;> rw [h] at h1 <;> exact h1

theorem reset_block (hc : Tells (fun _ => False) close) (w : World σ) : ∃ a l, (reset P close w).world.log = w.log ++ (a ++ l) ∧ ResetBlock a ∧ Handled l ∧
    ∀ x w', reset P close w = .ok x w' → (x = none → l = [] ∧ ∃ ig md, OnlyIgnored ig ∧ a = .send .reset none :: (ig ++ [.recv (.val (.success md))])) ∧
      ∀ md, says x md → Reported md (a ++ l) ∨ Misread md (a ++ l) := by
  obtain ⟨e, w1, hs, hl1, hsil⟩ := send_run (P := P) .reset w
  unfold reset
  rw [mbind_ok hs]
  cases e with
  | some e =>
    refine ⟨[.send .reset (some e)], [], by simp [Out.world, M.pure, hl1], .unsent e, .nil, fun x w' hx => ?_⟩
    cases hx
    exact ⟨fun h => (by cases h), fun md h => (hsil md h).elim⟩
  | none =>
    obtain ⟨ig, i, w2, hig, hi, hsk, hl2, hx, hboom⟩ := skip_recv (P := P) w1
    simp only
    rw [mbind_ok hsk]
    have hlog : (recv P w2).world.log = w.log ++ .send .reset none :: (ig ++ [.recv i]) := by rw [hl2, hl1]; simp
    rw [mbind_run]
    cases hr : recv P w2 with
    | panic p w3 => rw [hr] at hlog; exact ⟨_, [], by rw [List.append_nil]; exact hlog, .answered i hig hi, .nil, fun _ _ h => by cases h⟩
    | deep w3 => rw [hr] at hlog; exact ⟨_, [], by rw [List.append_nil]; exact hlog, .answered i hig hi, .nil, fun _ _ h => by cases h⟩
    | ok x w3 =>
      rw [hr] at hlog
      change w3.log = _ at hlog
      have hx := hx x w3 hr
      obtain ⟨v, e⟩ := x
      cases e with
      | some e =>
        refine ⟨_, [], by rw [List.append_nil]; exact hlog, .answered i hig hi, .nil, fun x w' h => ?_⟩
        cases h
        exact ⟨fun h => (by cases h), fun md h => .inr (misread hx h (by simp))⟩
      | none =>
        obtain rfl := val_read hx
        have closing : ∀ (w4 : World σ) (res : GoErr), w4.log = w3.log → (∀ md, res.innerMost = .failure md → v = .failure md) →
            ∃ a l, ((close >>= fun _ => M.pure (some res)) w4 : Out σ (Option GoErr)).world.log = w.log ++ (a ++ l) ∧ ResetBlock a ∧ Handled l ∧
            ∀ x w', (close >>= fun _ => M.pure (some res)) w4 = .ok x w' → (x = none → l = [] ∧ ∃ ig md, OnlyIgnored ig ∧ a = .send .reset none :: (ig ++ [.recv (.val (.success md))])) ∧
              ∀ md, says x md → Reported md (a ++ l) ∨ Misread md (a ++ l) := by
          intro w4 res h4 hres
          obtain ⟨l, h5, h6⟩ := close_log hc w4 (some res)
          rw [h4, hlog] at h5
          refine ⟨_, l, ?_, .answered (.val v) hig hi, h6, fun x w' h => ?_⟩
          · rw [h5, List.append_assoc]
          · obtain ⟨_, _, _, h⟩ := run_inv h
            cases h
            refine ⟨fun h => (by cases h), fun md h => .inl ?_⟩
            obtain rfl := hres md h
            exact .inr ⟨[], ig, l, by simp, hig⟩
        cases v with
        | success md =>
          refine ⟨_, [], by rw [List.append_nil]; exact hlog, .answered _ hig hi, .nil, fun x w' h => ?_⟩
          cases h
          exact ⟨fun _ => ⟨rfl, ig, md, hig, rfl⟩, fun md h => h.elim⟩
        | failure md => exact closing w3 _ rfl (fun md' h => by simpa [GoErr.innerMost] using h)
        | _ =>
          simp only
          exact closing { w3 with connErr := true } .badConn rfl (fun md' h => by cases h)

theorem ack_block (hc : Tells (fun _ => False) close) (w : World σ) : ∃ a l, (ackFailure P close w).world.log = w.log ++ (a ++ l) ∧ AckBlock a ∧ Handled l ∧
    ∀ x w', ackFailure P close w = .ok x w' → (x = none → l = [] ∧ Settled a) ∧ ∀ md, says x md → Reported md (a ++ l) ∨ Misread md (a ++ l) := by
  obtain ⟨e, w1, hs, hl1, hsil⟩ := send_run (P := P) .ackFailure w
  unfold ackFailure
  rw [mbind_ok hs]
  cases e with
  | some e =>
    refine ⟨[.send .ackFailure (some e)], [], by simp [Out.world, M.pure, hl1], .unsent e, .nil, fun x w' hx => ?_⟩
    cases hx
    exact ⟨fun h => (by cases h), fun md h => (hsil md h).elim⟩
  | none =>
    obtain ⟨ig, i, w2, hig, hi, hsk, hl2, hx, hboom⟩ := skip_recv (P := P) w1
    simp only
    rw [mbind_ok hsk]
    have hlog : (recv P w2).world.log = w.log ++ .send .ackFailure none :: (ig ++ [.recv i]) := by rw [hl2, hl1]; simp
    rw [mbind_run]
    cases hr : recv P w2 with
    | panic p w3 =>
      have hb : (Event.recv i).plain = true := by obtain ⟨p, rfl⟩ := hboom p w3 hr; rfl
      rw [hr] at hlog; exact ⟨_, [], by rw [List.append_nil]; exact hlog, .answered i hig hi hb, .nil, fun _ _ h => by cases h⟩
    | deep w3 => unfold recv at hr; simp only at hr; split at hr <;> cases hr
    | ok x w3 =>
      rw [hr] at hlog
      change w3.log = _ at hlog
      have hx := hx x w3 hr
      obtain ⟨v, e⟩ := x
      cases e with
      | some e =>
        have hp : (Event.recv i).plain = true := by cases i <;> first | rfl | cases hx
        refine ⟨_, [], by rw [List.append_nil]; exact hlog, .answered i hig hi hp, .nil, fun x w' h => ?_⟩
        cases h
        exact ⟨fun h => (by cases h), fun md h => .inr (misread hx h (by simp))⟩
      | none =>
        obtain rfl := val_read hx
        cases v with
        | success md =>
          refine ⟨_, [], by rw [List.append_nil]; exact hlog, .answered _ hig hi rfl, .nil, fun x w' h => ?_⟩
          cases h
          exact ⟨fun _ => ⟨rfl, .ack md hig⟩, fun md h => h.elim⟩
        | failure md =>
          simp only
          obtain ⟨a, l, h1, h2, h3, h4⟩ := reset_block (P := P) hc w3
          rw [hlog] at h1
          refine ⟨_, l, ?_, .refused md hig h2, h3, fun x w' h => ?_⟩
          · rw [h1]; simp
          · obtain ⟨h5, h6⟩ := h4 x w' h
            refine ⟨fun hx => ?_, fun md' h => ?_⟩
            · obtain ⟨rfl, ig', md', hig', rfl⟩ := h5 hx
              exact ⟨rfl, .reset md md' hig hig'⟩
            · rcases h6 md' h with h | h
              · exact .inl (by have := h.right (.send .ackFailure none :: (ig ++ [.recv (.val (.failure md))])); simp only [List.cons_append, List.append_assoc, List.nil_append] at this ⊢; exact this)
              · exact .inr (by have := h.right (.send .ackFailure none :: (ig ++ [.recv (.val (.failure md))])); simp only [List.cons_append, List.append_assoc, List.nil_append] at this ⊢; exact this)
        | _ =>
          simp only
          obtain ⟨l, h5, h6⟩ := close_log hc { w3 with connErr := true } (some .badConn)
          refine ⟨_, l, ?_, .answered _ hig hi rfl, h6, fun x w' h => ?_⟩
          · refine Eq.trans h5 ?_
            show w3.log ++ l = _
            rw [hlog, List.append_assoc]
          · obtain ⟨_, _, _, h⟩ := run_inv h
            obtain ⟨_, _, _, h⟩ := run_inv h
            cases h
            exact ⟨fun h => (by cases h), fun md h => by cases h⟩

/-- `consume` conforms. -/
theorem tells_consume (hc : Tells (fun _ => False) close) : Tells (fun _ => False) (consume P close) := by
  intro w
  unfold consume
  cases hi : nextItem P w with
  | boom p =>
    have hr : recv P w = .panic p { w with inbox := w.inbox.tail, log := w.log ++ [.recv (.boom p)] } := by unfold recv; simp only [hi]
    rw [mbind_run, hr]
    exact ⟨_, rfl, .plain rfl .nil, fun _ _ h => by cases h⟩
  | bad e half =>
    have hr : recv P w = .ok (if half then .success [] else .nil, some e) { w with inbox := w.inbox.tail, log := w.log ++ [.recv (.bad e half)] } := by unfold recv; simp only [hi]
    rw [mbind_ok hr]
    refine ⟨_, rfl, .plain rfl .nil, fun x w2 hx md h => ?_⟩
    cases hx
    rcases h with h | h
    · exact h.elim
    · exact .inr (.inr ⟨e, half, by simp, h⟩)
  | ioerr =>
    have hr : recv P w = .ok (.nil, some (readErr .badConn)) { w with inbox := w.inbox.tail, log := w.log ++ [.recv .ioerr], connErr := true } := by unfold recv; simp only [hi]
    rw [mbind_ok hr]
    refine ⟨_, rfl, .plain rfl .nil, fun x w2 hx md h => ?_⟩
    cases hx
    rcases h with h | h
    · exact h.elim
    · cases h
  | eof =>
    have hr : recv P w = .ok (.nil, some (readErr .eof)) { w with inbox := w.inbox.tail, log := w.log ++ [.recv .eof] } := by unfold recv; simp only [hi]
    rw [mbind_ok hr]
    refine ⟨_, rfl, .plain rfl .nil, fun x w2 hx md h => ?_⟩
    cases hx
    rcases h with h | h
    · exact h.elim
    · cases h
  | val v =>
    have hr : recv P w = .ok (v, none) { w with inbox := w.inbox.tail, log := w.log ++ [.recv (.val v)] } := by unfold recv; simp only [hi]
    rw [mbind_ok hr]
    cases v with
    | failure md =>
      simp only
      obtain ⟨a, l, h1, h2, h3, h4⟩ := ack_block (P := P) hc { w with inbox := w.inbox.tail, log := w.log ++ [.recv (.val (.failure md))] }
      rw [mbind_run]
      have h1' : ∀ o : Out σ (Option GoErr), ackFailure P close { w with inbox := w.inbox.tail, log := w.log ++ [.recv (.val (.failure md))] } = o →
          o.world.log = w.log ++ .recv (.val (.failure md)) :: (a ++ l) := by
        intro o ho
        rw [ho] at h1
        simpa using h1
      cases ha : ackFailure P close { w with inbox := w.inbox.tail, log := w.log ++ [.recv (.val (.failure md))] } with
      | panic p w' => exact ⟨_, h1' _ ha, .failure md h2 h3, fun _ _ h => by cases h⟩
      | deep w' => exact ⟨_, h1' _ ha, .failure md h2 h3, fun _ _ h => by cases h⟩
      | ok e w' =>
        obtain ⟨h5, h6⟩ := h4 e w' ha
        cases e with
        | some e =>
          refine ⟨_, h1' _ ha, .failure md h2 h3, fun x w2 hx md' h => .inr ?_⟩
          cases hx
          rcases h with h | h
          · exact h.elim
          · exact (h6 md' h).imp (·.right [.recv (.val (.failure md))]) (·.right [.recv (.val (.failure md))])
        | none =>
          obtain ⟨hl, h7⟩ := h5 rfl
          subst hl
          refine ⟨_, h1' _ ha, .failure md h2 h3, fun x w2 hx md' h => .inr (.inl (.inl ?_))⟩
          cases hx
          rcases h with h | h
          · exact h.elim
          · have h : GoErr.failure md = .failure md' := h
            cases h
            exact ⟨[], a, [], rfl, h7⟩
    | _ =>
      refine ⟨_, rfl, .plain rfl .nil, fun x w2 hx md h => ?_⟩
      cases hx
      rcases h with h | h <;> exact h.elim

/-! ## The calls -/

theorem Tells.get {α : Type} [Reports α] {E : KVs → Prop} {f : World σ → α} (h : ∀ (a : α) md, ¬ says a md) : Tells E (M.get f) :=
  .same (fun _ => rfl) fun _ _ _ _ _ hs => (h _ _ hs).elim

theorem says_kvs (o : Option KVs) (md : KVs) : ¬ says o md := by cases o <;> exact id

macro "tell_in" hh:ident : tactic => `(tactic| first
  | exact False.elim $hh | exact (says_kvs _ _ $hh).elim | exact $hh | exact .inl $hh | exact .inr $hh | exact .inr (.inr $hh) | exact .inr (.inr (.inr $hh)) | exact .inl (.inr $hh) | exact .inl (.inr (.inr $hh)) | exact .inl (.inr (.inr (.inr $hh)))
  | exact .inl (.inl (.inr $hh)) | exact .inl (.inl (.inr (.inr $hh))) | exact .inl (.inl (.inl (.inr $hh))) | exact .inl (.inl (.inl (.inr (.inr $hh))))
  | (cases $hh:ident; done))

macro "tell_step" : tactic => `(tactic| first
  | exact Tells.pure _ (fun _ hh => by first | tell_in hh | (rcases hh with hh | hh <;> tell_in hh) | (rcases hh with hh | hh | hh <;> tell_in hh))
  | exact Tells.get (by first | exact fun _ _ h => h | exact fun a _ h => by cases a <;> exact h)
  | exact Tells.panic _ | exact Tells.send (fun _ => rfl) | exact Tells.modify (fun _ => rfl)
  | apply Tells.withConn
  | refine Tells.bind ?_ (fun _ => ?_)
  | apply Tells.ite
  | split)

theorem tells_sendRun {E : KVs → Prop} {q : Str} {kvs : KVs} : Tells E (sendRun P q kvs) := by unfold sendRun; repeat' tell_step
theorem tells_sendPullAll {E : KVs → Prop} : Tells E (sendPullAll P) := by unfold sendPullAll; repeat' tell_step
theorem tells_sendDiscardAll {E : KVs → Prop} : Tells E (sendDiscardAll P) := by unfold sendDiscardAll; repeat' tell_step

/-- Used in what follows: closing conforms. -/
abbrev Quiet (x : M σ (Option GoErr)) : Prop := Tells (fun _ => False) x

theorem tells_consumeAll (hc : Quiet close) : Tells (fun _ => False) (consumeAll P close) := by
  intro w
  unfold consumeAll
  simp only
  have h : Tells (fun _ => False) (consume P close >>= fun
    | (r, some e) => M.pure ([], r, some e)
    | (r, none) => M.pure ((w.inbox.takeWhile Item.isPlain).map Item.value, r, none)) := by
    repeat' first | exact (tells_consume hc).any | tell_step
  obtain ⟨l, h1, h2, h3⟩ := h { w with inbox := w.inbox.dropWhile Item.isPlain, log := w.log ++ (w.inbox.takeWhile Item.isPlain).map .recv }
  refine ⟨(w.inbox.takeWhile Item.isPlain).map .recv ++ l, h1.trans (by simp), .append (handled_plain ?_) h2, fun a w' ha md hmd => ?_⟩
  · intro e he
    obtain ⟨i, hi, rfl⟩ := List.mem_map.1 he
    have : i.isPlain = true := by simpa using List.all_eq_true.1 List.all_takeWhile i hi
    cases i with
    | val v => cases v <;> first | rfl | cases this
    | _ => rfl
  · exact (h3 a w' ha md hmd).imp id fun h => h.imp (·.right _) (·.right _)

theorem tells_multiple (hc : Quiet close) : ∀ n, Tells (fun _ => False) (consumeAllMultiple P close n)
  | 0 => by unfold consumeAllMultiple; tell_step
  | n + 1 => by
    have ih := tells_multiple hc n
    unfold consumeAllMultiple
    repeat' first | exact (tells_consumeAll hc).any | exact ih.any | tell_step

theorem tells_sendRunConsume (hc : Quiet close) {q : Str} {kvs : KVs} : Tells (fun _ => False) (sendRunConsume P close q kvs) := by
  unfold sendRunConsume
  repeat' first | exact tells_sendRun | exact (tells_consume hc).any | tell_step
theorem tells_discard (hc : Quiet close) : Tells (fun _ => False) (sendDiscardAllConsume P close) := by
  unfold sendDiscardAllConsume
  repeat' first | exact tells_sendDiscardAll | exact (tells_consume hc).any | tell_step
theorem tells_sendRunPullAll {E : KVs → Prop} {q : Str} {kvs : KVs} : Tells E (sendRunPullAll P q kvs) := by
  unfold sendRunPullAll
  repeat' first | exact tells_sendRun | exact tells_sendPullAll | tell_step
theorem tells_run (hc : Quiet close) {q : Str} {kvs : KVs} : Tells (fun _ => False) (sendRunPullAllConsumeRun P close q kvs) := by
  unfold sendRunPullAllConsumeRun
  repeat' first | exact tells_sendRunPullAll | exact (tells_consume hc).any | tell_step
theorem tells_single (hc : Quiet close) {q : Str} {kvs : KVs} : Tells (fun _ => False) (sendRunPullAllConsumeSingle P close q kvs) := by
  unfold sendRunPullAllConsumeSingle
  repeat' first | exact tells_sendRunPullAll | exact (tells_consume hc).any | tell_step
theorem tells_runAll (hc : Quiet close) {q : Str} {kvs : KVs} : Tells (fun _ => False) (sendRunPullAllConsumeAll P close q kvs) := by
  unfold sendRunPullAllConsumeAll
  repeat' first | exact tells_sendRunPullAll | exact (tells_consume hc).any | exact (tells_consumeAll hc).any | tell_step

theorem tells_drain (hc : Quiet close) (r : Nat) : Tells (fun _ => False) (rowsDrain P close r) := by
  intro w
  have h1 := tells_discard (P := P) hc
  have h2 := tells_multiple (P := P) hc
  unfold rowsDrain
  simp only
  split
  · exact (show Tells (fun _ => False) (_ : M σ (Option GoErr)) by repeat' first | exact h1.any | tell_step) w
  · split
    · refine (show Tells (fun _ => False) (_ : M σ (Option GoErr)) from ?_) w
      have h3 := h2 (numConsume (w.stmt (w.row r).stmt).queries.length (w.row r).idx).toNat
      repeat' first | exact h3.any | tell_step
    · exact ⟨[], by simp [Out.world], .nil, fun a w' ha md hmd => by cases ha; exact hmd.elim⟩

theorem tells_mark {E : KVs → Prop} (r : Nat) : Tells E (rowsMark r : M σ Unit) := Tells.modify (fun _ => rfl)

theorem tells_rowsClose0 (hc : Quiet close) (r : Nat) : Tells (fun _ => False) (rowsClose0 P close r) := by
  unfold rowsClose0
  repeat' first | exact (tells_drain hc r).any | exact tells_mark r | tell_step

theorem tells_stmtMark {E : KVs → Prop} (s : Nat) : Tells E (stmtMark s : M σ Unit) :=
  .same (fun w => by unfold stmtMark; split <;> rfl) fun _ _ _ _ _ h => h.elim

theorem tells_stmtClose (hc : Quiet close) (s : Nat) : Tells (fun _ => False) (stmtClose P close s) := by
  unfold stmtClose
  repeat' first | exact (tells_rowsClose0 hc _).any | exact tells_stmtMark _ | tell_step

theorem tells_rowsClose (hc : Quiet close) (r : Nat) : Tells (fun _ => False) (rowsClose P close r) := by
  unfold rowsClose
  repeat' first | exact (tells_drain hc r).any | exact tells_mark r | exact (tells_stmtClose hc _).any | tell_step

theorem tells_txFinish (hc : Quiet close) (q : Str) (t : Nat) : Tells (fun _ => False) (txFinish P close q t) := by
  unfold txFinish
  repeat' first | exact (tells_stmtClose hc _).any | exact (tells_single hc).any | tell_step

theorem tells_connClose (hc : Quiet close) : Tells (fun _ => False) (connClose P close) := by
  unfold connClose
  repeat' first | exact (tells_stmtClose hc _).any | exact (tells_txFinish hc _ _).any | tell_step

theorem tells_closeN : ∀ n, Tells (fun _ => False) (closeN P n)
  | 0 => fun w => ⟨[], by simp [closeN, Out.world], .nil, fun _ _ h => by cases h⟩
  | n + 1 => tells_connClose (tells_closeN n)

theorem tells_newStmt {E : KVs → Prop} {q : Str} {qs : List Str} : Tells E (newStmt q qs : M σ Nat) := .same (fun _ => rfl) fun _ _ _ _ _ h => h.elim
theorem tells_newRows {E : KVs → Prop} {row : Rows} : Tells E (newRowsObj row : M σ Nat) := .same (fun _ => rfl) fun _ _ _ _ _ h => h.elim
theorem tells_guardConn {E : KVs → Prop} : Tells E (guardConn : M σ _) :=
  .same (fun w => by unfold guardConn; repeat' split
                     all_goals rfl) fun w a w' h md hs => by
    unfold guardConn at h; repeat' split at h
    all_goals cases h; cases hs
theorem tells_guardStmt {E : KVs → Prop} {s : Nat} : Tells E (guardStmt s : M σ _) :=
  .same (fun w => by unfold guardStmt; repeat' split
                     all_goals rfl) fun w a w' h md hs => by
    unfold guardStmt at h; repeat' split at h
    all_goals cases h; cases hs

theorem tells_prepare {q : Str} {qs : List Str} : Tells (fun _ => False) (prepare q qs : M σ _) := by
  unfold prepare
  repeat' first | exact tells_newStmt | exact tells_guardConn | tell_step

theorem tells_stmtExecNeo (hc : Quiet close) {s : Nat} {kvs : KVs} : Tells (fun _ => False) (stmtExecNeo P close s kvs) := by
  unfold stmtExecNeo
  repeat' first | exact (tells_runAll hc).any | exact tells_guardStmt | tell_step

theorem tells_sendAll {msg : String} : ∀ l, Tells (fun _ => False) (sendAll P msg l)
  | [] => by unfold sendAll; tell_step
  | (q, ps) :: rest => by
    have ih := tells_sendAll (msg := msg) rest
    unfold sendAll
    repeat' first | exact tells_sendRunPullAll | exact ih.any | tell_step

theorem tells_collect (hc : Quiet close) : ∀ n, Tells (fun _ => False) (collect P close n)
  | 0 => by unfold collect; tell_step
  | n + 1 => by
    have ih := tells_collect hc n
    unfold collect
    repeat' first | exact (tells_consume hc).any | exact (tells_consumeAll hc).any | exact ih.any | tell_step

theorem tells_stmtExecPipeline (hc : Quiet close) {s : Nat} {l : List KVs} : Tells (fun _ => False) (stmtExecPipeline P close s l) := by
  unfold stmtExecPipeline
  repeat' first | exact (tells_sendAll _).any | exact (tells_collect hc _).any | exact tells_guardStmt | tell_step

theorem tells_stmtQueryNeo (hc : Quiet close) {s : Nat} {kvs : KVs} : Tells (fun _ => False) (stmtQueryNeo P close s kvs) := by
  unfold stmtQueryNeo
  repeat' first | exact (tells_sendRunConsume hc).any | exact tells_guardStmt | exact tells_newRows | tell_step

theorem tells_stmtQueryPipeline (hc : Quiet close) {s : Nat} {l : List KVs} : Tells (fun _ => False) (stmtQueryPipeline P close s l) := by
  unfold stmtQueryPipeline
  repeat' first | exact (tells_sendAll _).any | exact (tells_consume hc).any | exact tells_guardStmt | exact tells_newRows | tell_step

theorem tells_stmtCloseCurrent (hc : Quiet close) : Tells (fun _ => False) (queryNeo.stmtCloseCurrent P close) := by
  unfold queryNeo.stmtCloseCurrent
  repeat' first | exact (tells_stmtClose hc _).any | tell_step

theorem tells_queryNeo (hc : Quiet close) {q : Str} {kvs : KVs} : Tells (fun _ => False) (queryNeo P close q kvs) := by
  unfold queryNeo
  repeat' first | exact (tells_run hc).any | exact (tells_stmtCloseCurrent hc).any | exact tells_newStmt | exact tells_newRows | exact tells_guardConn | tell_step

theorem tells_nextNeo (hc : Quiet close) {r : Nat} : Tells (fun _ => False) (nextNeo P close r) := by
  unfold nextNeo
  repeat' first | exact tells_sendPullAll | exact (tells_consume hc).any | tell_step

theorem tells_allLoop (hc : Quiet close) {r : Nat} : ∀ f out, Tells (fun _ => False) (allLoop P close r f out)
  | 0, _ => fun w => ⟨[], by simp [allLoop, Out.world], .nil, fun _ _ h => by cases h⟩
  | f + 1, out => by
    have ih := tells_allLoop hc (r := r) f
    unfold allLoop
    repeat' first | exact (tells_nextNeo hc).any | exact (ih _).any | tell_step

theorem tells_rowsAll (hc : Quiet close) {r : Nat} : Tells (fun _ => False) (rowsAll P close r) := fun w => tells_allLoop hc _ _ w

theorem tells_queryNeoAll (hc : Quiet close) {q : Str} {kvs : KVs} : Tells (fun _ => False) (queryNeoAll P close q kvs) := by
  unfold queryNeoAll
  repeat' first | exact (tells_queryNeo hc).any | exact (tells_rowsAll hc).any | exact (tells_rowsClose hc _).any | tell_step

theorem tells_queryPipeline (hc : Quiet close) {qs : List Str} {l : List KVs} : Tells (fun _ => False) (queryPipeline P close qs l) := by
  unfold queryPipeline
  repeat' first | exact (tells_stmtQueryPipeline hc).any | exact tells_newStmt | exact tells_guardConn | tell_step

theorem tells_nextPipeline (hc : Quiet close) {r : Nat} : Tells (fun _ => False) (nextPipeline P close r) := by
  unfold nextPipeline pipeHeader
  repeat' first | exact (tells_consume hc).any | exact tells_newRows | tell_step

theorem tells_execNeo (hc : Quiet close) {q : Str} {kvs : KVs} : Tells (fun _ => False) (execNeo P close q kvs) := by
  unfold execNeo
  repeat' first | exact (tells_stmtExecNeo hc).any | exact (tells_stmtClose hc _).any | exact tells_newStmt | exact tells_guardConn | tell_step

theorem tells_execPipeline (hc : Quiet close) {qs : List Str} {l : List KVs} : Tells (fun _ => False) (execPipeline P close qs l) := by
  unfold execPipeline
  repeat' first | exact (tells_stmtExecPipeline hc).any | exact (tells_stmtClose hc _).any | exact tells_newStmt | exact tells_guardConn | tell_step

theorem tells_begin (hc : Quiet close) : Tells (fun _ => False) (begin_ P close) := by
  unfold begin_
  repeat' first | exact (tells_single hc).any | exact .same (fun _ => rfl) (fun _ _ _ h _ hs => by cases h; exact hs.elim) | tell_step

theorem Tells.except {α : Type} [Reports α] {x : M σ (Except GoErr α)} (h : Tells (fun _ => False) x) : Tells (fun _ => False) (do M.pure (exceptErr (← x)) : M σ (Option GoErr)) :=
  h.bind fun a => .pure _ fun md hs => by
    cases a with
    | error e => exact .inr hs
    | ok a => exact hs.elim

/-- Every call conforms. -/
theorem tells_op (hc : Quiet close) (op : Op) : Tells (fun _ => False) (op.run P close) := by
  cases op <;> unfold Op.run <;> simp only
  case exec => exact (tells_execNeo hc).except
  case query => exact (tells_queryNeo hc).except
  case queryAll => repeat' first | exact (tells_queryNeoAll hc).any | exact .pure _ (fun md h => .inr (.inr (.inr (.inr h)))) | tell_step
  case execPipe => exact (tells_execPipeline hc).except
  case queryPipe => exact (tells_queryPipeline hc).except
  case prepare => exact tells_prepare.except
  case preparePipe => exact tells_prepare.except
  case begin => exact (tells_begin hc).except
  case stExec => exact (tells_stmtExecNeo hc).except
  case stQuery => exact (tells_stmtQueryNeo hc).except
  case stExecPipe => exact (tells_stmtExecPipeline hc).except
  case stQueryPipe => exact (tells_stmtQueryPipeline hc).except
  case next => exact (tells_nextNeo hc).bind fun _ => .pure _ fun md h => .inr (.inr (.inr h))
  case all => exact (tells_rowsAll hc).bind fun _ => .pure _ fun md h => .inr (.inr (.inr h))
  case nextPipe => exact (tells_nextPipeline hc).bind fun _ => .pure _ fun md h => .inr h
  case closeRows => exact tells_rowsClose hc _
  case closeStmt => exact tells_stmtClose hc _
  case commit => exact tells_txFinish hc _ _
  case rollback => exact tells_txFinish hc _ _
  case close => exact tells_connClose hc
  case setChunkSize n => exact .same (fun _ => rfl) fun _ _ _ h _ hs => by cases h; exact hs.elim

end Bolt
