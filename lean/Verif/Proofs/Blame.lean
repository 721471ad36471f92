import Verif.Spec.Blame
import Verif.Proofs.Failures
import Verif.Proofs.Quiet2

/-!
A call during which the network failed returns an error whose innermost error is `driver.ErrBadConn`, and only such
calls do.
-/

namespace Bolt.Blame

variable {σ : Type}

/-- The result carries an error whose innermost error is `driver.ErrBadConn`. -/
class Blamed (α : Type) where
  bad : α → Prop
export Blamed (bad)

instance (priority := low) plain {α : Type} : Blamed α := ⟨fun _ => False⟩
instance : Blamed GoErr := ⟨fun e => e.isBadConn = true⟩
instance {α : Type} [Blamed α] : Blamed (Option α) := ⟨fun | none => False | some a => bad a⟩
instance {α β : Type} [Blamed α] [Blamed β] : Blamed (α × β) := ⟨fun x => bad x.1 ∨ bad x.2⟩
instance {α : Type} [Blamed α] : Blamed (Except GoErr α) := ⟨fun | .error e => bad e | .ok a => bad a⟩
instance : Blamed PipeRes := ⟨fun x => bad x.err⟩

@[simp] theorem bad_plain {α : Type} (a : α) : @bad α plain a ↔ False := Iff.rfl
@[simp] theorem bad_none {α : Type} [Blamed α] : bad (none : Option α) ↔ False := Iff.rfl
@[simp] theorem bad_some {α : Type} [Blamed α] (a : α) : bad (some a) ↔ bad a := Iff.rfl
@[simp] theorem bad_pair {α β : Type} [Blamed α] [Blamed β] (a : α) (b : β) : bad (a, b) ↔ bad a ∨ bad b := Iff.rfl
@[simp] theorem bad_prod {α β : Type} [Blamed α] [Blamed β] (x : α × β) : bad x ↔ bad x.1 ∨ bad x.2 := Iff.rfl
@[simp] theorem bad_error {α : Type} [Blamed α] (e : GoErr) : bad (.error e : Except GoErr α) ↔ bad e := Iff.rfl
@[simp] theorem bad_ok {α : Type} [Blamed α] (a : α) : bad (.ok a : Except GoErr α) ↔ bad a := Iff.rfl
@[simp] theorem bad_pipe (a : Option (List Val)) (b : Option KVs) (c : Option Nat) (d : Option GoErr) : bad (PipeRes.mk a b c d) ↔ bad d := Iff.rfl
@[simp] theorem bad_wrap (m : String) (e : GoErr) : bad (GoErr.wrap m (some e)) ↔ bad e := Iff.rfl
@[simp] theorem bad_new (m : String) : bad (GoErr.new m) ↔ False := ⟨fun h => (by cases h), False.elim⟩
@[simp] theorem bad_eof : bad GoErr.eof ↔ False := ⟨fun h => (by cases h), False.elim⟩
@[simp] theorem bad_failure (md : KVs) : bad (GoErr.failure md) ↔ False := ⟨fun h => (by cases h), False.elim⟩
@[simp] theorem bad_badConn : bad GoErr.badConn ↔ True := ⟨fun _ => trivial, fun _ => rfl⟩
@[simp] theorem bad_kvs (o : Option KVs) : bad o ↔ False := by cases o <;> exact Iff.rfl
@[simp] theorem bad_nat (o : Option Nat) : bad o ↔ False := by cases o <;> exact Iff.rfl
@[simp] theorem bad_row (o : Option (List Val)) : bad o ↔ False := by cases o <;> exact Iff.rfl

theorem netErr_append {a b : List Event} : NetErr (a ++ b) ↔ NetErr a ∨ NetErr b := by
  simp only [NetErr, List.mem_append, or_and_right, exists_or]

theorem _root_.Bolt.RefusedReset.left {a : List Event} (b : List Event) (h : RefusedReset a) : RefusedReset (a ++ b) := by
  obtain ⟨l1, ig, md, l2, rfl, h⟩ := h
  exact ⟨l1, ig, md, l2 ++ b, by simp, h⟩
theorem _root_.Bolt.RefusedReset.right {b : List Event} (a : List Event) (h : RefusedReset b) : RefusedReset (a ++ b) := by
  obtain ⟨l1, ig, md, l2, rfl, h⟩ := h
  exact ⟨a ++ l1, ig, md, l2, by simp, h⟩
theorem _root_.Bolt.StrangeAnswer.left {a : List Event} (b : List Event) (h : StrangeAnswer a) : StrangeAnswer (a ++ b) := by
  obtain ⟨l1, m, ig, v, l2, rfl, h⟩ := h
  exact ⟨l1, m, ig, v, l2 ++ b, by simp, h⟩
theorem _root_.Bolt.StrangeAnswer.right {b : List Event} (a : List Event) (h : StrangeAnswer b) : StrangeAnswer (a ++ b) := by
  obtain ⟨l1, m, ig, v, l2, rfl, h⟩ := h
  exact ⟨a ++ l1, m, ig, v, l2, by simp, h⟩

/-- In state `w`: when the network fails, or `E` holds, the result says so, unless RESET was refused or `D` holds; when
the result says so, `E` holds, or the network failed, or there was a strange answer. -/
def At {α : Type} [Blamed α] (D E : Prop) (x : M σ α) (w : World σ) : Prop := ∃ l, (x w).world.log = w.log ++ l ∧
  ∀ a w', x w = .ok a w' → (E ∨ NetErr l → bad a ∨ RefusedReset l ∨ D) ∧ (bad a → E ∨ NetErr l ∨ StrangeAnswer l)

/-- In every state. -/
def Blames {α : Type} [Blamed α] (D E : Prop) (x : M σ α) : Prop := ∀ w, At D E x w

/-- Likewise, when there may also be another reason `C`, in the state after the call, for such a result. -/
def AtC {α : Type} [Blamed α] (C : World σ → Prop) (D E : Prop) (x : M σ α) (w : World σ) : Prop := ∃ l, (x w).world.log = w.log ++ l ∧
  ∀ a w', x w = .ok a w' → (E ∨ NetErr l → bad a ∨ RefusedReset l ∨ D) ∧ (bad a → E ∨ NetErr l ∨ StrangeAnswer l ∨ C w')

theorem At.bindC {α β : Type} [Blamed α] [Blamed β] {C : World σ → Prop} {D E : Prop} {x : M σ α} {f : α → M σ β} {w : World σ} (h : At D False x w)
    (hf : ∀ a w1, x w = .ok a w1 → AtC C D (E ∨ bad a) (f a) w1) : AtC C D E (x >>= f) w := by
  obtain ⟨l, h1, h2⟩ := h
  unfold AtC
  rw [mbind_run]
  cases hx : x w with
  | ok a w' =>
    rw [hx] at h1
    obtain ⟨l', h4, h5⟩ := hf a w' hx
    obtain ⟨h6, h7⟩ := h2 a w' hx
    refine ⟨l ++ l', by rw [h4, show w'.log = _ from h1, List.append_assoc], fun b w2 hb => ?_⟩
    obtain ⟨h8, h9⟩ := h5 b w2 hb
    rw [netErr_append]
    constructor
    · intro he
      have next : (E ∨ bad a) ∨ NetErr l' → bad b ∨ RefusedReset (l ++ l') ∨ D := fun h => (h8 h).imp id fun h => h.imp (·.right _) id
      rcases he with he | he | he
      · exact next (.inl (.inl he))
      · rcases h6 (.inr he) with h | h | h
        · exact next (.inl (.inr h))
        · exact .inr (.inl (h.left _))
        · exact .inr (.inr h)
      · exact next (.inr he)
    · intro hb
      rcases h9 hb with (h | h) | h | h | h
      · exact .inl h
      · rcases h7 h with h | h | h
        · exact h.elim
        · exact .inr (.inl (.inl h))
        · exact .inr (.inr (.inl (h.left _)))
      · exact .inr (.inl (.inr h))
      · exact .inr (.inr (.inl (h.right _)))
      · exact .inr (.inr (.inr h))
  | panic p w' => rw [hx] at h1; exact ⟨l, h1, fun _ _ h => by cases h⟩
  | deep w' => rw [hx] at h1; exact ⟨l, h1, fun _ _ h => by cases h⟩

theorem atC_iff {α : Type} [Blamed α] {D E : Prop} {x : M σ α} {w : World σ} : AtC (fun _ => False) D E x w ↔ At D E x w := by
  simp [AtC, At]

theorem At.bind {α β : Type} [Blamed α] [Blamed β] {D E : Prop} {x : M σ α} {f : α → M σ β} {w : World σ} (h : At D False x w)
    (hf : ∀ a w1, x w = .ok a w1 → At D (E ∨ bad a) (f a) w1) : At D E (x >>= f) w :=
  atC_iff.1 (h.bindC fun a w1 hx => atC_iff.2 (hf a w1 hx))

theorem At.toC {α : Type} [Blamed α] {C : World σ → Prop} {D E : Prop} {x : M σ α} {w : World σ} (h : At D E x w) : AtC C D E x w := by
  obtain ⟨l, h1, h2⟩ := h
  exact ⟨l, h1, fun a w' ha => ⟨(h2 a w' ha).1, fun h => ((h2 a w' ha).2 h).imp id fun h => h.imp id .inl⟩⟩

theorem Blames.bind {α β : Type} [Blamed α] [Blamed β] {D E : Prop} {x : M σ α} {f : α → M σ β} (h : Blames D False x)
    (hf : ∀ a, Blames D (E ∨ bad a) (f a)) : Blames D E (x >>= f) := fun w => (h w).bind fun a w1 _ => hf a w1

theorem not_netErr_nil : ¬ NetErr [] := fun ⟨_, h, _⟩ => by cases h

theorem At.same {α : Type} [Blamed α] {D E : Prop} {x : M σ α} {w : World σ} (h : (x w).world.log = w.log)
    (hs : ∀ a w', x w = .ok a w' → (bad a ↔ E)) : At D E x w :=
  ⟨[], by rw [h, List.append_nil], fun a w' ha => ⟨fun h => .inl ((hs a w' ha).2 (h.elim id fun h => (not_netErr_nil h).elim)), fun h => .inl ((hs a w' ha).1 h)⟩⟩

theorem Blames.same {α : Type} [Blamed α] {D E : Prop} {x : M σ α} (h : ∀ w, (x w).world.log = w.log)
    (hs : ∀ w a w', x w = .ok a w' → (bad a ↔ E)) : Blames D E x := fun w => .same (h w) (hs w)

theorem Blames.pure {α : Type} [Blamed α] {D E : Prop} (a : α) (h : bad a ↔ E) : Blames D E (M.pure a : M σ α) :=
  .same (fun _ => rfl) fun _ _ _ ha => by cases ha; exact h
theorem Blames.panic {α : Type} [Blamed α] {D E : Prop} (p : Panic) : Blames D E (M.panic p : M σ α) := .same (fun _ => rfl) fun _ _ _ ha => by cases ha
theorem Blames.modify {D : Prop} {f : World σ → World σ} (h : ∀ w, (f w).log = w.log) : Blames D False (M.modify f) :=
  .same h fun _ _ _ _ => Iff.rfl
theorem Blames.get {α : Type} [Blamed α] {D : Prop} {f : World σ → α} (h : ∀ a : α, bad a ↔ False) : Blames D False (M.get f) :=
  .same (fun _ => rfl) fun _ _ _ _ => h _

theorem Blames.withConn {α : Type} [Blamed α] {D E : Prop} {s : Nat} {k : M σ α} (h : Blames D E k) : Blames D E (Bolt.withConn s k) := by
  intro w
  unfold At Bolt.withConn
  split
  · exact h w
  · exact ⟨[], by simp [Out.world], fun _ _ h => by cases h⟩

theorem Blames.ite {α : Type} [Blamed α] {D E : Prop} {c : Prop} [Decidable c] {x y : M σ α} (hx : c → Blames D E x) (hy : ¬ c → Blames D E y) : Blames D E (if c then x else y) := by
  split
  · exact hx ‹_›
  · exact hy ‹_›

/-- Without anything owed, anywhere. -/
theorem Blames.to {α : Type} [Blamed α] {D E E' : Prop} {x : M σ α} (h : Blames D E x) (he : E ↔ E') : Blames D E' x := by
  rw [← propext he]; exact h

variable {P : Peer σ}

theorem Blames.send {D : Prop} {v : Val} : Blames D False (Bolt.send P v) := fun w =>
  ⟨_, rfl, fun a w' ha => by
    cases ha
    cases he : (encodeTo w.chunkSize w.sink v).2 with
    | none =>
      refine ⟨fun h => ?_, fun h => h.elim⟩
      obtain ⟨x, hx, hb⟩ := h.resolve_left id
      obtain rfl := List.mem_singleton.1 hx
      cases hb
    | some e =>
      refine ⟨fun h => .inl ?_, fun h => .inr (.inl ⟨_, List.mem_singleton.2 rfl, h⟩)⟩
      obtain ⟨x, hx, hb⟩ := h.resolve_left id
      obtain rfl := List.mem_singleton.1 hx
      exact hb⟩

/-- The error of a read. -/
theorem read_bad {i : Item} {x : Val × Option GoErr} (hx : match i with | .val v => x = (v, none) | .bad e half => x = (if half then .success [] else .nil, some e) | .boom _ => False | .ioerr => x = (.nil, some (readErr .badConn)) | .eof => x = (.nil, some (readErr .eof))) :
    bad x ↔ (Event.recv i).netErr = true := by
  cases i with
  | val v => subst hx; simp [Event.netErr]
  | bad e half => subst hx; simp [Event.netErr]; exact Iff.rfl
  | boom _ => cases hx
  | ioerr => subst hx; simp [Event.netErr, readErr]
  | eof => subst hx; simp [Event.netErr, readErr]

theorem recv_run (w : World σ) : ∃ i, (recv P w).world.log = w.log ++ [.recv i] ∧
    ∀ x w', recv P w = .ok x w' → match i with | .val v => x = (v, none) | .bad e half => x = (if half then .success [] else .nil, some e) | .boom _ => False | .ioerr => x = (.nil, some (readErr .badConn)) | .eof => x = (.nil, some (readErr .eof)) := by
  refine ⟨nextItem P w, ?_, ?_⟩
  · unfold recv
    simp only
    split <;> simp [Out.world, *]
  · intro x w' hx
    unfold recv at hx
    simp only at hx
    split at hx <;> cases hx <;> simp [*]

theorem netErr_one (e : Event) : NetErr [e] ↔ e.netErr = true := by simp [NetErr]
theorem netErr_cons (e : Event) (l : List Event) : NetErr (e :: l) ↔ e.netErr = true ∨ NetErr l := by simp [NetErr]

theorem Blames.recv {D : Prop} : Blames D False (Bolt.recv P) := fun w => by
  obtain ⟨i, h1, h2⟩ := recv_run (P := P) w
  refine ⟨_, h1, fun a w' ha => ?_⟩
  rw [netErr_one, read_bad (h2 a w' ha)]
  exact ⟨fun h => .inl (h.resolve_left id), fun h => .inr (.inl h)⟩

theorem not_netErr_ignored {ig : List Event} (h : OnlyIgnored ig) : ¬ NetErr ig := fun ⟨x, hx, hb⟩ => by
  rw [h x hx] at hb; cases hb

variable {close : M σ (Option GoErr)}

/-- Closing adds to the log. -/
def Logs (close : M σ (Option GoErr)) : Prop := ∀ w, ∃ l, (close w).world.log = w.log ++ l

theorem close_log (hc : Logs close) (w : World σ) (res : Option GoErr) :
    ∃ l, ((close >>= fun _ => M.pure res) w : Out σ (Option GoErr)).world.log = w.log ++ l := by
  obtain ⟨l, h1⟩ := hc w
  refine ⟨l, ?_⟩
  rw [mbind_run]
  cases h : close w <;> rw [h] at h1 <;> exact h1

/-- Sending ACK_FAILURE or RESET and reading the answer. -/
theorem ask {D : Prop} {m : Val} {k1 : GoErr → M σ (Option GoErr)} {k2 : Val × Option GoErr → M σ (Option GoErr)} (hk1 : ∀ e, ∃ t, k1 e = M.pure (some (.wrap t (some e))))
    (hk2 : ∀ v e, ∃ t, k2 (v, some e) = M.pure (some (.wrap t (some e))))
    (hk3 : ∀ v ig w, OnlyIgnored ig → (Item.val v).isIgnored = false → ∃ l, (k2 (v, none) w).world.log = w.log ++ l ∧ ∀ a w', k2 (v, none) w = .ok a w' →
      (NetErr l → bad a ∨ RefusedReset (.send m none :: (ig ++ .recv (.val v) :: l)) ∨ D) ∧ (bad a → NetErr l ∨ StrangeAnswer (.send m none :: (ig ++ .recv (.val v) :: l)))) :
    Blames D False (do match ← send P m with
      | some e => k1 e
      | none => do skipIgnored; k2 (← recv P)) := by
  intro w
  unfold At
  obtain ⟨e, w1, hs, hl1, -⟩ := send_run (P := P) m w
  rw [mbind_ok hs]
  cases e with
  | some e =>
    obtain ⟨t, ht⟩ := hk1 e
    simp only [ht]
    refine ⟨[.send m (some e)], by simp [Out.world, M.pure, hl1], fun x w' hx => ?_⟩
    cases hx
    rw [netErr_one]
    exact ⟨fun h => .inl (h.resolve_left id), fun h => .inr (.inl h)⟩
  | none =>
    obtain ⟨ig, i, w2, hig, hi, hsk, hl2, hx, hboom⟩ := skip_recv (P := P) w1
    simp only
    rw [mbind_ok hsk]
    have hlog : (recv P w2).world.log = w.log ++ .send m none :: (ig ++ [.recv i]) := by rw [hl2, hl1]; simp
    rw [mbind_run]
    cases hr : recv P w2 with
    | panic p w3 => rw [hr] at hlog; exact ⟨_, hlog, fun _ _ h => by cases h⟩
    | deep w3 => rw [hr] at hlog; exact ⟨_, hlog, fun _ _ h => by cases h⟩
    | ok x w3 =>
      rw [hr] at hlog
      change w3.log = _ at hlog
      have hx := hx x w3 hr
      obtain ⟨v, e⟩ := x
      cases e with
      | some e =>
        obtain ⟨t, ht⟩ := hk2 v e
        simp only [ht]
        refine ⟨_, hlog, fun x w' h => ?_⟩
        cases h
        have hb := read_bad hx
        simp only [bad_pair, bad_plain, bad_some, false_or] at hb
        have h0 := not_netErr_ignored hig
        rw [netErr_cons, netErr_append, netErr_one]
        simp only [bad_some, bad_wrap, hb]
        exact ⟨fun h => .inl (by simpa [Event.netErr, h0] using h), fun h => .inr (.inl (.inr (.inr h)))⟩
      | none =>
        obtain rfl := val_read hx
        obtain ⟨l, h1, h2⟩ := hk3 v ig w3 hig hi
        refine ⟨.send m none :: (ig ++ .recv (.val v) :: l), by rw [h1, hlog]; simp, fun a w' ha => ?_⟩
        obtain ⟨h3, h4⟩ := h2 a w' ha
        have h0 := not_netErr_ignored hig
        have h5 : NetErr (.send m none :: (ig ++ .recv (.val v) :: l)) ↔ NetErr l := by
          rw [netErr_cons, netErr_append, netErr_cons]; simp [Event.netErr, h0]
        rw [h5]
        exact ⟨fun h => h3 (h.resolve_left id), fun h => .inr (h4 h)⟩

theorem netErr_nil : NetErr [] ↔ False := ⟨not_netErr_nil, False.elim⟩

/-- Closing, whose error is dropped. -/
theorem closing (hc : Logs close) {D : Prop} {m v : Val} {ig : List Event} (hig : OnlyIgnored ig) (w : World σ) {w0 : World σ} (hw : w.log = w0.log) (res : GoErr)
    (h1 : bad res ∨ (m = .reset ∧ ∃ md, v = .failure md)) (h2 : bad res → (m = .ackFailure ∨ m = .reset) ∧ v.isAnswer = false) :
    ∃ l, ((close >>= fun _ => M.pure (some res)) w : Out σ (Option GoErr)).world.log = w0.log ++ l ∧ ∀ a w', (close >>= fun _ => M.pure (some res)) w = .ok a w' →
      (NetErr l → bad a ∨ RefusedReset (.send m none :: (ig ++ .recv (.val v) :: l)) ∨ D) ∧ (bad a → NetErr l ∨ StrangeAnswer (.send m none :: (ig ++ .recv (.val v) :: l))) := by
  obtain ⟨l, h⟩ := close_log hc w (some res)
  rw [hw] at h
  refine ⟨l, h, fun a w' ha => ?_⟩
  obtain ⟨_, _, _, ha⟩ := run_inv ha
  cases ha
  constructor
  · intro _
    rcases h1 with h1 | ⟨rfl, md, rfl⟩
    · exact .inl h1
    · exact .inr (.inl ⟨[], ig, md, l, rfl, hig⟩)
  · intro hb
    exact .inr ⟨[], m, ig, v, l, rfl, hig, h2 hb⟩

theorem done {D : Prop} {m v : Val} {ig : List Event} (w : World σ) : ∃ l, ((M.pure none : M σ (Option GoErr)) w).world.log = w.log ++ l ∧ ∀ a w', (M.pure none : M σ (Option GoErr)) w = .ok a w' →
      (NetErr l → bad a ∨ RefusedReset (.send m none :: (ig ++ .recv (.val v) :: l)) ∨ D) ∧ (bad a → NetErr l ∨ StrangeAnswer (.send m none :: (ig ++ .recv (.val v) :: l))) :=
  ⟨[], by simp [M.pure, Out.world], fun a w' ha => by cases ha; simp [netErr_nil]⟩

theorem blames_reset (hc : Logs close) {D : Prop} : Blames D False (reset P close) := by
  unfold reset
  refine ask (k2 := fun x => match x with
    | (_, some e) => M.pure (some (.wrap "An error occurred decoding reset message response" (some e)))
    | (.success _, none) => M.pure none
    | (.failure md, none) => do
      let _ ← close
      M.pure (some (.wrap "Error resetting session. CLOSING SESSION!" (some (.failure md))))
    | (_, none) => do
      M.modify fun w => { w with connErr := true }
      let _ ← close
      M.pure (some .badConn)) (fun e => ⟨_, rfl⟩) (fun v e => ⟨_, rfl⟩) fun v ig w hig hi => ?_
  cases v with
  | success md => exact done w
  | failure md => exact closing hc hig w rfl _ (.inr ⟨rfl, md, rfl⟩) (by simp)
  | ignored => cases hi
  | _ => exact closing hc hig { w with connErr := true } rfl .badConn (.inl rfl) (fun _ => ⟨.inr rfl, rfl⟩)

theorem blames_ack (hc : Logs close) {D : Prop} : Blames D False (ackFailure P close) := by
  unfold ackFailure
  refine ask (k2 := fun x => match x with
    | (_, some e) => M.pure (some (.wrap "An error occurred decoding ack failure message response" (some e)))
    | (.success _, none) => M.pure none
    | (.failure _, none) => reset P close
    | (_, none) => do
      M.modify fun w => { w with connErr := true }
      let _ ← close
      M.pure (some .badConn)) (fun e => ⟨_, rfl⟩) (fun v e => ⟨_, rfl⟩) fun v ig w hig hi => ?_
  cases v with
  | success md => exact done w
  | failure md =>
    obtain ⟨l, h1, h2⟩ := blames_reset (P := P) hc (D := D) w
    refine ⟨l, h1, fun a w' ha => ?_⟩
    obtain ⟨h3, h4⟩ := h2 a w' ha
    constructor
    · exact fun h => (h3 (.inr h)).imp id fun h => h.imp (fun h => by have := h.right (.send .ackFailure none :: (ig ++ [.recv (.val (.failure md))])); rwa [List.cons_append, List.append_assoc] at this) id
    · exact fun h => ((h4 h).resolve_left id).imp id (fun h => by have := h.right (.send .ackFailure none :: (ig ++ [.recv (.val (.failure md))])); rwa [List.cons_append, List.append_assoc] at this)
  | ignored => cases hi
  | _ => exact closing hc hig { w with connErr := true } rfl .badConn (.inl rfl) (fun _ => ⟨.inl rfl, rfl⟩)

/-! ## The calls -/

theorem isEOF_bad {e : GoErr} (h : e.isEOF = true) : ¬ bad e := by
  cases e <;> first | (simp; done) | cases h

macro "blame_step" : tactic => `(tactic| first
  | exact Blames.pure _ (by first | (simp; done) | (simp; apply isEOF_bad; assumption) | (simp_all; done))
  | exact Blames.get (by first | exact fun _ => Iff.rfl | (intro a; simp; done))
  | exact Blames.panic _ | exact Blames.send | exact Blames.recv | exact Blames.modify (fun _ => rfl)
  | apply Blames.withConn
  | refine Blames.bind ?_ (fun _ => ?_)
  | refine Blames.ite (fun _ => ?_) (fun _ => ?_)
  | split)

variable {D : Prop}

/-- Used in what follows: nothing is owed yet. -/
theorem Blames.any {α : Type} [Blamed α] {E : Prop} {x : M σ α} (h : Blames D False x) (he : ¬ E) : Blames D E x := h.to ⟨False.elim, he⟩

theorem blames_consume (hc : Logs close) : Blames D False (consume P close) := by
  unfold consume
  repeat' first | exact (blames_ack hc) | blame_step

theorem blames_sendRun {q : Str} {kvs : KVs} : Blames D False (sendRun P q kvs) := by unfold sendRun; repeat' blame_step
theorem blames_sendPullAll : Blames D False (sendPullAll P) := by unfold sendPullAll; repeat' blame_step
theorem blames_sendDiscardAll : Blames D False (sendDiscardAll P) := by unfold sendDiscardAll; repeat' blame_step

theorem blames_consumeAll (hc : Logs close) : Blames D False (consumeAll P close) := by
  intro w
  unfold At consumeAll
  simp only
  have h : Blames D False (consume P close >>= fun
    | (r, some e) => M.pure ([], r, some e)
    | (r, none) => M.pure ((w.inbox.takeWhile Item.isPlain).map Item.value, r, none)) := by
    repeat' first | exact (blames_consume hc) | blame_step
  obtain ⟨l, h1, h2⟩ := h { w with inbox := w.inbox.dropWhile Item.isPlain, log := w.log ++ (w.inbox.takeWhile Item.isPlain).map .recv }
  refine ⟨(w.inbox.takeWhile Item.isPlain).map .recv ++ l, h1.trans (by simp), fun a w' ha => ?_⟩
  obtain ⟨h3, h4⟩ := h2 a w' ha
  have h0 : ¬ NetErr ((w.inbox.takeWhile Item.isPlain).map .recv) := by
    rintro ⟨x, hx, hb⟩
    obtain ⟨i, hi, rfl⟩ := List.mem_map.1 hx
    have : i.isPlain = true := by simpa using List.all_eq_true.1 List.all_takeWhile i hi
    cases i with
    | val v => cases hb
    | _ => cases this
  rw [netErr_append]
  exact ⟨fun h => (h3 (h.imp id fun h => h.resolve_left h0)).imp id fun h => h.imp (·.right _) id,
    fun h => (h4 h).imp id fun h => h.imp .inr (·.right _)⟩

theorem blames_multiple (hc : Logs close) : ∀ n, Blames D False (consumeAllMultiple P close n)
  | 0 => by unfold consumeAllMultiple; blame_step
  | n + 1 => by
    have ih := blames_multiple hc n
    unfold consumeAllMultiple
    repeat' first | exact (blames_consumeAll hc) | exact ih.any (by simp) | blame_step

theorem blames_sendRunConsume (hc : Logs close) {q : Str} {kvs : KVs} : Blames D False (sendRunConsume P close q kvs) := by
  unfold sendRunConsume
  repeat' first | exact blames_sendRun | exact (blames_consume hc).any (by simp) | blame_step
theorem blames_discard (hc : Logs close) : Blames D False (sendDiscardAllConsume P close) := by
  unfold sendDiscardAllConsume
  repeat' first | exact blames_sendDiscardAll | exact (blames_consume hc).any (by simp) | blame_step
theorem blames_sendRunPullAll {q : Str} {kvs : KVs} : Blames D False (sendRunPullAll P q kvs) := by
  unfold sendRunPullAll
  repeat' first | exact blames_sendRun | exact blames_sendPullAll.any (by simp) | blame_step
theorem blames_run (hc : Logs close) {q : Str} {kvs : KVs} : Blames D False (sendRunPullAllConsumeRun P close q kvs) := by
  unfold sendRunPullAllConsumeRun
  repeat' first | exact blames_sendRunPullAll | exact (blames_consume hc).any (by simp) | blame_step
theorem blames_single (hc : Logs close) {q : Str} {kvs : KVs} : Blames D False (sendRunPullAllConsumeSingle P close q kvs) := by
  unfold sendRunPullAllConsumeSingle
  repeat' first | exact blames_sendRunPullAll | exact (blames_consume hc).any (by simp) | blame_step
theorem blames_runAll (hc : Logs close) {q : Str} {kvs : KVs} : Blames D False (sendRunPullAllConsumeAll P close q kvs) := by
  unfold sendRunPullAllConsumeAll
  repeat' first | exact blames_sendRunPullAll | exact (blames_consume hc).any (by simp) | exact (blames_consumeAll hc).any (by simp) | blame_step

theorem blames_drain (hc : Logs close) (r : Nat) : Blames D False (rowsDrain P close r) := by
  intro w
  have h1 := blames_discard (P := P) (D := D) hc
  have h2 := blames_multiple (P := P) (D := D) hc
  unfold At rowsDrain
  simp only
  split
  · exact (show Blames D False (_ : M σ (Option GoErr)) by repeat' first | exact h1 | blame_step) w
  · split
    · refine (show Blames D False (_ : M σ (Option GoErr)) from ?_) w
      have h3 := h2 (numConsume (w.stmt (w.row r).stmt).queries.length (w.row r).idx).toNat
      repeat' first | exact h3 | blame_step
    · exact ⟨[], by simp [Out.world], fun a w' ha => by cases ha; simp [netErr_nil]⟩

theorem blames_mark (r : Nat) : Blames D False (rowsMark r : M σ Unit) := Blames.modify (fun _ => rfl)

theorem blames_rowsClose0 (hc : Logs close) (r : Nat) : Blames D False (rowsClose0 P close r) := by
  unfold rowsClose0
  repeat' first | exact (blames_drain hc r) | exact blames_mark r | blame_step

theorem blames_stmtMark (s : Nat) : Blames D False (stmtMark s : M σ Unit) :=
  .same (fun w => by unfold stmtMark; split <;> rfl) fun _ _ _ _ => Iff.rfl

theorem blames_stmtClose (hc : Logs close) (s : Nat) : Blames D False (stmtClose P close s) := by
  unfold stmtClose
  repeat' first | exact (blames_rowsClose0 hc _).any (by simp) | exact blames_stmtMark _ | blame_step

theorem blames_rowsClose (hc : Logs close) (r : Nat) : Blames D False (rowsClose P close r) := by
  unfold rowsClose
  repeat' first | exact (blames_drain hc r) | exact blames_mark r | exact (blames_stmtClose hc _).any (by simp) | blame_step

theorem blames_txFinish (hc : Logs close) (q : Str) (t : Nat) : Blames D False (txFinish P close q t) := by
  unfold txFinish
  repeat' first | exact (blames_stmtClose hc _).any (by simp) | exact (blames_single hc) | blame_step

theorem blames_newStmt {q : Str} {qs : List Str} : Blames D False (newStmt q qs : M σ Nat) := .same (fun _ => rfl) fun _ _ _ _ => Iff.rfl
theorem blames_newRows {row : Rows} : Blames D False (newRowsObj row : M σ Nat) := .same (fun _ => rfl) fun _ _ _ _ => Iff.rfl
theorem blames_guardConn : Blames D False (guardConn : M σ _) :=
  .same (fun w => by unfold guardConn; repeat' split
                     all_goals rfl) fun w a w' h => by
    unfold guardConn at h; repeat' split at h
    all_goals cases h; simp
theorem blames_guardStmt {s : Nat} : Blames D False (guardStmt s : M σ _) :=
  .same (fun w => by unfold guardStmt; repeat' split
                     all_goals rfl) fun w a w' h => by
    unfold guardStmt at h; repeat' split at h
    all_goals cases h; simp

theorem blames_prepare {q : Str} {qs : List Str} : Blames D False (prepare q qs : M σ _) := by
  unfold prepare
  repeat' first | exact blames_newStmt | exact blames_guardConn | blame_step

theorem blames_stmtExecNeo (hc : Logs close) {s : Nat} {kvs : KVs} : Blames D False (stmtExecNeo P close s kvs) := by
  unfold stmtExecNeo
  repeat' first | exact (blames_runAll hc) | exact blames_guardStmt | blame_step

theorem blames_sendAll {msg : String} : ∀ l, Blames D False (sendAll P msg l)
  | [] => by unfold sendAll; blame_step
  | (q, ps) :: rest => by
    have ih := blames_sendAll (msg := msg) rest
    unfold sendAll
    repeat' first | exact blames_sendRunPullAll | exact ih.any (by simp) | blame_step

theorem blames_collect (hc : Logs close) : ∀ n, Blames D False (collect P close n)
  | 0 => by unfold collect; blame_step
  | n + 1 => by
    have ih := blames_collect hc n
    unfold collect
    repeat' first | exact (blames_consume hc) | exact (blames_consumeAll hc) | exact ih | blame_step

theorem blames_stmtExecPipeline (hc : Logs close) {s : Nat} {l : List KVs} : Blames D False (stmtExecPipeline P close s l) := by
  unfold stmtExecPipeline
  repeat' first | exact (blames_sendAll _) | exact (blames_collect hc _).any (by simp) | exact blames_guardStmt | blame_step

theorem blames_stmtQueryNeo (hc : Logs close) {s : Nat} {kvs : KVs} : Blames D False (stmtQueryNeo P close s kvs) := by
  unfold stmtQueryNeo
  repeat' first | exact (blames_sendRunConsume hc) | exact blames_guardStmt | exact blames_newRows | blame_step

theorem blames_stmtQueryPipeline (hc : Logs close) {s : Nat} {l : List KVs} : Blames D False (stmtQueryPipeline P close s l) := by
  unfold stmtQueryPipeline
  repeat' first | exact (blames_sendAll _) | exact (blames_consume hc) | exact blames_guardStmt | exact blames_newRows | blame_step

theorem blames_nextNeo (hc : Logs close) {r : Nat} : Blames D False (nextNeo P close r) := by
  unfold nextNeo
  repeat' first | exact blames_sendPullAll | exact (blames_consume hc) | blame_step

theorem blames_allLoop (hc : Logs close) {r : Nat} : ∀ f out, Blames D False (allLoop P close r f out)
  | 0, _ => fun w => ⟨[], by simp [allLoop, Out.world], fun _ _ h => by cases h⟩
  | f + 1, out => by
    have ih := blames_allLoop hc (r := r) f
    unfold allLoop
    refine Blames.bind (blames_nextNeo hc) (fun _ => ?_)
    split
    · exact (ih _).any (by simp)
    · refine Blames.ite (fun h => ?_) (fun _ => ?_)
      · exact .pure _ (by simp [isEOF_bad h])
      · exact .pure _ (by simp)
    · blame_step

theorem blames_rowsAll (hc : Logs close) {r : Nat} : Blames D False (rowsAll P close r) := fun w => blames_allLoop hc _ _ w

theorem blames_queryPipeline (hc : Logs close) {qs : List Str} {l : List KVs} : Blames D False (queryPipeline P close qs l) := by
  unfold queryPipeline
  repeat' first | exact (blames_stmtQueryPipeline hc) | exact blames_newStmt | exact blames_guardConn | blame_step

theorem blames_nextPipeline (hc : Logs close) {r : Nat} : Blames D False (nextPipeline P close r) := by
  unfold nextPipeline pipeHeader
  repeat' first | exact (blames_consume hc) | exact blames_newRows | blame_step

theorem blames_begin (hc : Logs close) : Blames D False (begin_ P close) := by
  unfold begin_
  repeat' first | exact (blames_single hc) | exact .same (fun _ => rfl) (fun _ _ _ h => by cases h; simp) | blame_step

/-- A call and another one that exchanges nothing and whose result is dropped. -/
theorem At.quietly {α β : Type} [Blamed β] {E : Prop} {y : M σ α} {f : α → M σ β} {w : World σ} (hy : (y w).world.log = w.log) (hf : ∀ a w1, At D E (f a) w1) :
    At D E (y >>= f) w := by
  unfold At
  rw [mbind_run]
  cases hx : y w with
  | ok a w' =>
    rw [hx] at hy
    obtain ⟨l, h1, h2⟩ := hf a w'
    exact ⟨l, by rw [h1]; exact congrArg (· ++ l) hy, h2⟩
  | panic p w' => rw [hx] at hy; exact ⟨[], by rw [List.append_nil]; exact hy, fun _ _ h => by cases h⟩
  | deep w' => rw [hx] at hy; exact ⟨[], by rw [List.append_nil]; exact hy, fun _ _ h => by cases h⟩

/-- A statement without rows exchanges nothing when it is closed. -/
theorem close_quiet {s : Nat} {w : World σ} (h : (w.stmt s).rows = none) : (stmtClose P close s w).world.log = w.log := by
  rw [stmtClose_def]
  split
  · rfl
  · have h1 : stmtCloseRows P close s w = .ok none w := by
      unfold stmtCloseRows
      refine (mbind_ok (a := none) (w' := w) ?_).trans rfl
      change Out.ok (w.stmt s).rows w = _
      rw [h]
    rw [mbind_ok h1]
    simp only
    rw [mbind_run]
    have h2 : (stmtMark s w).world.log = w.log := by unfold stmtMark; split <;> rfl
    cases h3 : stmtMark s w <;> rw [h3] at h2 <;> exact h2

/-- Run on a statement of its own, then close that. -/
theorem blames_temp {γ : Type} [Blamed γ] {f : Nat → M σ (Except GoErr γ)} (q : Str) (qs : List Str) (w : World σ) (hs : Sound w) (hn : w.statement = none)
    (hi : ∀ w1, Inner (f w.stmts.length) w1) (h : Blames D False (f w.stmts.length)) :
    At D False (newStmt q qs >>= fun s => f s >>= fun res => stmtClose P close s >>= fun _ => M.pure res) w := by
  refine (blames_newStmt w).bind fun s w1 h1 => ?_
  cases h1
  refine (h _).bind fun res w2 h2 => ?_
  have hi1 := (hi _).int (sound_withStmt hs hn q qs) h2
  have hr := hi1.srows w.stmts.length (by simp [World.stmt])
  exact At.quietly (close_quiet hr) fun _ w3 => Blames.pure _ (by simp) w3

theorem At.to {α : Type} [Blamed α] {E E' : Prop} {x : M σ α} {w : World σ} (h : At D E x w) (he : E ↔ E') : At D E' x w := by
  rw [← propext he]; exact h

theorem guarded {γ : Type} [Blamed γ] {k : M σ (Except GoErr γ)} {w : World σ} (h : w.statement = none → w.closed = false → At D False k w) :
    At D False (do
      match ← guardConn with
      | some e => M.pure (.error e)
      | none => k) w := by
  rcases guardConn_cases w with ⟨e, hg⟩ | ⟨hg, hn, hcl⟩
  · refine (blames_guardConn w).bind fun a w1 h1 => ?_
    rw [hg] at h1
    cases h1
    exact Blames.pure _ (by simp) w
  · refine (blames_guardConn w).bind fun a w1 h1 => ?_
    rw [hg] at h1
    cases h1
    exact (h hn hcl).to (by simp)

variable (hi : ∀ w, Inner close w)
include hi

theorem blames_execNeo (hc : Logs close) (q : Str) (kvs : KVs) (w : World σ) (hs : Sound w) : At D False (execNeo P close q kvs) w :=
  guarded fun hn _ => blames_temp (f := fun s => stmtExecNeo P close s kvs) q [] w hs hn (inner_stmtExecNeo hi _ kvs) (blames_stmtExecNeo hc)

theorem blames_execPipeline (hc : Logs close) (qs : List Str) (l : List KVs) (w : World σ) (hs : Sound w) : At D False (execPipeline P close qs l) w :=
  guarded fun hn _ => blames_temp (f := fun s => stmtExecPipeline P close s l) [] qs w hs hn (inner_stmtExecPipeline hi _ l) (blames_stmtExecPipeline hc)

theorem blames_queryNeo (hc : Logs close) (q : Str) (kvs : KVs) (w : World σ) : At D False (queryNeo P close q kvs) w := by
  refine guarded fun hn hcl => ?_
  refine (blames_newStmt w).bind fun s w1 h1 => ?_
  cases h1
  refine At.bind (Blames.modify (fun _ => rfl) _) fun _ w1 h1 => ?_
  cases h1
  refine (blames_run hc _).bind fun x w2 h2 => ?_
  have hs1 : Sound ({ w.withStmt q [] with statement := some w.stmts.length } : World σ) := by
    refine ⟨fun h => ?_, fun i h => ?_, fun h => ?_⟩
    · rw [show _ = _ from h] at hcl; cases hcl
    · cases h; simp [World.stmt]
    · rw [show _ = _ from h] at hcl; cases hcl
  have hi1 := (inner_sendRunPullAllConsumeRun hi q kvs _).int hs1 h2
  have hq : ∀ {E : Prop} (res : Except GoErr Nat), (bad res ↔ E) → At D E (queryNeo.stmtCloseCurrent P close >>= fun _ => M.pure res) w2 := by
    intro E res hres
    refine At.quietly ?_ fun _ w3 => Blames.pure _ hres w3
    unfold queryNeo.stmtCloseCurrent
    rw [mbind_run]
    simp only [M.get]
    rcases hi1.st with h3 | h3
    · rw [h3]
      exact close_quiet (hi1.srows w.stmts.length (by simp [World.stmt]))
    · rw [h3]; rfl
  obtain ⟨v, e⟩ := x
  cases e with
  | some e => exact hq _ (by simp)
  | none =>
    cases v with
    | success md =>
      refine (show Blames _ _ _ from ?_) w2
      repeat' first | exact blames_newRows | blame_step
    | _ => exact hq _ (by simp)

omit hi

theorem pure_true {α : Type} [Blamed α] {E : Prop} (a : α) (h : bad a → E) : Blames True E (M.pure a : M σ α) :=
  fun w => ⟨[], by simp [M.pure, Out.world], fun a w' ha => by cases ha; exact ⟨fun _ => .inr (.inr trivial), fun hb => .inl (h hb)⟩⟩

include hi in
theorem blames_queryNeoAll (hc : Logs close) (q : Str) (kvs : KVs) (w : World σ) : At True False (queryNeoAll P close q kvs) w := by
  unfold queryNeoAll
  refine (blames_queryNeo hi hc q kvs w).bind fun x w1 _ => ?_
  cases x with
  | error e => exact Blames.pure _ (by simp) w1
  | ok r =>
    simp only
    refine (blames_rowsAll hc w1).bind fun x w2 _ => ?_
    obtain ⟨data, md, err⟩ := x
    refine At.bind (Blames.get (by simp) w2) fun _ w3 _ => (blames_rowsClose hc r w3).bind fun _ w4 _ => ?_
    exact pure_true _ (fun h => by simp at h; simp [h]) w4

/-- `Close`; closing the socket may fail. -/
theorem blames_connClose (hc : Logs close) (w : World σ) : AtC (fun w' => w'.sockCloseErr = true) D False (connClose P close) w := by
  have hs := fun s => blames_stmtClose (P := P) (D := D) hc s
  have ht := fun q t => blames_txFinish (P := P) (D := D) hc q t
  unfold connClose
  refine At.bindC (Blames.get (by simp) w) fun cl w1 _ => ?_
  split
  · exact (Blames.pure _ (by simp) w1).toC
  · refine At.bindC ((show Blames D False _ from ?_) w1) fun e w2 _ => ?_
    · repeat' first | exact (hs _).any (by simp) | blame_step
    split
    · exact (Blames.pure _ (by simp) w2).toC
    · refine At.bindC ((show Blames D False _ from ?_) w2) fun e w3 _ => ?_
      · repeat' first | exact (ht _ _).any (by simp) | blame_step
      split
      · exact (Blames.pure _ (by simp) w3).toC
      · refine At.bindC (At.same rfl fun _ _ _ => Iff.rfl) fun _ w4 _ => ?_
        refine At.bindC (Blames.get (by simp) w4) fun b w5 hb => ?_
        cases hb
        split
        · next h => exact ⟨[], by simp [M.pure, Out.world], fun a w' ha => by cases ha; exact ⟨fun _ => .inl rfl, fun _ => .inr (.inr (.inr h))⟩⟩
        · exact (Blames.pure _ (by simp) _).toC

theorem logs_closeN : ∀ n, Logs (closeN P n)
  | 0 => fun w => ⟨[], by simp [closeN, Out.world]⟩
  | n + 1 => fun w => by
    obtain ⟨l, h, _⟩ := blames_connClose (P := P) (D := True) (logs_closeN n) w
    exact ⟨l, h⟩

/-- QueryNeoAll drops the error of closing its rows. -/
def _root_.Bolt.Op.drops : Op → Bool
  | .queryAll .. => true
  | _ => false

theorem At.map {α β : Type} [Blamed α] [Blamed β] {x : M σ α} {f : α → β} {w : World σ} (h : At D False x w) (hf : ∀ a, bad (f a) ↔ bad a) :
    At D False (x >>= fun a => M.pure (f a)) w := h.bind fun a w1 _ => Blames.pure _ (by simp [hf]) w1

theorem bad_except {α : Type} [Blamed α] (hα : ∀ a : α, ¬ bad a) (x : Except GoErr α) : bad (exceptErr x) ↔ bad x := by
  cases x with
  | error e => exact Iff.rfl
  | ok a => simp [exceptErr, hα a]

/-- Every call. -/
theorem blames_op {n : Nat} {op : Op} {w : World σ} (hs : Sound w) :
    AtC (fun w' => op = .close ∧ w'.sockCloseErr = true) (op.drops = true) False (op.run P (closeN P n)) w := by
  have hc := logs_closeN (P := P) n
  have hi := fun w => inner_closeN (P := P) n w
  cases op with
  | close =>
    obtain ⟨l, h1, h2⟩ := blames_connClose (P := P) (D := Op.close.drops = true) hc w
    exact ⟨l, h1, fun a w' ha => ⟨(h2 a w' ha).1, fun h => ((h2 a w' ha).2 h).imp id fun h => h.imp id fun h => h.imp id fun h => ⟨rfl, h⟩⟩⟩
  | exec q kvs => exact ((blames_execNeo hi hc q kvs w hs).map (bad_except (by simp))).toC
  | query q kvs => exact ((blames_queryNeo hi hc q kvs w).map (bad_except (by simp))).toC
  | queryAll q kvs =>
    refine At.toC ?_
    have h := blames_queryNeoAll (P := P) hi hc q kvs w
    have h : At True False (Op.run P (closeN P n) (.queryAll q kvs)) w := h.bind fun x w1 _ => by
      cases x with
      | error e => exact Blames.pure _ (by simp) w1
      | ok x => exact Blames.pure _ (by obtain ⟨a, b, c, d⟩ := x; simp) w1
    obtain ⟨l, h1, h2⟩ := h
    exact ⟨l, h1, fun a w' ha => ⟨fun _ => .inr (.inr rfl), (h2 a w' ha).2⟩⟩
  | execPipe qs l => exact ((blames_execPipeline hi hc qs l w hs).map (bad_except (by simp))).toC
  | queryPipe qs l => exact ((blames_queryPipeline hc w).map (bad_except (by simp))).toC
  | prepare q => exact ((blames_prepare w).map (bad_except (by simp))).toC
  | preparePipe qs => exact ((blames_prepare w).map (bad_except (by simp))).toC
  | begin => exact ((blames_begin hc w).map (bad_except (by simp))).toC
  | stExec s kvs => exact ((blames_stmtExecNeo hc w).map (bad_except (by simp))).toC
  | stQuery s kvs => exact ((blames_stmtQueryNeo hc w).map (bad_except (by simp))).toC
  | stExecPipe s l => exact ((blames_stmtExecPipeline hc w).map (bad_except (by simp))).toC
  | stQueryPipe s l => exact ((blames_stmtQueryPipeline hc w).map (bad_except (by simp))).toC
  | next r => exact ((blames_nextNeo hc w).map (by rintro ⟨a, b, c⟩; simp)).toC
  | all r => exact ((blames_rowsAll hc w).map (by rintro ⟨a, b, c⟩; simp)).toC
  | nextPipe r => exact ((blames_nextPipeline hc w).map (f := PipeRes.err) (fun _ => Iff.rfl)).toC
  | closeRows r => exact (blames_rowsClose hc r w).toC
  | closeStmt s => exact (blames_stmtClose hc s w).toC
  | commit t => exact (blames_txFinish hc _ t w).toC
  | rollback t => exact (blames_txFinish hc _ t w).toC
  | setChunkSize n => exact (At.same rfl fun a w' ha => by cases ha; exact Iff.rfl).toC

end Bolt.Blame
