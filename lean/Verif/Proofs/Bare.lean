import Verif.Spec.Cause
import Verif.Proofs.Blame
import Verif.Model.Stream

/-!
Where errors come from that are not `*errors.Error`: a strange answer to ACK_FAILURE or RESET, a message that does not
decode, the end of the rows, and closing the socket.
-/

namespace Bolt.Bare

open Bolt.Blame (Logs)

variable {σ : Type}

/-- The result carries this error, which is not an `*errors.Error`. -/
class Bared (α : Type) where
  bare : α → GoErr → Prop
export Bared (bare)

instance (priority := low) plain {α : Type} : Bared α := ⟨fun _ _ => False⟩
instance : Bared GoErr := ⟨fun x e => x = e ∧ e.isLib = false⟩
instance {α : Type} [Bared α] : Bared (Option α) := ⟨fun | none, _ => False | some a, e => bare a e⟩
instance {α β : Type} [Bared α] [Bared β] : Bared (α × β) := ⟨fun x e => bare x.1 e ∨ bare x.2 e⟩
instance {α : Type} [Bared α] : Bared (Except GoErr α) := ⟨fun | .error x, e => bare x e | .ok a, e => bare a e⟩
instance : Bared PipeRes := ⟨fun x e => bare x.err e⟩

variable {e : GoErr}

@[simp] theorem bare_plain {α : Type} (a : α) : @bare α plain a e ↔ False := Iff.rfl
@[simp] theorem bare_none {α : Type} [Bared α] : bare (none : Option α) e ↔ False := Iff.rfl
@[simp] theorem bare_some {α : Type} [Bared α] (a : α) : bare (some a) e ↔ bare a e := Iff.rfl
@[simp] theorem bare_pair {α β : Type} [Bared α] [Bared β] (a : α) (b : β) : bare (a, b) e ↔ bare a e ∨ bare b e := Iff.rfl
@[simp] theorem bare_prod {α β : Type} [Bared α] [Bared β] (x : α × β) : bare x e ↔ bare x.1 e ∨ bare x.2 e := Iff.rfl
@[simp] theorem bare_error {α : Type} [Bared α] (x : GoErr) : bare (.error x : Except GoErr α) e ↔ bare x e := Iff.rfl
@[simp] theorem bare_ok {α : Type} [Bared α] (a : α) : bare (.ok a : Except GoErr α) e ↔ bare a e := Iff.rfl
@[simp] theorem bare_pipe (a : Option (List Val)) (b : Option KVs) (c : Option Nat) (d : Option GoErr) : bare (PipeRes.mk a b c d) e ↔ bare d e := Iff.rfl
@[simp] theorem bare_wrap (m : String) (x : Option GoErr) : bare (GoErr.wrap m x) e ↔ False := ⟨fun h => (by obtain ⟨rfl, h⟩ := h; cases h), False.elim⟩
@[simp] theorem bare_new (m : String) : bare (GoErr.new m) e ↔ False := ⟨fun h => (by obtain ⟨rfl, h⟩ := h; cases h), False.elim⟩
@[simp] theorem bare_eof : bare GoErr.eof e ↔ e = .eof := ⟨fun h => h.1.symm, fun h => by subst h; exact ⟨rfl, rfl⟩⟩
@[simp] theorem bare_badConn : bare GoErr.badConn e ↔ e = .badConn := ⟨fun h => h.1.symm, fun h => by subst h; exact ⟨rfl, rfl⟩⟩
@[simp] theorem bare_kvs (o : Option KVs) : bare o e ↔ False := by cases o <;> exact Iff.rfl
@[simp] theorem bare_nat (o : Option Nat) : bare o e ↔ False := by cases o <;> exact Iff.rfl
@[simp] theorem bare_row (o : Option (List Val)) : bare o e ↔ False := by cases o <;> exact Iff.rfl

/-- What was received explains the error. -/
def Loose (e : GoErr) (l : List Event) : Prop := (∃ half, .recv (.bad e half) ∈ l) ∨ (e = .badConn ∧ StrangeAnswer l)

theorem Loose.left {a : List Event} (b : List Event) (h : Loose e a) : Loose e (a ++ b) :=
  Or.imp (fun ⟨x, h⟩ => ⟨x, List.mem_append_left _ h⟩) (fun h => ⟨h.1, h.2.left _⟩) h
theorem Loose.right {b : List Event} (a : List Event) (h : Loose e b) : Loose e (a ++ b) :=
  Or.imp (fun ⟨x, h⟩ => ⟨x, List.mem_append_right _ h⟩) (fun h => ⟨h.1, h.2.right _⟩) h

/-- No error. -/
def NoErr : GoErr → Prop := fun _ => False

/-- In state `w`: an error of the result that is not an `*errors.Error` is in `E`, or what was received explains it. -/
def At {α : Type} [Bared α] (E : GoErr → Prop) (x : M σ α) (w : World σ) : Prop := ∃ l, (x w).world.log = w.log ++ l ∧
  ∀ a w', x w = .ok a w' → ∀ e, bare a e → E e ∨ Loose e l

/-- In every state. -/
def Bares {α : Type} [Bared α] (E : GoErr → Prop) (x : M σ α) : Prop := ∀ w, At E x w

/-- The errors of `a`, or in `E`. -/
def more {α : Type} [Bared α] (E : GoErr → Prop) (a : α) : GoErr → Prop := fun e => E e ∨ bare a e

theorem At.weak {α : Type} [Bared α] {E E' : GoErr → Prop} {x : M σ α} {w : World σ} (h : At E x w) (hE : ∀ e, E e → E' e) : At E' x w := by
  obtain ⟨l, h1, h2⟩ := h
  exact ⟨l, h1, fun a w' ha e he => (h2 a w' ha e he).imp (hE e) id⟩
theorem Bares.any {α : Type} [Bared α] {E : GoErr → Prop} {x : M σ α} (h : Bares NoErr x) : Bares E x := fun w => (h w).weak fun _ h => h.elim

theorem At.bind {α β : Type} [Bared α] [Bared β] {E : GoErr → Prop} {x : M σ α} {f : α → M σ β} {w : World σ} (h : At E x w)
    (hf : ∀ a w1, x w = .ok a w1 → At (more E a) (f a) w1) : At E (x >>= f) w := by
  obtain ⟨l, h1, h2⟩ := h
  unfold At
  rw [mbind_run]
  cases hx : x w with
  | ok a w' =>
    rw [hx] at h1
    obtain ⟨l', h4, h5⟩ := hf a w' hx
    refine ⟨l ++ l', by rw [h4, show w'.log = _ from h1, List.append_assoc], fun b w2 hb e he => ?_⟩
    rcases h5 b w2 hb e he with (h | h) | h
    · exact .inl h
    · exact (h2 a w' hx e h).imp id fun h => h.left _
    · exact .inr (h.right _)
  | panic p w' => rw [hx] at h1; exact ⟨l, h1, fun _ _ h => by cases h⟩
  | deep w' => rw [hx] at h1; exact ⟨l, h1, fun _ _ h => by cases h⟩

theorem Bares.bind {α β : Type} [Bared α] [Bared β] {E : GoErr → Prop} {x : M σ α} {f : α → M σ β} (h : Bares NoErr x)
    (hf : ∀ a, Bares (more E a) (f a)) : Bares E (x >>= f) := fun w => (h.any w).bind fun a w1 _ => hf a w1

theorem Bares.same {α : Type} [Bared α] {E : GoErr → Prop} {x : M σ α} (h : ∀ w, (x w).world.log = w.log)
    (hs : ∀ w a w', x w = .ok a w' → ∀ e, bare a e → E e) : Bares E x :=
  fun w => ⟨[], by rw [h w, List.append_nil], fun a w' ha e he => .inl (hs w a w' ha e he)⟩

theorem Bares.pure {α : Type} [Bared α] {E : GoErr → Prop} (a : α) (h : ∀ e, bare a e → E e) : Bares E (M.pure a : M σ α) :=
  .same (fun _ => rfl) fun _ _ _ ha => by cases ha; exact h
theorem Bares.panic {α : Type} [Bared α] {E : GoErr → Prop} (p : Panic) : Bares E (M.panic p : M σ α) := .same (fun _ => rfl) fun _ _ _ ha => by cases ha
theorem Bares.modify {E : GoErr → Prop} {f : World σ → World σ} (h : ∀ w, (f w).log = w.log) : Bares E (M.modify f) :=
  .same h fun _ _ _ _ _ h => h.elim
theorem Bares.get {α : Type} [Bared α] {E : GoErr → Prop} {f : World σ → α} (h : ∀ (a : α) e, bare a e ↔ False) : Bares E (M.get f) :=
  .same (fun _ => rfl) fun _ _ _ _ e he => ((h _ e).1 he).elim

theorem Bares.withConn {α : Type} [Bared α] {E : GoErr → Prop} {s : Nat} {k : M σ α} (h : Bares E k) : Bares E (Bolt.withConn s k) := by
  intro w
  unfold At Bolt.withConn
  split
  · exact h w
  · exact ⟨[], by simp [Out.world], fun _ _ h => by cases h⟩

theorem Bares.ite {α : Type} [Bared α] {E : GoErr → Prop} {c : Prop} [Decidable c] {x y : M σ α} (hx : c → Bares E x) (hy : ¬ c → Bares E y) : Bares E (if c then x else y) := by
  split
  · exact hx ‹_›
  · exact hy ‹_›

/-! ## The encoder's errors -/

/-- They are `*errors.Error`s. -/
def Lib (o : Ops) : Prop := ∀ e, o.err = some e → e.isLib = true

theorem lib_none {o : Ops} (h : o.err = none) : Lib o := fun e he => by rw [h] at he; cases he
theorem lib_write (p : Bytes) : Lib (Ops.write p) := lib_none rfl
theorem lib_done : Lib Ops.done := lib_none rfl
theorem lib_fail (m : String) : Lib (Ops.fail (.new m)) := fun e he => by cases he; rfl
theorem Lib.seq {a b : Ops} (ha : Lib a) (hb : Lib b) : Lib (a.seq b) := by
  unfold Ops.seq
  split
  · next e h => intro e' he; cases he; exact ha e h
  · exact hb
theorem Lib.wrap {a : Ops} (_ : Lib a) (m : String) : Lib (a.wrapErr m) := by
  intro e he
  unfold Ops.wrapErr at he
  cases h : a.err with
  | none => rw [h] at he; cases he
  | some e' => rw [h] at he; cases he; rfl
theorem Lib.ite {c : Prop} [Decidable c] {a b : Ops} (ha : Lib a) (hb : Lib b) : Lib (if c then a else b) := by split <;> assumption

macro "lib" : tactic => `(tactic| repeat' first
  | exact lib_write _ | exact lib_done | exact lib_fail _ | assumption | apply Lib.seq | apply Lib.wrap | apply Lib.ite)

theorem lib_str (s : Str) : Lib (encodeString s) := by unfold encodeString; lib
theorem lib_slice (n : Nat) : Lib (sliceHeader n) := by unfold sliceHeader; lib
theorem lib_map (n : Nat) : Lib (mapHeader n) := by unfold mapHeader; lib
theorem lib_struct (n : Nat) (s : _root_.Int) : Lib (structHeader n s) := by unfold structHeader; lib
theorem lib_intKind (k : IntKind) (v : _root_.Int) : Lib (encodeIntKind k v) := by
  unfold encodeIntKind encodeInt
  cases k <;> simp only <;> lib
theorem lib_each {α : Type} {f : α → Ops} (hf : ∀ x, Lib (f x)) : ∀ l : List α, Lib (encodeEach f l)
  | [] => lib_done
  | x :: l => (hf x).seq (lib_each hf l)

macro "lib_struct" : tactic => `(tactic| repeat' first
  | apply lib_struct | apply lib_intKind | apply lib_str | apply lib_slice | apply lib_map | apply lib_each lib_str | apply lib_each (lib_intKind .int)
  | apply Lib.seq | apply Lib.wrap | exact lib_write _ | exact lib_done | exact lib_fail _ | assumption)

mutual
theorem lib_enc : (v : Val) → Lib (encOps v)
  | .nil => by unfold encOps encodeNil; lib
  | .bool b => by unfold encOps encodeBool; lib
  | .int k v => by unfold encOps; exact lib_intKind k v
  | .float32 b => by unfold encOps encodeFloat; lib
  | .float64 b => by unfold encOps encodeFloat; lib
  | .str s => by unfold encOps; exact lib_str s
  | .list xs => by have := lib_list xs; unfold encOps; lib_struct
  | .map kvs => by have := lib_kvs kvs; unfold encOps; lib_struct
  | .typedSlice xs => by have := lib_list xs; unfold encOps; lib_struct
  | .other _ => by unfold encOps; lib
  | .node id labels props => by have := lib_kvs props; unfold encOps; lib_struct
  | .rel id s e type props => by have := lib_kvs props; unfold encOps; lib_struct
  | .unbound id type props => by have := lib_kvs props; unfold encOps; lib_struct
  | .path nodes rels seq => by have := lib_list nodes; have := lib_list rels; unfold encOps; lib_struct
  | .record fields => by have := lib_list fields; unfold encOps; lib_struct
  | .success md => by have := lib_kvs md; unfold encOps; lib_struct
  | .failure md => by have := lib_kvs md; unfold encOps; lib_struct
  | .ignored => by unfold encOps; lib_struct
  | .ackFailure => by unfold encOps; lib_struct
  | .discardAll => by unfold encOps; lib_struct
  | .pullAll => by unfold encOps; lib_struct
  | .reset => by unfold encOps; lib_struct
  | .init client auth => by have := lib_kvs auth; unfold encOps; lib_struct
  | .run stmt params => by have := lib_kvs params; unfold encOps; lib_struct
  | .userStruct sig fields => by have := lib_fields fields; unfold encOps; lib_struct
theorem lib_list : (l : List Val) → Lib (encList l)
  | [] => by unfold encList; lib
  | x :: xs => by have := lib_enc x; have := lib_list xs; unfold encList; lib
theorem lib_kvs : (l : List (Str × Val)) → Lib (encKVs l)
  | [] => by unfold encKVs; lib
  | (k, v) :: rest => by have := lib_str k; have := lib_enc v; have := lib_kvs rest; unfold encKVs; lib
theorem lib_fields : (l : List Val) → Lib (encFields l)
  | [] => by unfold encFields; lib
  | x :: xs => by have := lib_enc x; have := lib_fields xs; unfold encFields; lib
end

theorem lib_encode {cs : Nat} {s : Sink} {v : Val} {e : GoErr} (h : (encodeTo cs s v).2 = some e) : e.isLib = true := by
  unfold encodeTo at h
  simp only at h
  split at h
  · cases h; rfl
  · split at h
    · next he => cases h; exact lib_enc v _ he
    · split at h
      · cases h
      · cases h; rfl

/-! ## The decoder's errors -/

/-- The errors of this computation are `*errors.Error`s or those of `io.ReadFull` on a buffer that is too short. -/
def Fair {α : Type} (d : Dec α) : Prop := ∀ b e, d b = .error (.err e) → e.isLib = true ∨ e = .eof ∨ e = .unexpectedEOF

theorem Fair.pure {α : Type} (a : α) : Fair (Dec.pure a) := fun _ _ h => by cases h
theorem Fair.throw {α : Type} (m : String) : Fair (Dec.throw (.new m) : Dec α) := fun _ _ h => by cases h; exact .inl rfl
theorem Fair.panic {α : Type} (p : Panic) : Fair (Dec.panic p : Dec α) := fun _ _ h => by cases h
theorem Fair.bind {α β : Type} {x : Dec α} {f : α → Dec β} (hx : Fair x) (hf : ∀ a, Fair (f a)) : Fair (x >>= f) := by
  intro b e h
  change Dec.bind x f b = _ at h
  unfold Dec.bind at h
  split at h
  · exact hf _ _ _ h
  · next h' => cases h; exact hx _ _ h'
theorem Fair.ite {α : Type} {c : Prop} [Decidable c] {x y : Dec α} (hx : Fair x) (hy : Fair y) : Fair (if c then x else y) := by split <;> assumption
theorem fair_byte (m : String) : Fair (readByte m) := fun b e h => by
  unfold readByte at h
  split at h <;> cases h
  exact .inl rfl
theorem fair_raw (w : Nat) : Fair (readRaw w) := fun b e h => by
  unfold readRaw at h
  repeat' split at h
  all_goals cases h
  · exact .inr (.inl rfl)
  · exact .inr (.inr rfl)
theorem fair_int (w : Nat) : Fair (readInt w) := by unfold readInt; exact (fair_raw w).bind fun _ => .pure _
theorem fair_size (w : Nat) (m : String) : Fair (readSize w m) := fun b e h => by
  unfold readSize at h
  split at h
  · cases h
  · cases h; exact .inl rfl
  · next hf h' => cases h; exact (hf e rfl).elim
theorem fair_next (n : _root_.Int) : Fair (next n) := fun b e h => by
  unfold next at h
  split at h <;> cases h
theorem fair_asKey (v : Val) : Fair (asKey v) := by unfold asKey; split <;> first | exact .pure _ | exact .throw _
theorem fair_asList (m : String) (v : Val) : Fair (asList m v) := by unfold asList; split <;> first | exact .pure _ | exact .throw _
theorem fair_asMap (m : String) (v : Val) : Fair (asMap m v) := by unfold asMap; split <;> first | exact .pure _ | exact .throw _
theorem fair_asStr (m : String) (v : Val) : Fair (asStr m v) := by unfold asStr; split <;> first | exact .pure _ | exact .throw _
theorem fair_int64 (v : Val) : Fair (assertInt64 v) := by unfold assertInt64; split <;> first | exact .pure _ | exact .panic _
theorem fair_toString : ∀ l, Fair (sliceToString l)
  | [] => .pure _
  | v :: l => by
    have := fair_toString l
    cases v <;> unfold sliceToString <;> first | exact .throw _ | exact this.bind fun _ => .pure _
theorem fair_toInt : ∀ l, Fair (sliceToInt l)
  | [] => .pure _
  | v :: l => by
    have := fair_toInt l
    unfold sliceToInt
    split
    · exact .pure _
    · next h => cases h; exact this.bind fun _ => .pure _
    · exact .panic _
theorem fair_toNode : ∀ l, Fair (sliceToNode l)
  | [] => .pure _
  | v :: l => by
    have := fair_toNode l
    cases v <;> unfold sliceToNode <;> first | exact .throw _ | exact this.bind fun _ => .pure _
theorem fair_toUnbound : ∀ l, Fair (sliceToUnbound l)
  | [] => .pure _
  | v :: l => by
    have := fair_toUnbound l
    cases v <;> unfold sliceToUnbound <;> first | exact .throw _ | exact this.bind fun _ => .pure _

macro "fair" : tactic => `(tactic| repeat' first
  | exact Fair.pure _ | exact Fair.throw _ | exact Fair.panic _ | assumption | exact fair_byte _ | exact fair_raw _ | exact fair_int _ | exact fair_size _ _ | exact fair_next _
  | exact fair_asKey _ | exact fair_asList _ _ | exact fair_asMap _ _ | exact fair_asStr _ _ | exact fair_int64 _ | exact fair_toString _ | exact fair_toInt _
  | exact fair_toNode _ | exact fair_toUnbound _ | apply Fair.ite | (refine Fair.bind ?_ (fun _ => ?_)))

variable {dec : Dec Val}

theorem fair_items (h : Fair dec) : ∀ n, Fair (decodeItems dec n)
  | 0 => .pure _
  | n + 1 => by have := fair_items h n; unfold decodeItems; fair
theorem fair_decSlice (h : Fair dec) (n : _root_.Int) : Fair (decodeSlice dec n) := by have := fair_items h n.toNat; unfold decodeSlice; fair
theorem fair_entries (h : Fair dec) : ∀ n m, Fair (decodeEntries dec n m)
  | 0, _ => .pure _
  | n + 1, m => by have := fair_entries h n; unfold decodeEntries; fair; exact this _
theorem fair_decMap (h : Fair dec) (n : _root_.Int) : Fair (decodeMap dec n) := by have := fair_entries h; unfold decodeMap; fair; exact this _ _
theorem fair_sig (h : Fair dec) (s : UInt8) : Fair (decodeSig dec s) := by
  have h1 : Fair (decodeNode dec) := by unfold decodeNode; fair
  have h2 : Fair (decodeRelationship dec) := by unfold decodeRelationship; fair
  have h3 : Fair (decodePath dec) := by unfold decodePath; fair
  have h4 : Fair (decodeUnbound dec) := by unfold decodeUnbound; fair
  have h5 : Fair (decodeRecord dec) := by unfold decodeRecord; fair
  have h6 : Fair (decodeFailure dec) := by unfold decodeFailure; fair
  have h7 : Fair (decodeSuccess dec) := by unfold decodeSuccess; fair
  unfold decodeSig
  repeat' with_reducible refine Fair.ite ?_ ?_
  all_goals first | assumption | exact .pure _ | exact .throw _
theorem fair_decStruct (h : Fair dec) (n : _root_.Int) : Fair (decodeStruct dec n) := by have := fair_sig h; unfold decodeStruct; exact (fair_byte _).bind this
theorem fair_marker (h : Fair dec) (m : UInt8) : Fair (decodeMarker dec m) := by
  have h1 := fair_decSlice h
  have h2 := fair_decMap h
  have h3 := fair_decStruct h
  unfold decodeMarker
  simp only
  repeat' with_reducible refine Fair.ite ?_ ?_
  all_goals with_reducible first
    | exact .pure _ | exact .throw _ | exact h1 _ | exact h2 _ | exact h3 _ | exact fair_int _ | exact fair_next _
    | exact (fair_size _ _).bind fun _ => fair_next _ | exact (fair_size _ _).bind fun _ => h1 _ | exact (fair_size _ _).bind fun _ => h2 _
    | exact (fair_size _ _).bind fun _ => h3 _ | exact (fair_raw _).bind fun _ => .pure _
theorem fair_decode : ∀ f, Fair (decode f)
  | 0 => fun _ _ h => by cases h
  | f + 1 => by have := fair_marker (fair_decode f); unfold decode; exact (fair_byte _).bind this

/-- What decoding a payload can give. -/
theorem payload_bad {data : Bytes} {e : GoErr} {half : Bool} (h : Item.ofPayload data = .bad e half) : e.isLib = true ∨ e = .eof ∨ e = .unexpectedEOF := by
  unfold Item.ofPayload at h
  split at h <;> cases h
  next h => exact fair_decode _ _ _ h

theorem msg_lib : ∀ f r out e r', readMsgLoop f r out = .err e r' → e.isLib = true
  | 0, _, _, _, _, h => by cases h; rfl
  | f + 1, r, out, e, r', h => by
    unfold readMsgLoop at h
    split at h
    · cases h; rfl
    · simp only at h
      split at h
      · cases h
      · split at h
        · cases h; rfl
        · exact msg_lib f _ _ _ _ h

theorem items_bad : ∀ f r e half, Item.bad e half ∈ itemsOf f r → e.isLib = true ∨ e = .eof ∨ e = .unexpectedEOF
  | 0, _, _, _, h => by cases h
  | f + 1, r, e, half, h => by
    unfold itemsOf at h
    split at h
    · rcases List.mem_cons.1 h with h | h
      · exact payload_bad h.symm
      · exact items_bad f _ _ _ h
    · next hm =>
      split at h
      · cases h
      · split at h
        · obtain ⟨rfl, -⟩ : e = _ ∧ half = false := by simpa using h
          exact .inl (msg_lib _ _ _ _ _ hm)
        · cases h

variable {P : Peer σ}

theorem Bares.send {E : GoErr → Prop} {v : Val} : Bares E (Bolt.send P v) := fun w =>
  ⟨_, rfl, fun a w' ha e hb => by
    cases ha
    cases he : (encodeTo w.chunkSize w.sink v).2 with
    | none => rw [he] at hb; exact hb.elim
    | some x =>
      rw [he] at hb
      have := lib_encode he
      obtain ⟨rfl, h⟩ := hb
      rw [h] at this
      cases this⟩

/-- The error of a read. -/
theorem read_bare {i : Item} {x : Val × Option GoErr} (hx : match i with | .val v => x = (v, none) | .bad e half => x = (if half then .success [] else .nil, some e) | .boom _ => False | .ioerr => x = (.nil, some (readErr .badConn)) | .eof => x = (.nil, some (readErr .eof)))
    (h : bare x e) : ∃ half, i = .bad e half := by
  cases i with
  | val v => subst hx; simp at h
  | bad x half => subst hx; simp at h; obtain ⟨rfl, _⟩ := h; exact ⟨half, rfl⟩
  | boom _ => cases hx
  | ioerr => subst hx; simp [readErr] at h
  | eof => subst hx; simp [readErr] at h

theorem Bares.recv {E : GoErr → Prop} : Bares E (Bolt.recv P) := fun w => by
  obtain ⟨i, h1, h2⟩ := Blame.recv_run (P := P) w
  refine ⟨_, h1, fun a w' ha e he => .inr (.inl ?_)⟩
  obtain ⟨half, rfl⟩ := read_bare (h2 a w' ha) he
  exact ⟨half, List.mem_singleton.2 rfl⟩

variable {close : M σ (Option GoErr)}

/-- Sending ACK_FAILURE or RESET and reading the answer. -/
theorem ask {m : Val} {k1 : GoErr → M σ (Option GoErr)} {k2 : Val × Option GoErr → M σ (Option GoErr)} (hk1 : ∀ e, ∃ t, k1 e = M.pure (some (.wrap t (some e))))
    (hk2 : ∀ v e, ∃ t, k2 (v, some e) = M.pure (some (.wrap t (some e))))
    (hk3 : ∀ v ig w, OnlyIgnored ig → (Item.val v).isIgnored = false → ∃ l, (k2 (v, none) w).world.log = w.log ++ l ∧ ∀ a w', k2 (v, none) w = .ok a w' →
      ∀ e, bare a e → Loose e (.send m none :: (ig ++ .recv (.val v) :: l))) :
    Bares NoErr (do match ← send P m with
      | some e => k1 e
      | none => do skipIgnored; k2 (← recv P)) := by
  intro w
  unfold At
  obtain ⟨e, w1, hs, hl1, -⟩ := send_run (P := P) m w
  rw [mbind_ok hs]
  cases e with
  | some e =>
    obtain ⟨t, ht⟩ := hk1 e
    simp only [ht]
    refine ⟨[.send m (some e)], by simp [Out.world, M.pure, hl1], fun x w' hx => ?_⟩
    cases hx
    simp
  | none =>
    obtain ⟨ig, i, w2, hig, hi, hsk, hl2, hx, hboom⟩ := skip_recv (P := P) w1
    simp only
    rw [mbind_ok hsk]
    have hlog : (recv P w2).world.log = w.log ++ .send m none :: (ig ++ [.recv i]) := by rw [hl2, hl1]; simp
    rw [mbind_run]
    cases hr : recv P w2 with
    | panic p w3 => rw [hr] at hlog; exact ⟨_, hlog, fun _ _ h => by cases h⟩
    | deep w3 => rw [hr] at hlog; exact ⟨_, hlog, fun _ _ h => by cases h⟩
    | ok x w3 =>
      rw [hr] at hlog
      change w3.log = _ at hlog
      have hx := hx x w3 hr
      obtain ⟨v, e⟩ := x
      cases e with
      | some e =>
        obtain ⟨t, ht⟩ := hk2 v e
        simp only [ht]
        refine ⟨_, hlog, fun x w' h => ?_⟩
        cases h
        simp
      | none =>
        obtain rfl := val_read hx
        obtain ⟨l, h1, h2⟩ := hk3 v ig w3 hig hi
        exact ⟨.send m none :: (ig ++ .recv (.val v) :: l), by rw [h1, hlog]; simp, fun a w' ha e he => .inr (h2 a w' ha e he)⟩

/-- Closing, whose error is dropped. -/
theorem closing (hc : Logs close) {m v : Val} {ig : List Event} (hig : OnlyIgnored ig) (w : World σ) {w0 : World σ} (hw : w.log = w0.log) (res : GoErr)
    (h2 : ∀ e, bare res e → e = .badConn ∧ (m = .ackFailure ∨ m = .reset) ∧ v.isAnswer = false) :
    ∃ l, ((close >>= fun _ => M.pure (some res)) w : Out σ (Option GoErr)).world.log = w0.log ++ l ∧ ∀ a w', (close >>= fun _ => M.pure (some res)) w = .ok a w' →
      ∀ e, bare a e → Loose e (.send m none :: (ig ++ .recv (.val v) :: l)) := by
  obtain ⟨l, h⟩ := Blame.close_log hc w (some res)
  rw [hw] at h
  refine ⟨l, h, fun a w' ha e he => ?_⟩
  obtain ⟨_, _, _, ha⟩ := run_inv ha
  cases ha
  obtain ⟨h3, h4⟩ := h2 e he
  exact .inr ⟨h3, [], m, ig, v, l, rfl, hig, h4⟩

theorem done {m v : Val} {ig : List Event} (w : World σ) : ∃ l, ((M.pure none : M σ (Option GoErr)) w).world.log = w.log ++ l ∧ ∀ a w', (M.pure none : M σ (Option GoErr)) w = .ok a w' →
      ∀ e, bare a e → Loose e (.send m none :: (ig ++ .recv (.val v) :: l)) :=
  ⟨[], by simp [M.pure, Out.world], fun a w' ha => by cases ha; simp⟩

theorem bares_reset (hc : Logs close) : Bares NoErr (reset P close) := by
  unfold reset
  refine ask (k2 := fun x => match x with
    | (_, some e) => M.pure (some (.wrap "An error occurred decoding reset message response" (some e)))
    | (.success _, none) => M.pure none
    | (.failure md, none) => do
      let _ ← close
      M.pure (some (.wrap "Error resetting session. CLOSING SESSION!" (some (.failure md))))
    | (_, none) => do
      M.modify fun w => { w with connErr := true }
      let _ ← close
      M.pure (some .badConn)) (fun e => ⟨_, rfl⟩) (fun v e => ⟨_, rfl⟩) fun v ig w hig hi => ?_
  cases v with
  | success md => exact done w
  | failure md => exact closing hc hig w rfl _ (by simp)
  | ignored => cases hi
  | _ => exact closing hc hig { w with connErr := true } rfl .badConn (fun e he => ⟨bare_badConn.1 he, .inr rfl, rfl⟩)

theorem bares_ack (hc : Logs close) : Bares NoErr (ackFailure P close) := by
  unfold ackFailure
  refine ask (k2 := fun x => match x with
    | (_, some e) => M.pure (some (.wrap "An error occurred decoding ack failure message response" (some e)))
    | (.success _, none) => M.pure none
    | (.failure _, none) => reset P close
    | (_, none) => do
      M.modify fun w => { w with connErr := true }
      let _ ← close
      M.pure (some .badConn)) (fun e => ⟨_, rfl⟩) (fun v e => ⟨_, rfl⟩) fun v ig w hig hi => ?_
  cases v with
  | success md => exact done w
  | failure md =>
    obtain ⟨l, h1, h2⟩ := bares_reset (P := P) hc w
    refine ⟨l, h1, fun a w' ha e he => ?_⟩
    have := ((h2 a w' ha e he).resolve_left id).right (.send .ackFailure none :: (ig ++ [.recv (.val (.failure md))]))
    rwa [List.cons_append, List.append_assoc] at this
  | ignored => cases hi
  | _ => exact closing hc hig { w with connErr := true } rfl .badConn (fun e he => ⟨bare_badConn.1 he, .inl rfl, rfl⟩)

/-! ## The calls -/

macro "bare_step" : tactic => `(tactic| first
  | exact Bares.pure _ (by first | (simp; done) | (intro e he; simp [more] at he ⊢; simp_all; done))
  | exact Bares.get (by first | exact fun _ _ => Iff.rfl | (intro a e; simp; done))
  | exact Bares.panic _ | exact Bares.send | exact Bares.recv | exact Bares.modify (fun _ => rfl)
  | apply Bares.withConn
  | refine Bares.bind ?_ (fun _ => ?_)
  | refine Bares.ite (fun _ => ?_) (fun _ => ?_)
  | split)

theorem bares_consume (hc : Logs close) : Bares NoErr (consume P close) := by
  unfold consume
  repeat' first | exact (bares_ack hc).any | bare_step

theorem bares_sendRun {q : Str} {kvs : KVs} : Bares NoErr (sendRun P q kvs) := by unfold sendRun; repeat' bare_step
theorem bares_sendPullAll : Bares NoErr (sendPullAll P) := by unfold sendPullAll; repeat' bare_step
theorem bares_sendDiscardAll : Bares NoErr (sendDiscardAll P) := by unfold sendDiscardAll; repeat' bare_step

theorem bares_consumeAll (hc : Logs close) : Bares NoErr (consumeAll P close) := by
  intro w
  unfold At consumeAll
  simp only
  have h : Bares NoErr (consume P close >>= fun
    | (r, some e) => M.pure ([], r, some e)
    | (r, none) => M.pure ((w.inbox.takeWhile Item.isPlain).map Item.value, r, none)) := by
    repeat' first | exact (bares_consume hc) | bare_step
  obtain ⟨l, h1, h2⟩ := h { w with inbox := w.inbox.dropWhile Item.isPlain, log := w.log ++ (w.inbox.takeWhile Item.isPlain).map .recv }
  exact ⟨(w.inbox.takeWhile Item.isPlain).map .recv ++ l, h1.trans (by simp), fun a w' ha e he => (h2 a w' ha e he).imp id fun h => h.right _⟩

theorem bares_multiple (hc : Logs close) : ∀ n, Bares NoErr (consumeAllMultiple P close n)
  | 0 => by unfold consumeAllMultiple; bare_step
  | n + 1 => by
    have ih := bares_multiple hc n
    unfold consumeAllMultiple
    repeat' first | exact (bares_consumeAll hc) | exact ih.any | bare_step

theorem bares_sendRunConsume (hc : Logs close) {q : Str} {kvs : KVs} : Bares NoErr (sendRunConsume P close q kvs) := by
  unfold sendRunConsume
  repeat' first | exact bares_sendRun | exact (bares_consume hc).any | bare_step
theorem bares_discard (hc : Logs close) : Bares NoErr (sendDiscardAllConsume P close) := by
  unfold sendDiscardAllConsume
  repeat' first | exact bares_sendDiscardAll | exact (bares_consume hc).any | bare_step
theorem bares_sendRunPullAll {q : Str} {kvs : KVs} : Bares NoErr (sendRunPullAll P q kvs) := by
  unfold sendRunPullAll
  repeat' first | exact bares_sendRun | exact bares_sendPullAll.any | bare_step
theorem bares_run (hc : Logs close) {q : Str} {kvs : KVs} : Bares NoErr (sendRunPullAllConsumeRun P close q kvs) := by
  unfold sendRunPullAllConsumeRun
  repeat' first | exact bares_sendRunPullAll | exact (bares_consume hc).any | bare_step
theorem bares_single (hc : Logs close) {q : Str} {kvs : KVs} : Bares NoErr (sendRunPullAllConsumeSingle P close q kvs) := by
  unfold sendRunPullAllConsumeSingle
  repeat' first | exact bares_sendRunPullAll | exact (bares_consume hc).any | bare_step
theorem bares_runAll (hc : Logs close) {q : Str} {kvs : KVs} : Bares NoErr (sendRunPullAllConsumeAll P close q kvs) := by
  unfold sendRunPullAllConsumeAll
  repeat' first | exact bares_sendRunPullAll | exact (bares_consume hc).any | exact (bares_consumeAll hc).any | bare_step

theorem bares_drain (hc : Logs close) (r : Nat) : Bares NoErr (rowsDrain P close r) := by
  intro w
  have h1 := bares_discard (P := P) hc
  have h2 := bares_multiple (P := P) hc
  unfold At rowsDrain
  simp only
  split
  · exact (show Bares NoErr (_ : M σ (Option GoErr)) by repeat' first | exact h1 | bare_step) w
  · split
    · refine (show Bares NoErr (_ : M σ (Option GoErr)) from ?_) w
      have h3 := h2 (numConsume (w.stmt (w.row r).stmt).queries.length (w.row r).idx).toNat
      repeat' first | exact h3 | bare_step
    · exact ⟨[], by simp [Out.world], fun a w' ha => by cases ha; simp⟩

theorem bares_mark (r : Nat) : Bares NoErr (rowsMark r : M σ Unit) := Bares.modify (fun _ => rfl)

theorem bares_rowsClose0 (hc : Logs close) (r : Nat) : Bares NoErr (rowsClose0 P close r) := by
  unfold rowsClose0
  repeat' first | exact (bares_drain hc r) | exact bares_mark r | bare_step

theorem bares_stmtMark (s : Nat) : Bares NoErr (stmtMark s : M σ Unit) :=
  .same (fun w => by unfold stmtMark; split <;> rfl) fun _ _ _ _ _ h => h.elim

theorem bares_stmtClose (hc : Logs close) (s : Nat) : Bares NoErr (stmtClose P close s) := by
  unfold stmtClose
  repeat' first | exact (bares_rowsClose0 hc _).any | exact bares_stmtMark _ | bare_step

theorem bares_rowsClose (hc : Logs close) (r : Nat) : Bares NoErr (rowsClose P close r) := by
  unfold rowsClose
  repeat' first | exact (bares_drain hc r) | exact bares_mark r | exact (bares_stmtClose hc _).any | bare_step

theorem bares_txFinish (hc : Logs close) (q : Str) (t : Nat) : Bares NoErr (txFinish P close q t) := by
  unfold txFinish
  repeat' first | exact (bares_stmtClose hc _).any | exact (bares_single hc) | bare_step

theorem bares_newStmt {q : Str} {qs : List Str} : Bares NoErr (newStmt q qs : M σ Nat) := .same (fun _ => rfl) fun _ _ _ _ _ h => h.elim
theorem bares_newRows {row : Rows} : Bares NoErr (newRowsObj row : M σ Nat) := .same (fun _ => rfl) fun _ _ _ _ _ h => h.elim
theorem bares_guardConn : Bares NoErr (guardConn : M σ _) :=
  .same (fun w => by unfold guardConn; repeat' split
                     all_goals rfl) fun w a w' h => by
    unfold guardConn at h; repeat' split at h
    all_goals cases h; simp
theorem bares_guardStmt {s : Nat} : Bares NoErr (guardStmt s : M σ _) :=
  .same (fun w => by unfold guardStmt; repeat' split
                     all_goals rfl) fun w a w' h => by
    unfold guardStmt at h; repeat' split at h
    all_goals cases h; simp

theorem bares_prepare {q : Str} {qs : List Str} : Bares NoErr (prepare q qs : M σ _) := by
  unfold prepare
  repeat' first | exact bares_newStmt | exact bares_guardConn | bare_step

theorem bares_stmtExecNeo (hc : Logs close) {s : Nat} {kvs : KVs} : Bares NoErr (stmtExecNeo P close s kvs) := by
  unfold stmtExecNeo
  repeat' first | exact (bares_runAll hc) | exact bares_guardStmt | bare_step

theorem bares_sendAll {msg : String} : ∀ l, Bares NoErr (sendAll P msg l)
  | [] => by unfold sendAll; bare_step
  | (q, ps) :: rest => by
    have ih := bares_sendAll (msg := msg) rest
    unfold sendAll
    repeat' first | exact bares_sendRunPullAll | exact ih.any | bare_step

theorem bares_collect (hc : Logs close) : ∀ n, Bares NoErr (collect P close n)
  | 0 => by unfold collect; bare_step
  | n + 1 => by
    have ih := bares_collect hc n
    unfold collect
    repeat' first | exact (bares_consume hc) | exact (bares_consumeAll hc) | exact ih | bare_step

theorem bares_stmtExecPipeline (hc : Logs close) {s : Nat} {l : List KVs} : Bares NoErr (stmtExecPipeline P close s l) := by
  unfold stmtExecPipeline
  repeat' first | exact (bares_sendAll _) | exact (bares_collect hc _).any | exact bares_guardStmt | bare_step

theorem bares_stmtQueryNeo (hc : Logs close) {s : Nat} {kvs : KVs} : Bares NoErr (stmtQueryNeo P close s kvs) := by
  unfold stmtQueryNeo
  repeat' first | exact (bares_sendRunConsume hc) | exact bares_guardStmt | exact bares_newRows | bare_step

theorem bares_stmtQueryPipeline (hc : Logs close) {s : Nat} {l : List KVs} : Bares NoErr (stmtQueryPipeline P close s l) := by
  unfold stmtQueryPipeline
  repeat' first | exact (bares_sendAll _) | exact (bares_consume hc) | exact bares_guardStmt | exact bares_newRows | bare_step

/-- Only NextNeo returns `io.EOF`. -/
theorem bares_nextNeo (hc : Logs close) {r : Nat} : Bares (fun e => e = .eof) (nextNeo P close r) := by
  unfold nextNeo
  repeat' first | exact bares_sendPullAll | exact (bares_consume hc) | bare_step

/-- What follows deals with the errors in `E'`. -/
theorem Bares.but {α β : Type} [Bared α] [Bared β] {E E' : GoErr → Prop} {x : M σ α} {f : α → M σ β} (h : Bares E' x)
    (hf : ∀ a, Bares (fun e => E e ∨ (bare a e ∧ ¬ E' e)) (f a)) : Bares E (x >>= f) := by
  intro w
  obtain ⟨l, h1, h2⟩ := h w
  unfold At
  rw [mbind_run]
  cases hx : x w with
  | ok a w' =>
    rw [hx] at h1
    obtain ⟨l', h4, h5⟩ := hf a w'
    refine ⟨l ++ l', by rw [h4, show w'.log = _ from h1, List.append_assoc], fun b w2 hb e he => ?_⟩
    rcases h5 b w2 hb e he with (h | ⟨h, hn⟩) | h
    · exact .inl h
    · exact .inr (((h2 a w' hx e h).resolve_left hn).left _)
    · exact .inr (h.right _)
  | panic p w' => rw [hx] at h1; exact ⟨l, h1, fun _ _ h => by cases h⟩
  | deep w' => rw [hx] at h1; exact ⟨l, h1, fun _ _ h => by cases h⟩

theorem bares_allLoop (hc : Logs close) {r : Nat} : ∀ f out, Bares NoErr (allLoop P close r f out)
  | 0, _ => fun w => ⟨[], by simp [allLoop, Out.world], fun _ _ h => by cases h⟩
  | f + 1, out => by
    have ih := bares_allLoop hc (r := r) f
    unfold allLoop
    refine Bares.but (bares_nextNeo hc) (fun _ => ?_)
    split
    · exact (ih _).any
    · refine Bares.ite (fun h => ?_) (fun hn => ?_)
      · exact .pure _ (by simp)
      · refine .pure _ fun e he => .inr ⟨?_, fun h => ?_⟩
        · simpa using he
        · simp at he
          obtain ⟨rfl, _⟩ := he
          subst h
          exact hn rfl
    · bare_step

theorem bares_rowsAll (hc : Logs close) {r : Nat} : Bares NoErr (rowsAll P close r) := fun w => bares_allLoop hc _ _ w

theorem bares_queryPipeline (hc : Logs close) {qs : List Str} {l : List KVs} : Bares NoErr (queryPipeline P close qs l) := by
  unfold queryPipeline
  repeat' first | exact (bares_stmtQueryPipeline hc) | exact bares_newStmt | exact bares_guardConn | bare_step

theorem bares_nextPipeline (hc : Logs close) {r : Nat} : Bares NoErr (nextPipeline P close r) := by
  unfold nextPipeline pipeHeader
  repeat' first | exact (bares_consume hc) | exact bares_newRows | bare_step

theorem bares_begin (hc : Logs close) : Bares NoErr (begin_ P close) := by
  unfold begin_
  repeat' first | exact (bares_single hc) | exact .same (fun _ => rfl) (fun _ _ _ h => by cases h; simp) | bare_step


theorem bares_execNeo (hc : Logs close) {q : Str} {kvs : KVs} : Bares NoErr (execNeo P close q kvs) := by
  unfold execNeo
  repeat' first | exact (bares_stmtExecNeo hc) | exact (bares_stmtClose hc _) | exact bares_newStmt | exact bares_guardConn | bare_step

theorem bares_execPipeline (hc : Logs close) {qs : List Str} {l : List KVs} : Bares NoErr (execPipeline P close qs l) := by
  unfold execPipeline
  repeat' first | exact (bares_stmtExecPipeline hc) | exact (bares_stmtClose hc _) | exact bares_newStmt | exact bares_guardConn | bare_step

theorem bares_current (hc : Logs close) : Bares NoErr (queryNeo.stmtCloseCurrent P close) := by
  unfold queryNeo.stmtCloseCurrent
  repeat' first | exact (bares_stmtClose hc _).any | bare_step

theorem bares_queryNeo (hc : Logs close) {q : Str} {kvs : KVs} : Bares NoErr (queryNeo P close q kvs) := by
  unfold queryNeo
  repeat' first | exact (bares_run hc) | exact (bares_current hc) | exact bares_newStmt | exact bares_newRows | exact bares_guardConn | bare_step

theorem bares_queryNeoAll (hc : Logs close) {q : Str} {kvs : KVs} : Bares NoErr (queryNeoAll P close q kvs) := by
  unfold queryNeoAll
  repeat' first | exact (bares_queryNeo hc) | exact (bares_rowsAll hc) | exact (bares_rowsClose hc _) | bare_step

/-- Likewise, when there may also be another reason `C`, in the state after the call. -/
def AtC {α : Type} [Bared α] (C : World σ → GoErr → Prop) (E : GoErr → Prop) (x : M σ α) (w : World σ) : Prop := ∃ l, (x w).world.log = w.log ++ l ∧
  ∀ a w', x w = .ok a w' → ∀ e, bare a e → E e ∨ Loose e l ∨ C w' e

theorem At.toC {α : Type} [Bared α] {C : World σ → GoErr → Prop} {E : GoErr → Prop} {x : M σ α} {w : World σ} (h : At E x w) : AtC C E x w := by
  obtain ⟨l, h1, h2⟩ := h
  exact ⟨l, h1, fun a w' ha e he => (h2 a w' ha e he).imp id .inl⟩

theorem At.bindC {α β : Type} [Bared α] [Bared β] {C : World σ → GoErr → Prop} {E : GoErr → Prop} {x : M σ α} {f : α → M σ β} {w : World σ} (h : At E x w)
    (hf : ∀ a w1, x w = .ok a w1 → AtC C (more E a) (f a) w1) : AtC C E (x >>= f) w := by
  obtain ⟨l, h1, h2⟩ := h
  unfold AtC
  rw [mbind_run]
  cases hx : x w with
  | ok a w' =>
    rw [hx] at h1
    obtain ⟨l', h4, h5⟩ := hf a w' hx
    refine ⟨l ++ l', by rw [h4, show w'.log = _ from h1, List.append_assoc], fun b w2 hb e he => ?_⟩
    rcases h5 b w2 hb e he with (h | h) | h | h
    · exact .inl h
    · exact (h2 a w' hx e h).imp id fun h => .inl (h.left _)
    · exact .inr (.inl (h.right _))
    · exact .inr (.inr h)
  | panic p w' => rw [hx] at h1; exact ⟨l, h1, fun _ _ h => by cases h⟩
  | deep w' => rw [hx] at h1; exact ⟨l, h1, fun _ _ h => by cases h⟩

/-- `Close`; closing the socket may fail. -/
theorem bares_connClose (hc : Logs close) (w : World σ) : AtC (fun w' e => e = .badConn ∧ w'.sockCloseErr = true) NoErr (connClose P close) w := by
  have hs := fun s => bares_stmtClose (P := P) hc s
  have ht := fun q t => bares_txFinish (P := P) hc q t
  unfold connClose
  refine At.bindC (Bares.get (by simp) w) fun cl w1 _ => ?_
  split
  · exact (Bares.pure _ (by simp) w1).toC
  · refine At.bindC ((show Bares _ _ from ?_) w1) fun e w2 _ => ?_
    · repeat' first | exact (hs _).any | bare_step
    split
    · exact (Bares.pure _ (by intro e he; simp [more] at he ⊢; simp_all) w2).toC
    · refine At.bindC ((show Bares _ _ from ?_) w2) fun e w3 _ => ?_
      · repeat' first | exact (ht _ _).any | bare_step
      split
      · exact (Bares.pure _ (by simp) w3).toC
      · refine At.bindC (Bares.modify (fun _ => rfl) _) fun _ w4 _ => ?_
        refine At.bindC (Bares.get (by simp) w4) fun b w5 hb => ?_
        cases hb
        split
        · next h => exact ⟨[], by simp [M.pure, Out.world], fun a w' ha e he => by cases ha; exact .inr (.inr ⟨by simpa using he, h⟩)⟩
        · exact (Bares.pure _ (by simp) _).toC

theorem At.map {α β : Type} [Bared α] [Bared β] {E : GoErr → Prop} {x : M σ α} {f : α → β} {w : World σ} (h : At E x w) (hf : ∀ a e, bare (f a) e → bare a e) :
    At E (x >>= fun a => M.pure (f a)) w := h.bind fun a w1 _ => Bares.pure _ (fun e he => .inr (hf a e he)) w1

theorem bare_except {α : Type} [Bared α] (x : Except GoErr α) (e : GoErr) : bare (exceptErr x) e → bare x e := by
  cases x with
  | error e => exact id
  | ok a => exact fun h => h.elim

/-- Every call. -/
theorem bares_op {n : Nat} {op : Op} {w : World σ} :
    AtC (fun w' e => e = .badConn ∧ op = .close ∧ w'.sockCloseErr = true) (fun e => e = .eof ∧ ∃ r, op = .next r) (op.run P (closeN P n)) w := by
  have hc := Blame.logs_closeN (P := P) n
  have up : ∀ {x : M σ (Option GoErr)} {C : World σ → GoErr → Prop} {E : GoErr → Prop}, At NoErr x w → AtC C E x w := fun h => (h.weak fun _ h => h.elim).toC
  cases op with
  | close =>
    obtain ⟨l, h1, h2⟩ := bares_connClose (P := P) hc w
    exact ⟨l, h1, fun a w' ha e he => (h2 a w' ha e he).imp (fun h => h.elim) fun h => h.imp id fun h => ⟨h.1, rfl, h.2⟩⟩
  | exec q kvs => exact up ((bares_execNeo hc w).map bare_except)
  | query q kvs => exact up ((bares_queryNeo hc w).map bare_except)
  | queryAll q kvs =>
    refine up ((bares_queryNeoAll hc w).bind fun x w1 _ => ?_)
    cases x with
    | error e => exact Bares.pure _ (fun _ h => .inr h) w1
    | ok x => exact Bares.pure _ (by obtain ⟨a, b, c, d⟩ := x; intro e he; simp [more] at he ⊢; simp_all) w1
  | execPipe qs l => exact up ((bares_execPipeline hc w).map bare_except)
  | queryPipe qs l => exact up ((bares_queryPipeline hc w).map bare_except)
  | prepare q => exact up ((bares_prepare w).map bare_except)
  | preparePipe qs => exact up ((bares_prepare w).map bare_except)
  | begin => exact up ((bares_begin hc w).map bare_except)
  | stExec s kvs => exact up ((bares_stmtExecNeo hc w).map bare_except)
  | stQuery s kvs => exact up ((bares_stmtQueryNeo hc w).map bare_except)
  | stExecPipe s l => exact up ((bares_stmtExecPipeline hc w).map bare_except)
  | stQueryPipe s l => exact up ((bares_stmtQueryPipeline hc w).map bare_except)
  | next r =>
    exact ((At.map (bares_nextNeo hc w) (by rintro ⟨a, b, c⟩ e he; simp at he ⊢; exact he)).weak fun e he => ⟨he, r, rfl⟩).toC
  | all r => exact up ((bares_rowsAll hc w).map (by rintro ⟨a, b, c⟩ e he; simp at he ⊢; exact he))
  | nextPipe r => exact up ((bares_nextPipeline hc w).map (f := PipeRes.err) (fun _ _ h => h))
  | closeRows r => exact up (bares_rowsClose hc r w)
  | closeStmt s => exact up (bares_stmtClose hc s w)
  | commit t => exact up (bares_txFinish hc _ t w)
  | rollback t => exact up (bares_txFinish hc _ t w)
  | setChunkSize n => exact up (Bares.same (fun _ => rfl) (fun _ a w' ha e he => by cases ha; exact he.elim) w)

end Bolt.Bare
