import Verif.Proofs.Ghost
import Verif.Spec.Histories

/-!
# Whole histories with parameters that are encoded alike
-/

namespace Bolt

/-- The call with every parameter map replaced. -/
def Call.withParams (f : KVs → KVs) : Call KVs → Call KVs
  | .exec q kvs => .exec q (f kvs)
  | .query q kvs => .query q (f kvs)
  | .queryAll q kvs => .queryAll q (f kvs)
  | .execPipe l => .execPipe (l.map fun x => (x.1, f x.2))
  | .queryPipe l => .queryPipe (l.map fun x => (x.1, f x.2))
  | .stExec kvs => .stExec (f kvs)
  | .stQuery kvs => .stQuery (f kvs)
  | .stExecPipe l => .stExecPipe (l.map f)
  | .stQueryPipe l => .stQueryPipe (l.map f)
  | c => c

variable {σ : Type} {P : Peer σ} {close : M σ (Option GoErr)} {f : KVs → KVs}

theorem forall2_map (hf : ∀ kvs, Alike kvs (f kvs)) (l : List KVs) : List.Forall₂ Alike l (l.map f) := by
  induction l with
  | nil => constructor
  | cons x l ih => exact .cons (hf x) ih

theorem like_gotRows (h : Handles) (x : Except GoErr Nat) : Sim (gotRows h x : M σ _) (gotRows h x) := by
  cases x <;> unfold gotRows <;> sim

theorem like_gotPipe (h : Handles) (x : PipeRes) : Sim (gotPipe h x : M σ _) (gotPipe h x) := by
  obtain ⟨a, b, c, d⟩ := x
  cases a <;> cases c <;> cases d <;> unfold gotPipe <;> dsimp only <;> sim

theorem like_call (hc : Sim close close) (hf : ∀ kvs, Alike kvs (f kvs)) (h : Handles) (c : Call KVs) :
    Sim (c.run P close h) ((c.withParams f).run P close h) := by
  have hl := forall2_map hf
  cases c with
  | exec q kvs => exact (like_execNeo hc q (hf _)).bind fun _ => .pure _
  | query q kvs => exact (like_queryNeo hc q (hf _)).bind fun _ => like_gotRows _ _
  | queryAll q kvs => exact (like_queryNeoAll hc q (hf _)).bind fun _ => .pure _
  | execPipe l =>
    have e1 : (l.map fun x => (x.1, f x.2)).map Prod.fst = l.map Prod.fst := by simp
    have e2 : (l.map fun x => (x.1, f x.2)).map Prod.snd = (l.map Prod.snd).map f := by simp
    simp only [Call.withParams, Call.run]
    rw [e1, e2]
    exact (like_execPipeline hc _ (hl _)).bind fun _ => .pure _
  | queryPipe l =>
    have e1 : (l.map fun x => (x.1, f x.2)).map Prod.fst = l.map Prod.fst := by simp
    have e2 : (l.map fun x => (x.1, f x.2)).map Prod.snd = (l.map Prod.snd).map f := by simp
    simp only [Call.withParams, Call.run]
    rw [e1, e2]
    exact (like_queryPipeline hc _ (hl _)).bind fun _ => like_gotRows _ _
  | prepare q => refine (like_prepare q []).bind fun a => ?_; cases a <;> sim
  | preparePipe qs => refine (like_prepare [] qs).bind fun a => ?_; cases a <;> sim
  | stExec kvs =>
    unfold Call.withParams Call.run
    cases h.s with
    | none => sim
    | some s => exact (like_stmtExec hc s (hf _)).bind fun _ => .pure _
  | stQuery kvs =>
    unfold Call.withParams Call.run
    cases h.s with
    | none => sim
    | some s => exact (like_stmtQuery hc s (hf _)).bind fun _ => like_gotRows _ _
  | stExecPipe l =>
    unfold Call.withParams Call.run
    cases h.s with
    | none => sim
    | some s => exact (like_stmtExecPipe hc s (hl _)).bind fun _ => .pure _
  | stQueryPipe l =>
    unfold Call.withParams Call.run
    cases h.s with
    | none => sim
    | some s => exact (like_stmtQueryPipe hc s (hl _)).bind fun _ => like_gotRows _ _
  | next =>
    unfold Call.withParams Call.run
    cases h.r with
    | none => sim
    | some r => exact (like_nextNeo hc r).bind fun _ => .pure _
  | all =>
    unfold Call.withParams Call.run
    cases h.r with
    | none => sim
    | some r => exact (like_rowsAll hc r).bind fun _ => .pure _
  | nextPipe =>
    unfold Call.withParams Call.run
    cases h.r with
    | none => sim
    | some r => exact (like_nextPipeline hc r).bind fun _ => like_gotPipe _ _
  | closeRows =>
    unfold Call.withParams Call.run
    cases h.r with
    | none => sim
    | some r => exact (like_rowsClose hc r).bind fun _ => .pure _
  | closeStmt =>
    unfold Call.withParams Call.run
    cases h.s with
    | none => sim
    | some s => exact (like_stmtClose hc s).bind fun _ => .pure _
  | begin => refine (like_begin hc).bind fun a => ?_; cases a <;> sim
  | commit =>
    unfold Call.withParams Call.run
    cases h.t with
    | none => sim
    | some t => exact (like_txFinish hc _ t).bind fun _ => .pure _
  | rollback =>
    unfold Call.withParams Call.run
    cases h.t with
    | none => sim
    | some t => exact (like_txFinish hc _ t).bind fun _ => .pure _
  | close => exact (like_connClose hc).bind fun _ => .pure _
  | setChunkSize n => exact .bind (.modify fun _ => rfl) fun _ => .pure _

theorem like_runCalls (hc : Sim close close) (hf : ∀ kvs, Alike kvs (f kvs)) (calls : List (Call KVs)) :
    ∀ h, Sim (runCalls P close h calls) (runCalls P close h (calls.map (Call.withParams f))) := by
  induction calls with
  | nil => intro h; exact .pure _
  | cons c l ih => intro h; exact (like_call hc hf h c).bind fun x => (ih x.2).bind fun _ => .pure _

/-! ## Large `uint` parameters -/

/-- A `uint` above 2^63-1 taken for the `int64` with the same bits; other values as they are. -/
def wrapParam : Val → Val
  | .int .uint v => if 2^63 ≤ v ∧ v < 2^64 then .int .int64 (v - 2^64) else .int .uint v
  | v => v

/-- In every parameter. -/
def wrapParams (kvs : KVs) : KVs := kvs.map fun x => (x.1, wrapParam x.2)

theorem enc_wrapParam (v : Val) : encOps (wrapParam v) = encOps v := by
  unfold wrapParam
  split
  · split
    · rename_i v h
      have : wrapSigned 8 (v - 2^64) = wrapSigned 8 v := by unfold wrapSigned; simp only; omega
      simp only [encOps, encodeIntKind, this]
    · rfl
  · rfl

theorem enc_wrapKVs (kvs : KVs) : encKVs (wrapParams kvs) = encKVs kvs := by
  induction kvs with
  | nil => rfl
  | cons x l ih =>
    obtain ⟨k, v⟩ := x
    show encKVs ((k, wrapParam v) :: wrapParams l) = _
    unfold encKVs
    rw [ih, enc_wrapParam]

theorem alike_wrap (kvs : KVs) : Alike kvs (wrapParams kvs) := by
  intro q
  simp only [encOps, enc_wrapKVs]
  simp [wrapParams]

end Bolt
