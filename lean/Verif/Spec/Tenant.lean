import Verif.Model.Tenant
import Verif.Spec.Histories
import Verif.Spec.Reach

/-!
# What the users of a pooled connection should see

Each user makes calls and then closes the connection; the next user should find it like a new one.
-/

namespace Bolt
open PackStream

/-- The calls on the abstract session, all of them deliverable and defined, with their results. -/
def Yields {δ : Type} (D : DB δ) : Sess δ → List (Call KVs) → List Res → Sess δ → Prop
  | s, [], rs, s' => rs = [] ∧ s' = s
  | s, c :: cs, rs, s' => c.Deliverable s ∧ ∀ m, c.Means m → ∃ s1 r rs', s.step D m = some (s1, r) ∧ rs = r :: rs' ∧ Yields D s1 cs rs' s'

/-- The users one after the other, each with the results a new connection to the database in its present state would
give. Each may `Close` when what they left open can be closed without a failure (`Sess.release`): this excludes rows of a
direct query. An open transaction is part of the state of the database: `s.tx` is not asked to be false, because `Close`
does not end the transaction (`c69_false_transaction`). The chunk size one user has set is the next user's. -/
def Tenancy {δ : Type} (D : DB δ) : δ → Nat → List (List (Call KVs)) → List (List Res) → Prop
  | _, _, [], out => out = []
  | d, cs, u :: us, out => ∃ rs s s' out', Yields D ⟨d, .idle, false, cs⟩ u rs s ∧ s.release = some (s', none) ∧
      out = rs :: out' ∧ Tenancy D s'.db s'.cs us out'

/-- `Close` of a pooled connection as called from failure handling, nested at most `n` deep. -/
def pooledN {σ : Type} (P : Peer σ) : Nat → M σ (Option GoErr)
  | 0 => fun w => .deep w
  | n + 1 => pooledClose P (pooledN P n)

/-- States of a pooled connection: any calls on any of the objects it has handed out, any number of closes, which are
where one user ends and the next may begin. -/
inductive PoolReach {σ : Type} (P : Peer σ) (n : Nat) : World σ → World σ → Prop where
  | refl (w : World σ) : PoolReach P n w w
  | call {w w1 w2 : World σ} {op : Op} {e : Option GoErr} : PoolReach P n w w1 → op.Exists w1 → op ≠ .close →
      op.run P (pooledN P n) w1 = .ok e w2 → PoolReach P n w w2
  | close {w w1 w2 : World σ} {e : Option GoErr} : PoolReach P n w w1 → pooledClose P (pooledN P n) w1 = .ok e w2 → PoolReach P n w w2

/-- What the users do see on one connection of a pool: the results of their calls as long as each `Close` returns nil
and the next user gets the same connection. -/
def users {σ : Type} (P : Peer σ) (close : M σ (Option GoErr)) : List (List (Call KVs)) → World σ → List (List Res)
  | [], _ => []
  | u :: us, w =>
    match runCalls P close .none u w with
    | .ok (rs, _) w1 =>
      match pooledClose P close w1 with
      | .ok none w2 =>
        match handOver w2 with
        | some w3 => rs :: users P close us w3
        | none => [rs]
      | _ => [rs]
    | _ => []

/-- A database for examples that has transactions: its state says whether one is open, and every answer tells. -/
def txdb : DB Bool where
  exec d q _ :=
    if q = [66, 69, 71, 73, 78] then (true, .answer [] [] (.summary []))
    else if q = [67, 79, 77, 77, 73, 84] ∨ q = [82, 79, 76, 76, 66, 65, 67, 75] then (false, .answer [] [] (.summary []))
    else (d, .answer [] [] (.summary [([116, 120], .bool d)]))

end Bolt
