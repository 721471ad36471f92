import Verif.Spec.Reach

/-! # What can make a call panic -/

namespace Bolt

variable {σ : Type}

/-- The item does not make the decoder panic. -/
def Item.Tame : Item → Prop
  | .boom _ => False
  | _ => True

/-- The peer sends nothing that makes the decoder panic. -/
def Peer.Tame (P : Peer σ) : Prop := ∀ s bs, ∀ i ∈ (P.react s bs).2, i.Tame

/-- Rows that are not closed although their statement is. -/
def Detached (w : World σ) (r : Nat) : Prop := (w.row r).closed = false ∧ (w.stmt (w.row r).stmt).conn = false

/-- A server that answers the first message with SUCCESS and every later one with FAILURE. -/
def wall : Peer Bool where
  react s bs := if bs = [] then (s, []) else (true, [.val (if s then .failure [] else .success [])])
  ended _ := false

/-- A new connection to it. -/
def wallConn : World Bool where
  stmts := []
  rows := []
  txs := []
  statement := none
  transaction := none
  closed := false
  connErr := false
  chunkSize := 4096
  sockCloseErr := false
  sink := { out := [], budget := none }
  inbox := []
  srv := false
  log := []

/-- The calls one after the other, up to the first that panics. -/
def Op.runAll (P : Peer σ) (close : M σ (Option GoErr)) : List Op → M σ Unit
  | [] => M.pure ()
  | op :: ops => do
    let _ ← op.run P close
    Op.runAll P close ops

end Bolt
