import Verif.Spec.Server
import Verif.Spec.Reach

/-!
# What the bytes written on a connection are
-/

namespace Bolt

/-- A value that the encoder handles as it should with every chunk size from `lo` on: a short message that it delivers,
or one that it rejects before its buffer is full. -/
def Val.Fits (lo : Nat) (v : Val) : Prop :=
  (v.Typed ∧ v.Clean ∧ v.Supported ∧ v.footprint ≤ 65535) ∨ (¬ v.Supported ∧ v.footprint < lo)

/-- The bytes are the messages that were to be sent, one after the other; a rejected value leaves no bytes. -/
inductive StreamOf : List Event → Bytes → Prop where
  | nil : StreamOf [] []
  | recv {evs : List Event} {bs : Bytes} (i : Item) : StreamOf evs bs → StreamOf (evs ++ [.recv i]) bs
  | send {evs : List Event} {bs b : Bytes} {v : Val} (e : Option GoErr) : StreamOf evs bs → Carries v b → StreamOf (evs ++ [.send v e]) (bs ++ b)
  | rejected {evs : List Event} {bs : Bytes} {v : Val} {e : GoErr} : StreamOf evs bs → ¬ v.Supported → StreamOf (evs ++ [.send v (some e)]) bs

/-- A message that could have been delivered was not. -/
def Lost (evs : List Event) : Prop := ∃ v e, Event.send v (some e) ∈ evs ∧ v.Supported

/-- The network works again after a failed write. -/
def World.recovered {σ : Type} (w : World σ) : World σ := { w with sink := { w.sink with budget := none } }

/-- A database for examples that remembers the queries it executed. -/
def diary : DB (List Str) where
  exec d q _ := (d ++ [q], .answer [] [] (.summary []))

/-- The peer never sends anything: it is gone, or the network to it is. -/
def Peer.Silent {σ : Type} (P : Peer σ) : Prop := ∀ s bs, (P.react s bs).2 = []

/-- A slow network: what the peer answers to the first `k` writes arrives only with the answer to the next one; a read
meanwhile times out. State: the peer's, the number of writes to come, what is on its way. -/
def Peer.slow {σ : Type} (P : Peer σ) : Peer (σ × Nat × List Item) where
  react s bs :=
    let q := P.react s.1 bs
    match s.2.1 with
    | k + 1 => ((q.1, k, s.2.2 ++ q.2), [])
    | 0 => ((q.1, 0, []), s.2.2 ++ q.2)
  ended _ := false

end Bolt
