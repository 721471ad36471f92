import Verif.Model.Session

/-! The answers a result must rest on. -/

namespace Bolt

/-- A query answered to its end: SUCCESS, messages that are neither SUCCESS nor FAILURE, SUCCESS. -/
structure Reply where
  header : KVs
  between : List Val
  summary : KVs

/-- The messages of the reply. -/
def Reply.events (a : Reply) : List Event :=
  .recv (.val (.success a.header)) :: (a.between.map (fun v => .recv (.val v)) ++ [.recv (.val (.success a.summary))])

/-- Nothing between the two SUCCESS messages is a SUCCESS or a FAILURE. -/
def Reply.Proper (a : Reply) : Prop := ∀ v ∈ a.between, (∀ md, v ≠ .success md) ∧ ∀ md, v ≠ .failure md

/-- RUN and PULL_ALL written without an error, for one query after the other. -/
def asked (l : List (Str × KVs)) : List Event := l.flatMap fun x => [.send (.run x.1 x.2) none, .send .pullAll none]

end Bolt
