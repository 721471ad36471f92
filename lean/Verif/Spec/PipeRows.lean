import Verif.Spec.Clients
import Verif.Spec.Histories

/-!
# What NextPipeline may report

What has to be received for each thing a `NextPipeline` call can report. Independent of how the call works.
-/

namespace Bolt

/-- These messages justify that report: a record for a row; the SUCCESS that ends a query and the SUCCESS that starts the
next one, whose metadata is what is reported, for the step to the next query; a SUCCESS for the end. -/
inductive Justifies : List Item → PStep → Prop
  | row (fs : List Val) : Justifies [.val (.record fs)] (.row fs)
  | next (sm header : KVs) : Justifies [.val (.success sm), .val (.success header)] (.next header header)
  | done (sm : KVs) : Justifies [.val (.success sm)] .done

/-- The step to the next query with metadata that was not received: its header is a SUCCESS message that breaks off
inside a number. -/
inductive Unjustified : List Item → PStep → Prop
  | mk (sm : KVs) : Unjustified [.val (.success sm), .bad .eof true] (.next [] [])

/-- Reports one after the other, each with what was received for it. -/
inductive Heard (J : List Item → PStep → Prop) : List Item → List PStep → Prop
  | nil : Heard J [] []
  | cons {l1 l2 : List Item} {s : PStep} {steps : List PStep} : J l1 s → Heard J l2 steps → Heard J (l1 ++ l2) (s :: steps)

end Bolt
