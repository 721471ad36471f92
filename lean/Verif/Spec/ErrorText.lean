import Verif.Model.ErrorText
import Verif.Spec.Text

/-! What the text of an error should show. -/

namespace Bolt.ErrorText

/-- The error that starts a chain: `errors.New`, or `errors.Wrap` of nil or of another package's error. -/
inductive Root where
  | new (msg : Str)
  | wrapNil (msg : Str)
  | wrapOther (msg typ text : Str)

/-- A chain of errors as the driver builds them: the messages, outermost first, wrapped around the root. Only the root sees
a stack. -/
def chain (stack : Str) (r : Root) : List Str → E
  | [] => match r with
    | .new msg => new stack msg
    | .wrapNil msg => wrap stack .nil msg
    | .wrapOther msg typ text => wrap stack (.other typ text) msg
  | msg :: ms => wrap stack (chain stack r ms) msg

/-- What the root has to say. -/
def Root.says : Root → List Str
  | .new msg | .wrapNil msg => [msg]
  | .wrapOther msg typ text => [msg, typ, text]

/-- The pieces occur in the text one after the other. -/
def InOrder : List Str → Str → Prop
  | [], _ => True
  | p :: ps, s => ∃ a b, s = a ++ p ++ b ∧ InOrder ps b

/-- A chain in which every call of `Wrap` has a stack of its own: pairs of stack and message, outermost first. -/
def chainAt (stack : Str) (r : Root) : List (Str × Str) → E
  | [] => chain stack r []
  | (s, msg) :: ms => wrap s (chainAt stack r ms) msg

/-- The lines of a text: each message on a line of its own, with one tab more than the one before. -/
def lines : Nat → List Str → Str
  | _, [] => []
  | level, [m] => List.replicate level 9 ++ m
  | level, m :: ms => List.replicate level 9 ++ m ++ txt "\n" ++ lines (level + 1) ms

/-- The message of the root. -/
def Root.msg : Root → Str
  | .new msg | .wrapNil msg => msg
  | .wrapOther msg _ _ => msg

/-- The line about the error of another package. -/
def Root.foreign : Root → Str
  | .new _ | .wrapNil _ => []
  | .wrapOther _ typ text => txt "\nInternal Error(" ++ typ ++ txt "):" ++ text

end Bolt.ErrorText
