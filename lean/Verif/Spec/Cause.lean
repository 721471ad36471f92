import Verif.Spec.Blame

/-!
# The documented way to the cause of an error

doc.go:84-93: "You can get the innermost error by using the `InnerMost` method. […] In order to get the failure message
metadata from a wrapped error, you can do so by calling
`err.(*errors.Error).InnerMost().(messages.FailureMessage).Metadata`". Both type assertions are without `, ok`: they panic
when the error is of another type.
-/

namespace Bolt

/-- `err.(*errors.Error)` does not panic: the error was made by `errors.New` or `errors.Wrap`. -/
def GoErr.isLib : GoErr → Bool
  | .new _ => true
  | .wrap _ _ => true
  | _ => false

/-- `err.(*errors.Error).InnerMost()`; `none`: a panic. -/
def docCause (e : GoErr) : Option GoErr := if e.isLib then some e.innerMost else none

/-- `err.(*errors.Error).InnerMost().(messages.FailureMessage).Metadata`; `none`: a panic. -/
def docMetadata (e : GoErr) : Option KVs :=
  match docCause e with
  | some (.failure md) => some md
  | _ => none

/-- An error `binary.Read` gives for a buffer that is too short (decoder.go:131-152). -/
def GoErr.isShort : GoErr → Bool
  | .eof => true
  | .unexpectedEOF => true
  | _ => false

/-- Messages from this peer that do not decode give one of these errors. -/
def Peer.Garbles {σ : Type} (P : Peer σ) (Q : GoErr → Prop) : Prop := ∀ s bs e half, .bad e half ∈ (P.react s bs).2 → Q e

end Bolt
