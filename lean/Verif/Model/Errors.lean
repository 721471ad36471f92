import Verif.Model.Value

/-! # errors/errors.go -/

namespace Bolt

/-- `Inner` (errors/errors.go:48-50) on the `*Error`s; `none` is nil. -/
def GoErr.inner : GoErr → Option GoErr
  | .wrap _ i => i
  | _ => none

/-- `InnerMost` (errors/errors.go:53-63). It is only defined on `*Error`; for a foreign error it returns the
error itself, as the recursion does when it reaches one. -/
def GoErr.innerMost : GoErr → GoErr
  | .wrap _ (some e) => e.innerMost
  | e => e

end Bolt
