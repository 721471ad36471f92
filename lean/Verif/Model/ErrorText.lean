import Verif.Model.Value

/-!
# The text of errors: errors/errors.go

`fmt.Sprintf` is not modelled: `msg` is the formatted message, `typ` and `text` are what `%T` and `Error()` give for an error
of another type. `debug.Stack()` is a parameter. The field `level` is never read.
A nil `*Error` inside a non-nil `error` is not modelled: the driver never wraps one.
-/

namespace Bolt.ErrorText

/-- A Go `error`: nil, an error of another package, or `*errors.Error` (errors/errors.go:10-15). -/
inductive E where
  | nil
  | other (typ text : Str)
  | error (msg : Str) (wrapped : E) (stack : Str)

/-- `New` (errors/errors.go:18-24) -/
def new (stack msg : Str) : E := .error msg .nil stack

/-- `Wrap` (errors/errors.go:27-40) -/
def wrap (stack : Str) (err : E) (msg : Str) : E :=
  match err with
  | .error .. => .error msg err []
  | _ => .error msg err stack

/-- `"\n"` -/
def newline : Str := [10]
/-- `"\nInternal Error("` -/
def internal : Str := [10, 73, 110, 116, 101, 114, 110, 97, 108, 32, 69, 114, 114, 111, 114, 40]
/-- `"):"` -/
def closing : Str := [41, 58]
/-- `"\n\n Stack Trace:\n\n"` -/
def stackTrace : Str := [10, 10, 32, 83, 116, 97, 99, 107, 32, 84, 114, 97, 99, 101, 58, 10, 10]

/-- `error` (errors/errors.go:65-80); on other errors the text they have. -/
def E.error' : Nat → E → Str
  | _, .nil => []
  | _, .other _ text => text
  | level, .error msg wrapped stack =>
    List.replicate level 9 ++ msg ++
    (match wrapped with
      | .nil => []
      | .error .. => newline ++ wrapped.error' (level + 1)
      | .other typ text => internal ++ typ ++ closing ++ text) ++
    (if stack.length > 0 then stackTrace ++ stack else [])

/-- `Error` (errors/errors.go:43-45) -/
def E.text (e : E) : Str := e.error' 0

end Bolt.ErrorText
