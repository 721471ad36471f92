import Verif.Model.Basic

/-! # log/log.go -/

namespace Bolt.Logging

/-- `Level` (log/log.go:10-21). -/
inductive Level where
  | none | error | info | trace
deriving DecidableEq

/-- The numbers `iota` gives (log/log.go:12-21). -/
def Level.num : Level → Nat
  | .none => 0
  | .error => 1
  | .info => 2
  | .trace => 3

/-- `strings.ToLower` (log/log.go:35), as far as it can give an ASCII result: ASCII letters, U+0130 (bytes C4 B0),
whose lower case is `i`, and U+212A (bytes E2 84 AA), whose lower case is `k`. Go maps further characters, and bytes
that are not UTF-8, but to text with bytes above 127; here those bytes stay as they are, above 127 too, and so the
comparison with an ASCII name has the same result. -/
def toLower : Str → Str
  | 0xC4 :: 0xB0 :: rest => 105 :: toLower rest
  | 0xE2 :: 0x84 :: 0xAA :: rest => 107 :: toLower rest
  | b :: rest => (if 65 ≤ b ∧ b ≤ 90 then b + 32 else b) :: toLower rest
  | [] => []

/-- `"trace"` (log/log.go:36) -/
def nTrace : Str := [116, 114, 97, 99, 101]
/-- `"info"` (log/log.go:38) -/
def nInfo : Str := [105, 110, 102, 111]
/-- `"error"` (log/log.go:40) -/
def nError : Str := [101, 114, 114, 111, 114]

/-- `SetLevel` (log/log.go:34-45). -/
def setLevel (s : Str) : Level :=
  if toLower s = nTrace then .trace
  else if toLower s = nInfo then .info
  else if toLower s = nError then .error
  else .none

/-- The printing functions (log/log.go:53-111), each in its two forms. -/
inductive Fn where
  | trace | tracef | info | infof | error | errorf | fatal | fatalf | panic | panicf
deriving DecidableEq

/-- The loggers: `TraceLog`, `InfoLog`, `ErrorLog` (log/log.go:25-31) and the standard logger of package log. -/
inductive Logger where
  | trace | info | error | std
deriving DecidableEq

/-- What a call prints to (log/log.go:53-111). -/
def target (lv : Level) : Fn → Option Logger
  | .trace | .tracef => if lv.num ≥ Level.trace.num then some .trace else none
  | .info | .infof => if lv.num ≥ Level.info.num then some .info else none
  | .error | .errorf => if lv.num ≥ Level.error.num then some .error else none
  | .fatal | .fatalf | .panic | .panicf => some .std

/-- A call of the package: `SetLevel` or a printing function with its message. -/
inductive Op where
  | setLevel (s : Str)
  | print (f : Fn) (msg : Str)

/-- `l.Fatalln`, `l.Panicln` do not return (log/log.go:94-111). -/
def Fn.stops : Fn → Bool
  | .fatal | .fatalf | .panic | .panicf => true
  | _ => false

/-- What a sequence of calls prints, starting from `level` (log/log.go:24); a call that does not return ends it. -/
def run : Level → List Op → List (Logger × Str)
  | _, [] => []
  | _, .setLevel s :: ops => run (setLevel s) ops
  | lv, .print f m :: ops =>
    let out := match target lv f with
      | some g => [(g, m)]
      | none => []
    if f.stops then out else out ++ run lv ops

end Bolt.Logging
