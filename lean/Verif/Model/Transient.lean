import Verif.Model.Encoder

/-!
# The encoder over any stream

`Verif/Model/Encoder.lean` runs the encoder over a `Sink`, whose writes all fail once one has failed. A network
connection need not be like that: every `boltConn.Write` sets a new deadline (conn.go:340-357), so a write that timed
out may be followed by one that succeeds. Here the same functions run over an arbitrary writer; over a `Sink` they are
those of `Verif/Model/Encoder.lean` (`c75_same_encoder`, Verif/Props/Transient.lean).
-/

namespace Bolt

/-- An `io.Writer`: the new state and whether the write succeeded. -/
abbrev Writer (ω : Type) := ω → Bytes → ω × Bool

section
variable {ω : Type} (wr : Writer ω) (cs : Nat)

/-- `Encoder.Write` (encoder.go:107-130): the new temporary buffer, the stream, success. -/
def viaWrite (buf : Bytes) (s : ω) (p : Bytes) : Bytes × ω × Bool :=
  let buf := buf ++ p
  if buf.length ≥ cs then
    match wr s (be 2 cs) with
    | (s, false) => (buf, s, false)
    | (s, true) =>
      match wr s (buf.take cs) with
      | (s, ok) => (buf.drop cs, s, ok)
  else (buf, s, true)

/-- The `Write` calls of `encode` (encoder.go:167-505) until one fails. -/
def viaRun : Bytes → ω → List Bytes → Bytes × ω × Bool
  | buf, s, [] => (buf, s, true)
  | buf, s, p :: ps =>
    match viaWrite wr cs buf s p with
    | (buf, s, true) => viaRun buf s ps
    | (buf, s, false) => (buf, s, false)

/-- `flush` (encoder.go:133-152): the stream and success. -/
def viaFlush (buf : Bytes) (s : ω) : ω × Bool :=
  let body : ω × Bool :=
    if buf.length > 0 then
      match wr s (be 2 buf.length) with
      | (s, false) => (s, false)
      | (s, true) => wr s buf
    else (s, true)
  match body with
  | (s, false) => (s, false)
  | (s, true) => wr s EndMessage

/-- `NewEncoder(w, cs).Encode(v)` (encoder.go:91-97, 155-164). -/
def encodeVia (s : ω) (v : Val) : ω × Option GoErr :=
  let ops := encOps v
  match viaRun wr cs [] s ops.writes with
  | (_, s, false) => (s, some streamErr)
  | (buf, s, true) =>
    match ops.err with
    | some err => (s, some err)
    | none =>
      match viaFlush wr buf s with
      | (s, true) => (s, none)
      | (s, false) => (s, some streamErr)

end

/-- A stream on which any write may fail, whatever happened before: what it has accepted and the number of writes. -/
structure Line where
  out : Bytes
  writes : Nat

/-- The `n`-th write succeeds (`fail n = none`) or accepts some bytes and fails, e.g. because the deadline set for it
(conn.go:341) passed. -/
def Line.write (fail : Nat → Option Nat) (s : Line) (p : Bytes) : Line × Bool :=
  match fail s.writes with
  | none => (⟨s.out ++ p, s.writes + 1⟩, true)
  | some k => (⟨s.out ++ p.take k, s.writes + 1⟩, false)

end Bolt
