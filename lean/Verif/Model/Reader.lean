import Verif.Model.Decoder

/-!
# The Decoder over any io.Reader

`Source` (Verif/Model/Decoder.lean) returns bytes or an error from each `Read`. The contract of io.Reader also allows
bytes together with an error.
-/

namespace Bolt

/-- An `io.Reader`: what successive calls of `Read` return, as bytes and error; a call that asks for fewer bytes returns
that many without the error and leaves the rest. After the last step every `Read` returns no bytes and `fin`. -/
structure Reader where
  steps : List (Bytes × Option GoErr)
  fin : GoErr

/-- Result of reading from a `Reader`. -/
inductive ReaderRes (α : Type) where
  | ok (a : α) (steps : List (Bytes × Option GoErr))
  | err (e : GoErr) (steps : List (Bytes × Option GoErr))

/-- `io.ReadFull(d.r, buf)` for `len(buf) = n` (encoding/decoder.go:44): `io.ReadAtLeast` goes on while there is no error,
forgets the error if it has all the bytes, and otherwise makes `io.EOF` after some bytes `io.ErrUnexpectedEOF`. -/
def readFullR (fin : GoErr) : List (Bytes × Option GoErr) → Nat → Bytes → ReaderRes Bytes
  | steps, 0, acc => .ok acc steps
  | [], _ + 1, acc => .err (readFullErr fin acc) []
  | (s, e) :: rest, n + 1, acc =>
    if s.length ≤ n + 1 then
      match e with
      | none => readFullR fin rest (n + 1 - s.length) (acc ++ s)
      | some e => if s.length = n + 1 then .ok (acc ++ s) rest else .err (readFullErr e (acc ++ s)) rest
    else .ok (acc ++ s.take (n + 1)) ((s.drop (n + 1), e) :: rest)

/-- `readData` (decoder.go:69-89): an error is returned even if bytes came with it; so is a read of zero bytes. -/
def readDataR (fin : GoErr) : List (Bytes × Option GoErr) → Nat → Bytes → ReaderRes Bytes
  | steps, 0, acc => .ok acc steps
  | [], _ + 1, _ => .err (.wrap "An error occurred reading from stream" (some fin)) []
  | (s, e) :: rest, n + 1, acc =>
    if s.length ≤ n + 1 then
      match e with
      | some e => .err (.wrap "An error occurred reading from stream" (some e)) rest
      | none =>
        if s = [] then .err (.wrap "Couldn't read expected bytes for message. Read: %d Expected: %d." none) rest
        else readDataR fin rest (n + 1 - s.length) (acc ++ s)
    else .ok (acc ++ s.take (n + 1)) ((s.drop (n + 1), e) :: rest)

/-- `Decoder.read` (decoder.go:40-67), with fuel for the `for` loop. -/
def readMsgR (fin : GoErr) : Nat → List (Bytes × Option GoErr) → Bytes → ReaderRes Bytes
  | 0, steps, _ => .err (.new "unreachable") steps
  | f + 1, steps, out =>
    match readFullR fin steps 2 [] with
    | .err e steps =>
      .err (.wrap "Couldn't read expected bytes for message length. Read: %d Expected: 2." (some e)) steps
    | .ok lengthBytes steps =>
      let messageLen := beNat lengthBytes
      if messageLen = 0 then .ok out steps
      else
        match readDataR fin steps messageLen [] with
        | .err e steps => .err (.wrap "An error occurred reading message data" (some e)) steps
        | .ok data steps => readMsgR fin f steps (out ++ data)

/-- `NewDecoder(r).Decode()` (decoder.go:92-99) over any reader. The fuel is more than the bytes to come. -/
def decodeReader (r : Reader) : Except Fault Val :=
  match readMsgR r.fin ((r.steps.map Prod.fst).flatten.length + 1) r.steps [] with
  | .err e _ => .error (.err e)
  | .ok data _ =>
    match decodePayload data with
    | .ok (v, _) => .ok v
    | .error f => .error f

end Bolt
