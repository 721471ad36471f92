import Verif.Model.Session

/-!
# Time

The reads of a Decode on a connection, with the clock: what has arrived when, and the deadline `boltConn.Read` sets before
every read (conn.go:320-337). Times are nanoseconds. Computing takes no time; a read returns at the moment it can.
-/

namespace Bolt

/-- What a socket delivers: `arrivals` are the pieces that reads return (a read that asks for less leaves the rest) and the
times at which they arrive; after them the connection ends at a certain time with an error, or stays silent. -/
structure Net where
  arrivals : List (Nat × Bytes)
  fin : Option (Nat × GoErr)

/-- Something that happens at `t` comes too late for a read at `now` with timeout `T`: the deadline `now + T`
(conn.go:321) is reached first. A deadline that is not in the future fails the read at once. -/
def late (T : _root_.Int) (now t : Nat) : Prop := T ≤ 0 ∨ now + T.toNat ≤ t

instance (T : _root_.Int) (now t : Nat) : Decidable (late T now t) := by unfold late; infer_instance

/-- The error of a read that finds no bytes, and its time: the end of the connection if it comes before the deadline, where
io.EOF is passed on and every other error becomes `ErrBadConn`; otherwise the timeout, which becomes `ErrBadConn`
(conn.go:332-335). -/
def finish (T : _root_.Int) (now : Nat) : Option (Nat × GoErr) → Nat × GoErr
  | none => (now + T.toNat, .badConn)
  | some (t, e) =>
    if late T now t then (now + T.toNat, .badConn) else (max now t, if e.isEOF then e else .badConn)

/-- Result, time and arrivals afterwards. -/
inductive TimedRes (α : Type) where
  | ok (a : α) (now : Nat) (arrivals : List (Nat × Bytes))
  | err (e : GoErr) (now : Nat)

/-- `io.ReadFull` (encoding/decoder.go:44) of `n` bytes, started at `now`. -/
def readFullT (T : _root_.Int) (fin : Option (Nat × GoErr)) : List (Nat × Bytes) → Nat → Nat → Bytes → TimedRes Bytes
  | arr, now, 0, acc => .ok acc now arr
  | [], now, _ + 1, acc => .err (readFullErr (finish T now fin).2 acc) (finish T now fin).1
  | (t, s) :: rest, now, n + 1, acc =>
    if late T now t then .err .badConn (now + T.toNat)
    else if s.length ≤ n + 1 then readFullT T fin rest (max now t) (n + 1 - s.length) (acc ++ s)
    else .ok (acc ++ s.take (n + 1)) (max now t) ((t, s.drop (n + 1)) :: rest)

/-- `readData` (decoder.go:69-89) of `n` bytes, started at `now`. -/
def readDataT (T : _root_.Int) (fin : Option (Nat × GoErr)) : List (Nat × Bytes) → Nat → Nat → Bytes → TimedRes Bytes
  | arr, now, 0, acc => .ok acc now arr
  | [], now, _ + 1, _ => .err (.wrap "An error occurred reading from stream" (some (finish T now fin).2)) (finish T now fin).1
  | (t, s) :: rest, now, n + 1, acc =>
    if late T now t then .err (.wrap "An error occurred reading from stream" (some .badConn)) (now + T.toNat)
    else if s = [] then .err (.wrap "Couldn't read expected bytes for message. Read: %d Expected: %d." none) (max now t)
    else if s.length ≤ n + 1 then readDataT T fin rest (max now t) (n + 1 - s.length) (acc ++ s)
    else .ok (acc ++ s.take (n + 1)) (max now t) ((t, s.drop (n + 1)) :: rest)

/-- `Decoder.read` (decoder.go:40-67), with fuel for the `for` loop. -/
def readMsgT (T : _root_.Int) (fin : Option (Nat × GoErr)) : Nat → List (Nat × Bytes) → Nat → Bytes → TimedRes Bytes
  | 0, _, now, _ => .err (.new "unreachable") now
  | f + 1, arr, now, out =>
    match readFullT T fin arr now 2 [] with
    | .err e now => .err (.wrap "Couldn't read expected bytes for message length. Read: %d Expected: 2." (some e)) now
    | .ok lengthBytes now arr =>
      let messageLen := beNat lengthBytes
      if messageLen = 0 then .ok out now arr
      else
        match readDataT T fin arr now messageLen [] with
        | .err e now => .err (.wrap "An error occurred reading message data" (some e)) now
        | .ok data now arr => readMsgT T fin f arr now (out ++ data)

/-- `NewDecoder(c).Decode()` (decoder.go:92-99) on a connection with timeout `T`, started at `now`: the result and the time
it is returned. The fuel is more than the bytes to come. -/
def decodeT (T : _root_.Int) (now : Nat) (k : Net) : Except Fault Val × Nat :=
  match readMsgT T k.fin ((k.arrivals.map Prod.snd).flatten.length + 1) k.arrivals now [] with
  | .err e now => (.error (.err e), now)
  | .ok data now _ =>
    match decodePayload data with
    | .ok (v, _) => (.ok v, now)
    | .error f => (.error f, now)

end Bolt
