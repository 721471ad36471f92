import Verif.Model.Decoder

/-!
# recorder.go: recording a connection and playing it back

`Call` is one call of `Read` or `Write` on the recorder while it wraps a live connection, with what the connection
answered. Timestamps, the names of the files and the errors of the file system are not modelled.
-/

namespace Bolt.Recording

/-- `Event` (recorder.go:266-273). -/
structure Event where
  data : Bytes
  isWrite : Bool
  completed : Bool
  err : Option GoErr

/-- `newEvent` (recorder.go:275-281). -/
def newEvent (isWrite : Bool) : Event := ⟨[], isWrite, false, none⟩

/-- `event == nil || event.Completed || event.IsWrite != isWrite` decides whether an event is appended
(recorder.go:156-160, 169-173). -/
def withEvent (evs : List Event) (isWrite : Bool) : List Event :=
  match evs.getLast? with
  | none => evs ++ [newEvent isWrite]
  | some e => if e.completed || e.isWrite != isWrite then evs ++ [newEvent isWrite] else evs

/-- Changing the last event, which the recorder holds by pointer. -/
def onLast (f : Event → Event) (evs : List Event) : List Event :=
  match evs.getLast? with
  | none => evs
  | some e => evs.dropLast ++ [f e]

/-- `data[len(data)-2] == 0 && data[len(data)-1] == 0` (recorder.go:163). -/
def ends00 (data : Bytes) : Bool :=
  data[data.length - 2]? == some 0 && data[data.length - 1]? == some 0

/-- `record` (recorder.go:155-166); `data[len(data)-2]` panics on one byte. -/
def record (evs : List Event) (data : Bytes) (isWrite : Bool) : Except Panic (List Event) :=
  if data.length < 2 then .error .index
  else .ok (onLast (fun e => { e with data := e.data ++ data, completed := e.completed || ends00 data })
    (withEvent evs isWrite))

/-- `recordErr` (recorder.go:168-177). -/
def recordErr (evs : List Event) (e : GoErr) (isWrite : Bool) : List Event :=
  onLast (fun ev => { ev with err := some e, completed := true }) (withEvent evs isWrite)

/-- One call on the recorder over a live connection and the answer of that connection. -/
inductive Call where
  /-- `Read` into `n` bytes; the connection delivered `got` and perhaps an error -/
  | read (n : Nat) (got : Bytes) (err : Option GoErr)
  /-- `Write` of `data`; the connection took the first `n` bytes and perhaps failed -/
  | write (data : Bytes) (n : Nat) (err : Option GoErr)

/-- `if err != nil { r.recordErr(err, …) }` (recorder.go:65-67, 126-128) -/
def noteErr (evs : List Event) (isWrite : Bool) : Option GoErr → List Event
  | none => evs
  | some e => recordErr evs e isWrite

/-- `if num > 0 { r.record(b[:num], …) }` and the error (recorder.go:61-67, 122-128) -/
def note (evs : List Event) (data : Bytes) (isWrite : Bool) (err : Option GoErr) : Except Panic (List Event) :=
  if data = [] then .ok (noteErr evs isWrite err)
  else
    match record evs data isWrite with
    | .ok evs' => .ok (noteErr evs' isWrite err)
    | .error p => .error p

/-- The first halves of `Read` and `Write` (recorder.go:59-70, 120-131). -/
def recordCall (evs : List Event) : Call → Except Panic (List Event)
  | .read _ got err => note evs got false err
  | .write data n err => note evs (data.take n) true err

/-- A recorded session. -/
def recordAll : List Event → List Call → Except Panic (List Event)
  | evs, [] => .ok evs
  | evs, c :: cs =>
    match recordCall evs c with
    | .ok evs' => recordAll evs' cs
    | .error p => .error p

/-- Writing the events to a file and loading them (recorder.go:179-195): `encoding/json` restores byte slices and
booleans, but cannot decode anything but null into the field of interface type `error`. `none` is the failure that
`newRecorder` (recorder.go:32-36) turns into the end of the program. -/
def reload (evs : List Event) : Option (List Event) :=
  if evs.all (fun e => e.err.isNone) then some evs else none

/-- The recorder in playback (recorder.go:19-25): the events with what is left in each, and `currentEvent`. -/
structure Player where
  events : List Event
  cur : Nat

/-- `event.Event = event.Event[1:]` on the current event, repeated `n` times, and moving on when it is empty
(recorder.go:81-90, 142-150). -/
def Player.take (p : Player) (e : Event) (n : Nat) : Player :=
  { events := p.events.set p.cur { e with data := e.data.drop n }
    cur := if e.data.drop n = [] then p.cur + 1 else p.cur }

/-- `Read` without a connection (recorder.go:72-92): the bytes stored in the buffer and the error. The loop stops with
an error when the event runs out, and then the event is not left. -/
def Player.read (p : Player) (n : Nat) : (Bytes × Option GoErr) × Player :=
  match p.events[p.cur]? with
  | none => (([], some (.new "Trying to read past all of the events in the recorder! %#v")), p)
  | some e =>
    if e.isWrite then (([], some (.new "Recorder expected Read, got Write! %#v, Event: %#v")), p)
    else if e.data.length < n then
      ((e.data, some (.new "Attempted to read past current event in recorder! Bytes: %s. Recorder %#v, Event; %#v")),
        { p with events := p.events.set p.cur { e with data := [] } })
    else ((e.data.take n, none), p.take e n)

/-- `Write` without a connection (recorder.go:133-152): the number of bytes taken and the error. What is written is
not compared with what was recorded. -/
def Player.write (p : Player) (data : Bytes) : (Nat × Option GoErr) × Player :=
  match p.events[p.cur]? with
  | none => ((0, some (.new "Trying to write past all of the events in the recorder! %#v")), p)
  | some e =>
    if !e.isWrite then ((0, some (.new "Recorder expected Write, got Read! %#v, Event: %#v")), p)
    else if e.data.length < data.length then
      ((e.data.length, some (.new "Attempted to write past current event in recorder! %#v, Event: %#v")),
        { p with events := p.events.set p.cur { e with data := [] } })
    else ((data.length, none), p.take e data.length)

/-- `Close` without a connection (recorder.go:103-115). -/
def Player.close (p : Player) : Option GoErr :=
  match p.events.getLast? with
  | none => none
  | some e =>
    if p.cur ≠ p.events.length then some (.new "Didn't read all of the events in the recorder on close! %#v")
    else if e.data ≠ [] then some (.new "Left data in an event in the recorder on close! %#v")
    else none

/-- What the driver sees of a call. -/
inductive Seen where
  | read (got : Bytes) (err : Option GoErr)
  | wrote (n : Nat) (err : Option GoErr)

/-- The answer of the live connection, which the recorder passes on (recorder.go:69, 130). -/
def Call.seen : Call → Seen
  | .read _ got err => .read got err
  | .write _ n err => .wrote n err

/-- The same call made on the recorder in playback. -/
def Player.call (p : Player) : Call → Seen × Player
  | .read n _ _ => let r := p.read n; (.read r.1.1 r.1.2, r.2)
  | .write data _ _ => let r := p.write data; (.wrote r.1.1 r.1.2, r.2)

/-- The same calls made on the recorder in playback. -/
def Player.replay : Player → List Call → List Seen × Player
  | p, [] => ([], p)
  | p, c :: cs =>
    let r := p.call c
    let q := r.2.replay cs
    (r.1 :: q.1, q.2)

end Bolt.Recording
