/-!
# `Close` of a connection and `Close` of its pool at the same time: conn.go:361-400, driver.go:158-195

Model/Pool.lean reads and writes the fields of a connection in one step. Here every access to a field of the one connection
is a step of its own. Two goroutines: the client that holds the connection calls `Close` of it; `Close` of the pool has come
to this connection in its loop.

Simplifications: accesses happen one after the other (Go calls this a data race and promises less). The connection has a
socket, no statement and no transaction. There is room in the channel: the slot of this connection is free.
-/

namespace Bolt.Race

/-- The fields of the connection, and what became of its socket: `shut` says that this side closed it; `sent` is what was put
into the channel, if anything: `none` for a new connection, otherwise the copy's `closed` and whether its `poolDriver` is
set. `poolDriver` says that it is not nil. -/
structure Mem where
  closed : Bool
  connErr : Bool
  poolDriver : Bool
  shut : Bool
  sent : Option (Option (Bool × Bool))
deriving DecidableEq

/-- Where a call of `Close` is. `start` before conn.go:363, `pool` before line 379, `call` at line 381 before the method is
looked up, `test1` and `test2` at driver.go:179 before `connErr` and before `closed` are read, `copy1` and `copy2` at line 188
before `closed` and before `poolDriver` are copied, `send` at line 191, `sock` at conn.go:391, `flag` at line 392, `err` at
line 394. -/
inductive PC
  | unset
  | start
  | pool
  | call
  | test1
  | test2
  | copy1
  | copy2 (closed : Bool)
  | send (v : Option (Bool × Bool))
  | sock
  | flag (err : Bool)
  | err
  | done (ok : Bool)
  | panicked
deriving DecidableEq

/-- One step; `bad` says that closing the socket fails, should this be the step. Closing a closed socket fails. -/
def step (bad : Bool) (m : Mem) : PC → Mem × PC
  | .unset => ({ m with poolDriver := false }, .start)
  | .start => (m, if m.closed then .done true else .pool)
  | .pool => (m, if m.poolDriver then .call else .sock)
  | .call => (m, if m.poolDriver then .test1 else .panicked)
  | .test1 => (m, if m.connErr then .send none else .test2)
  | .test2 => (m, if m.closed then .send none else .copy1)
  | .copy1 => (m, .copy2 m.closed)
  | .copy2 c => (m, .send (some (c, m.poolDriver)))
  | .send v => ({ m with sent := some v }, .done true)
  | .sock => ({ m with shut := true }, .flag (bad || m.shut))
  | .flag e => ({ m with closed := true }, if e then .err else .done true)
  | .err => ({ m with connErr := true }, .done false)
  | .done ok => (m, .done ok)
  | .panicked => (m, .panicked)

/-- Both calls. -/
structure State where
  mem : Mem
  client : PC
  pool : PC
deriving DecidableEq

/-- The client's connection works, or an error was recorded on it before. -/
def State.init (connErr : Bool) : State := ⟨⟨false, connErr, true, false, none⟩, .start, .unset⟩

/-- A step of the client, or of the pool (driver.go:164-165). -/
def State.next (s : State) (client bad : Bool) : State :=
  if client then ⟨(step bad s.mem s.client).1, (step bad s.mem s.client).2, s.pool⟩
  else ⟨(step bad s.mem s.pool).1, s.client, (step bad s.mem s.pool).2⟩

/-- A schedule: who makes the next step, and whether closing a socket fails in it. -/
def State.run (s : State) : List (Bool × Bool) → State
  | [] => s
  | (c, b) :: r => (s.next c b).run r

end Bolt.Race
