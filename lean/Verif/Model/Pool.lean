/-!
# Connection pools: driver.go:68-195, with conn.go:111-117, 263-317 and 361-400

A transition system. Every call of the API in progress is a program counter in a list; a step runs one of them up to its
next access to something shared (the lock, the channel, the fields of a connection). What the network and the server do
is a free choice of each step. Connections and sockets are numbered in the order in which they are created.

Simplifications: the fields of one connection are read and written in one step, in the call that uses it. Session calls
are reduced to what they can do to the pool: set `connErr`, and call `Close` of the connection themselves when the
handling of a failure goes wrong (conn.go:430, 460, 468). `newPooledBoltConn` never fails (conn.go:111-117). `max` is not
negative: `make(chan, max)` panics otherwise. The recorder is not used.
-/

namespace Bolt.Pooling

/-- `f` with another value at `i`. -/
def upd (f : Nat → α) (i : Nat) (v : α) : Nat → α := fun j => if j = i then v else f j

/-- The fields of `boltConn` (conn.go:65-85) that the pool looks at. `sock` is `conn`, `pooled` says that `poolDriver` is
set. -/
structure PConn where
  sock : Option Nat
  connErr : Bool
  closed : Bool
  pooled : Bool
deriving DecidableEq

/-- `newPooledBoltConn` (conn.go:111-117) -/
def PConn.fresh : PConn := ⟨none, false, false, true⟩

/-- `boltDriverPool` (driver.go:86-93) with the heap. `chan` is the channel `pool`, oldest first; `refs` is `connRefs`;
`lock` says that `refLock` is taken. `conns` are all connections created, `shut` the sockets this side has closed,
`inited` those on which handshake and INIT succeeded. `out` and `handed` are not in the code: the connections handed out
and not closed since, and all connections ever handed out. -/
structure Pool where
  max : Nat
  chan : List Nat
  refs : List Nat
  lock : Bool
  closed : Bool
  conns : Nat → PConn
  nConns : Nat
  shut : Nat → Bool
  inited : Nat → Bool
  nSocks : Nat
  out : List Nat
  handed : List Nat

/-- `createDriverPool` (driver.go:105-122) -/
def Pool.new (max : Nat) : Pool where
  max := max
  chan := List.range max
  refs := []
  lock := false
  closed := false
  conns := fun _ => .fresh
  nConns := max
  shut := fun _ => false
  inited := fun _ => false
  nSocks := 0
  out := []
  handed := []

/-- What a finished call returned. -/
inductive Ret
  | opened (c : Nat)
  | openFailed
  | closed (ok : Bool)
  | used
  | poolClosed (ok : Bool)
  | panicked
deriving DecidableEq

/-- Where a call is.

`OpenPool` (driver.go:125-141): `opening` before line 128, `locked` before line 130, `receiving` at line 131, `received`
before line 132, `failed c n` in `initialize` with `n` calls of `Close` to come, `failedSend m c n` in one of them at
driver.go:191 with connection `m` to be sent, `opened` before the return.

`Close` of a connection (conn.go:361-400): `closing` at its start, `closeSend` at driver.go:191.

Other calls on a connection: `using c n` with `n` calls of `Close` to come, `usingSend m c n` in one of them at
driver.go:191.

`Close` of the pool (driver.go:158-174): `poolClosing` before line 160, `poolClose rest` in the loop of line 162 with
`rest` to come, `poolCloseConn` before line 165, `poolClosed` before the return.

Both: `panicking` after a panic, before the deferred `Unlock` (driver.go:129, 161). -/
inductive PC
  | opening
  | locked
  | receiving
  | received (c : Nat)
  | failed (c n : Nat)
  | failedSend (m c n : Nat)
  | opened (r : Option Nat)
  | closing (c : Nat)
  | closeSend (m : Nat)
  | using (c n : Nat)
  | usingSend (m c n : Nat)
  | poolClosing
  | poolClose (rest : List Nat)
  | poolCloseConn (c : Nat) (rest : List Nat)
  | poolClosed (ok : Bool)
  | panicking
  | done (r : Ret)
deriving DecidableEq

/-- What the environment decides: nothing; the outcome of `initialize` (no socket; success; failure with a socket, setting
`connErr` or not, and calling `Close` `n` times before the call in `initialize` itself); that closing the statement or
rolling back the transaction fails; that closing the socket fails; that `initialize` panics, after it has dialed; that closing
the statement or rolling back the transaction does, in `Close` of the pool. A panic in `Close` that a client calls does to the pool what `stmtFails`
does, one in another call on a connection nothing: they are not told apart. -/
inductive Choice
  | go
  | dialFail
  | initOk
  | initFail (connErr : Bool) (n : Nat)
  | stmtFails
  | closeErr
  | panics
  | closePanics
deriving DecidableEq

/-- `reclaim` (driver.go:176-189) up to the send. -/
def reclaim (p : Pool) (c : Nat) : Pool × Nat :=
  let k := p.conns c
  let v := if k.connErr || k.closed then PConn.fresh else k
  ({ p with conns := upd p.conns p.nConns v, nConns := p.nConns + 1 }, p.nConns)

/-- What `Close` of a connection comes to: a return, with a nil error or not, or the send in `reclaim`. -/
inductive Closing
  | ret (p : Pool) (ok : Bool)
  | send (p : Pool) (m : Nat)

/-- `boltConn.Close` (conn.go:361-400). Closing a socket a second time fails. -/
def closeConn (ch : Choice) (p : Pool) (c : Nat) : Closing :=
  let k := p.conns c
  if k.closed then .ret p true
  else if ch = .stmtFails then .ret p false
  else if k.pooled then .send (reclaim p c).1 (reclaim p c).2
  else
    match k.sock with
    | none => .ret p true
    | some s =>
      let bad := ch = .closeErr || p.shut s
      .ret { p with shut := upd p.shut s true, conns := upd p.conns c { k with closed := true, connErr := k.connErr || bad } } !bad

/-- `connectionNilOrClosed` (driver.go:143-155): a read of no bytes fails exactly when the socket was closed on this side
(`poll.FD.Read`); for TLS not even then. -/
def nilOrClosed (p : Pool) (c : Nat) : Bool :=
  match (p.conns c).sock with
  | none => true
  | some s => p.shut s

/-- `d.pool <- m` (driver.go:191), when there is room. -/
def send (p : Pool) (m : Nat) (next : PC) : Option (Pool × PC) :=
  if p.chan.length < p.max then some ({ p with chan := p.chan ++ [m] }, next) else none

/-- One step of a call; `none` when it has to wait or is finished. -/
def step (p : Pool) (ch : Choice) : PC → Option (Pool × PC)
  | .opening => if p.lock then none else some ({ p with lock := true }, .locked)
  | .locked => if p.closed then some (p, .opened none) else some (p, .receiving)
  | .receiving =>
    match p.chan with
    | [] => none
    | c :: r => some ({ p with chan := r }, .received c)
  | .received c =>
    if nilOrClosed p c then
      match ch with
      | .dialFail => some ({ p with conns := upd p.conns c { p.conns c with sock := none } }, .failed c 1)
      | .initOk =>
        some ({ p with
          conns := upd p.conns c { p.conns c with sock := some p.nSocks }
          inited := upd p.inited p.nSocks true
          nSocks := p.nSocks + 1
          refs := p.refs ++ [c] }, .opened (some c))
      | .initFail e n =>
        some ({ p with
          conns := upd p.conns c { p.conns c with sock := some p.nSocks, connErr := (p.conns c).connErr || e }
          nSocks := p.nSocks + 1 }, .failed c (n + 1))
      | .panics =>
        some ({ p with
          conns := upd p.conns c { p.conns c with sock := some p.nSocks }
          nSocks := p.nSocks + 1 }, .panicking)
      | _ => none
    else some (p, .opened (some c))
  | .failed _ 0 => some (p, .opened none)
  | .failed c (n + 1) =>
    match closeConn .go p c with
    | .ret p _ => some (p, .failed c n)
    | .send p m => some (p, .failedSend m c n)
  | .failedSend m c n => send p m (.failed c n)
  | .opened none => some ({ p with lock := false }, .done .openFailed)
  | .opened (some c) => some ({ p with lock := false, out := p.out ++ [c], handed := p.handed ++ [c] }, .done (.opened c))
  | .closing c =>
    match closeConn ch p c with
    | .ret p true => some (p, .done (.closed true))
    | .ret p false => some ({ p with out := p.out ++ [c] }, .done (.closed false))
    | .send p m => some (p, .closeSend m)
  | .closeSend m => send p m (.done (.closed true))
  | .using _ 0 => some (p, .done .used)
  | .using c (n + 1) =>
    match closeConn ch p c with
    | .ret p _ => some (p, .using c n)
    | .send p m => some (p, .usingSend m c n)
  | .usingSend m c n => send p m (.using c n)
  | .poolClosing => if p.lock then none else some ({ p with lock := true }, .poolClose p.refs)
  | .poolClose [] => some ({ p with closed := true }, .poolClosed true)
  | .poolClose (c :: rest) =>
    some ({ p with conns := upd p.conns c { p.conns c with pooled := false } }, .poolCloseConn c rest)
  | .poolCloseConn c rest =>
    if ch = .closePanics ∧ (p.conns c).closed = false then some (p, .panicking)
    else
      match closeConn ch p c with
      | .ret p true => some (p, .poolClose rest)
      | .ret p false => some ({ p with closed := true }, .poolClosed false)
      | .send _ _ => none
  | .poolClosed ok => some ({ p with lock := false }, .done (.poolClosed ok))
  | .panicking => some ({ p with lock := false }, .done .panicked)
  | .done _ => none

/-- The calls a client can make. `use c e n` is any other call on a connection: it sets `connErr` when `e`, and calls
`Close` `n` times. -/
inductive Call
  | openPool
  | close (c : Nat)
  | use (c : Nat) (e : Bool) (n : Nat)
  | poolClose
deriving DecidableEq

/-- Calling. A connection counts as closed from the call of `Close` on, unless that returns an error. -/
def Call.start (p : Pool) : Call → Pool × PC
  | .openPool => (p, .opening)
  | .close c => ({ p with out := p.out.erase c }, .closing c)
  | .use c e n => ({ p with conns := upd p.conns c { p.conns c with connErr := (p.conns c).connErr || e } }, .using c n)
  | .poolClose => (p, .poolClosing)

/-- A client can only use connections that it was given. -/
def Call.legal (p : Pool) : Call → Prop
  | .close c | .use c _ _ => c ∈ p.handed
  | _ => True

instance (p : Pool) (k : Call) : Decidable (k.legal p) := by
  cases k <;> unfold Call.legal <;> infer_instance

/-- The pool and all calls. -/
structure State where
  pool : Pool
  calls : List PC

/-- What happens next: a client makes a call, or call number `i` goes on. -/
inductive Act
  | call (k : Call)
  | run (i : Nat) (ch : Choice)
deriving DecidableEq

/-- The next state; `none` when this cannot happen. -/
def State.next (s : State) : Act → Option State
  | .call k => if k.legal s.pool then some ⟨(k.start s.pool).1, s.calls ++ [(k.start s.pool).2]⟩ else none
  | .run i ch =>
    match s.calls[i]? with
    | none => none
    | some pc =>
      match step s.pool ch pc with
      | none => none
      | some (p, pc') => some ⟨p, s.calls.set i pc'⟩

/-- All of these, in this order. -/
def State.exec (s : State) : List Act → Option State
  | [] => some s
  | a :: as =>
    match s.next a with
    | none => none
    | some s => s.exec as

/-- A new pool. -/
def State.init (max : Nat) : State := ⟨.new max, []⟩

end Bolt.Pooling
