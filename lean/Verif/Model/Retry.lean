import Verif.Model.Sql
import Verif.Spec.Reach

/-!
# `database/sql` on top of the driver

What `sql.DB` does with the driver's connections (database/sql/sql.go of the Go distribution, not part of the repository;
its documentation of `driver.ErrBadConn` is the contract: "ErrBadConn should be returned by a driver to signal to the sql
package that a driver.Conn is in a bad state … and the sql package should retry on a new connection"). `DB.Exec`,
`DB.Query`, `DB.Prepare` and `DB.Begin` take an idle connection, or open one when there is none, and make the call on it;
when the error is `driver.ErrBadConn` itself they drop the connection and try again, twice with an idle or new connection and
then once with a new one (`maxBadConnRetries`). With any other outcome the connection goes back to the idle ones, except that
the rows of a query and a transaction keep it.

Simplifications: one call at a time; no limits on the number or the age of connections; giving back what rows and transactions
keep is not modelled; what is left of a call that panics is not modelled; the driver's Close of a dropped connection is not
modelled (nothing refers to the connection any more). `driver.ErrSkip` is never returned by this driver, so `DB.Exec` always ends
in `boltConn.Exec` (conn.go:820), `DB.Query` in `boltConn.Query` (conn.go:749).
-/

namespace Bolt

variable {σ : Type}

/-- A call of the driver on one connection: the connection before and after it. -/
structure Try (σ : Type) where
  before : World σ
  after : World σ

/-- `sql.DB`: the idle connections, how many times a connection was opened, and the calls made so far. -/
structure Db (σ : Type) where
  free : List (World σ)
  opened : Nat
  tries : List (Try σ)

/-- The calls `sql.DB` makes on behalf of its user. -/
inductive SqlCall where
  | exec (q : Str) (args : List DVal)
  | query (q : Str) (args : List DVal)
  | prepare (q : Str)
  | begin

/-- The driver's side of it: `Exec` (conn.go:820-832), `Query` (conn.go:749-755), `Prepare` (conn.go:475-477), `Begin`
(conn.go:507-549); the error it returns. -/
def SqlCall.run (P : Peer σ) (close : M σ (Option GoErr)) : SqlCall → M σ (Option GoErr)
  | .exec q args => do M.pure (exceptErr (← sqlExec P close q args))
  | .query q args => do M.pure (← sqlQuery P close q args).2
  | .prepare q => do M.pure (← apiPrepare q).2
  | .begin => do M.pure (exceptErr (← begin_ P close))

/-- When it succeeds its result keeps the connection: the rows of a query, a transaction. A prepared statement does not. -/
def SqlCall.keeps : SqlCall → Bool
  | .query .. | .begin => true
  | _ => false

/-- `err == driver.ErrBadConn` -/
def isErrBadConn : Option GoErr → Bool
  | some .badConn => true
  | _ => false

/-- The call on a connection, and `releaseConn`. `none`: the call panicked. -/
def Db.on (P : Peer σ) (n : Nat) (c : SqlCall) (d : Db σ) (w : World σ) : Option (Option GoErr × Db σ) :=
  match c.run P (closeN P n) w with
  | .ok e w' =>
    let d := { d with tries := d.tries ++ [⟨w, w'⟩] }
    if isErrBadConn e || (e.isNone && c.keeps) then some (e, d) else some (e, { d with free := d.free ++ [w'] })
  | _ => none

/-- One attempt, with an idle connection (unless `fresh`) or a new one. `dial k` is the outcome of opening the `k`th. -/
def Db.attempt (P : Peer σ) (n : Nat) (dial : Nat → Except GoErr (World σ)) (c : SqlCall) (fresh : Bool) (d : Db σ) : Option (Option GoErr × Db σ) :=
  match fresh, d.free with
  | false, w :: rest => { d with free := rest }.on P n c w
  | _, _ =>
    match dial d.opened with
    | .error e => some (some e, { d with opened := d.opened + 1 })
    | .ok w => { d with opened := d.opened + 1 }.on P n c w

/-- Again, when the error is `driver.ErrBadConn`. -/
def retrying (x : Option (Option GoErr × Db σ)) (k : Db σ → Option (Option GoErr × Db σ)) : Option (Option GoErr × Db σ) :=
  match x with
  | some (e, d) => if isErrBadConn e then k d else some (e, d)
  | none => none

/-- `DB.Exec`, `DB.Query`, `DB.Prepare`, `DB.Begin` -/
def Db.call (P : Peer σ) (n : Nat) (dial : Nat → Except GoErr (World σ)) (c : SqlCall) (d : Db σ) : Option (Option GoErr × Db σ) :=
  retrying (d.attempt P n dial c false) fun d => retrying (d.attempt P n dial c false) fun d => d.attempt P n dial c true

end Bolt
