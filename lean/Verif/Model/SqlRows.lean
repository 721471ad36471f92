import Verif.Model.Retry
import Verif.Model.Surface

/-!
# Rows of `database/sql` on top of the driver

`DB.Query` takes a connection as `Db.call` says and keeps it. `sql.Rows.Next` calls the driver's `Next` with a slice as long as
`Columns`, made once and used for every record; when that returns an error it calls the driver's `Close` and puts the connection back
among the idle ones, unless the error of `Close` is `driver.ErrBadConn` itself (database/sql/sql.go, `Rows.nextLocked` and
`Rows.close`). `sql.Rows.Err` is the error of `Next`, unless that is io.EOF. The error of that `Close` is lost. The simplifications of
`Model/Retry` apply. The user reads a number of records of their choice and then calls `sql.Rows.Close`, if the rows have not ended
before; `DB.QueryRow` is that with one record. The driver's cells are modelled, not what `sql.Rows.Scan` makes of them.
-/

namespace Bolt

variable {σ : Type}

/-- `for rows.Next() { … }` for rows object `r`, left after `m` records: `Next` (rows.go:173-196) until it fails, then `Close`
(rows.go:121-170). The records, what `sql.Rows.Err` returns, and the error of `Close`. -/
def sqlLoop (P : Peer σ) (close : M σ (Option GoErr)) (r : Nat) : Nat → List DVal → List (List DVal) → M σ (List (List DVal) × Option GoErr × Option GoErr)
  | 0, _, out => do
    let c ← rowsClose P close r
    M.pure (out, none, c)
  | m + 1, dest, out => do
    match ← sqlNext P close r dest with
    | .ok cells => sqlLoop P close r m cells (out ++ [cells])
    | .error e =>
      let c ← rowsClose P close r
      M.pure (out, if e.isEOF then none else some e, c)

/-- The loop with the slice `sql.Rows.Next` makes (`Columns`, rows.go:93-113). -/
def sqlRows (P : Peer σ) (close : M σ (Option GoErr)) (m : Nat) (r : Nat) : M σ (List (List DVal) × Option GoErr × Option GoErr) := do
  let cols ← M.get fun w => (columns (w.row r).md).length
  sqlLoop P close r m (List.replicate cols (.plain .nil)) []

/-- `DB.Query` and the loop over at most `m` of its rows: the error of Query, or what the loop gives. The connection is that of the last call made, the rows
object the last made on it (conn.go:789-817). `none`: a call panicked. -/
def Db.rows (P : Peer σ) (n : Nat) (dial : Nat → Except GoErr (World σ)) (q : Str) (args : List DVal) (m : Nat) (d : Db σ) :
    Option (Except GoErr (List (List DVal) × Option GoErr × Option GoErr) × Db σ) :=
  match d.call P n dial (.query q args) with
  | none => none
  | some (some e, d1) => some (.error e, d1)
  | some (none, d1) =>
    match d1.tries.getLast? with
    | none => none
    | some t =>
      match sqlRows P (closeN P n) m (t.after.rows.length - 1) t.after with
      | .ok x w =>
        let d2 := { d1 with tries := d1.tries ++ [⟨t.after, w⟩] }
        some (.ok x, if isErrBadConn x.2.2 then d2 else { d2 with free := d2.free ++ [w] })
      | _ => none

end Bolt
