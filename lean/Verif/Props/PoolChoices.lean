import Verif.Props.Pool3
import Verif.Props.Opening

/-!
# What the model of the pool leaves open does happen

The runs in `Props/Pool1.lean` choose what a server does to a connection. These are sessions with servers that do it, in the
models of sessions and of opening a connection. And C52.
-/

namespace Bolt.Pooling
open Bolt

/-- `Close` of a pooled connection without an open statement or transaction (conn.go:383-389): `reclaim`, and no field of
the connection changes. It leaves a mark in the log. -/
def pooledClose {σ : Type} : M σ (Option GoErr) := fun w => .ok none { w with log := w.log ++ [.send .nil none] }

/-- How often it was called. -/
def closes' (log : List Event) : Nat := log.countP fun | .send .nil _ => true | _ => false

/-- The server refuses everything. -/
def refusing : List (List Item) := [[.val (.failure [])], [.val (.failure [])], [.val (.failure [])]]

/-- `use c false 1`: a query fails, and so do ACK_FAILURE and RESET. -/
theorem use_refused : ∃ e w, execNeo script pooledClose [65] [] (scriptConn refusing) = .ok (.error e) w ∧ w.connErr = false ∧ closes' w.log = 1 := by
  obtain ⟨a, w, h1, h2⟩ := Out.of_test (o := execNeo script pooledClose [65] [] (scriptConn refusing))
    (p := fun a w => (match a with | .error _ => true | .ok _ => false) && !w.connErr && closes' w.log == 1) (by decide +kernel)
  cases a with
  | ok _ => cases h2
  | error e => exact ⟨e, w, h1, by simpa using h2⟩

/-- `use c false 0` with a socket that is of no use any more: the server closes the connection. -/
theorem use_eof : ∃ e w, execNeo script pooledClose [65] [] (scriptConn [[.eof]]) = .ok (.error e) w ∧ w.connErr = false ∧ closes' w.log = 0 := by
  obtain ⟨a, w, h1, h2⟩ := Out.of_test (o := execNeo script pooledClose [65] [] (scriptConn [[.eof]]))
    (p := fun a w => (match a with | .error _ => true | .ok _ => false) && !w.connErr && closes' w.log == 0) (by decide +kernel)
  cases a with
  | ok _ => cases h2
  | error e => exact ⟨e, w, h1, by simpa using h2⟩

/-- `initFail false 1`: the server refuses INIT, ACK_FAILURE and RESET; `Close` is called in `reset` and in `initialize`. -/
theorem init_refused : ∃ e w, initSession script pooledClose (authToken [] []) (scriptConn refusing) = .ok (some e) w ∧ w.connErr = false ∧ closes' w.log = 2 := by
  obtain ⟨a, w, h1, h2⟩ := Out.of_test (o := initSession script pooledClose (authToken [] []) (scriptConn refusing))
    (p := fun a w => a.isSome && !w.connErr && closes' w.log == 2) (by decide +kernel)
  cases a with
  | none => cases h2
  | some e => exact ⟨e, w, h1, by simpa using h2⟩

/-- `initFail false 0`: the server supports no version of the protocol. -/
theorem init_noVersion (s : Bool) : ∃ e w, initConn pooledClose (authToken [] []) (sock [[0, 0, 0, 0]] .eof) s = .ok (some e) w ∧ w.connErr = false ∧ closes' w.log = 1 := by
  obtain ⟨a, w, h1, h2⟩ := Out.of_test (o := initConn pooledClose (authToken [] []) (sock [[0, 0, 0, 0]] .eof) s)
    (p := fun a w => a.isSome && !w.connErr && closes' w.log == 1) (by cases s <;> decide +kernel)
  cases a with
  | none => cases h2
  | some e => exact ⟨e, w, h1, by simpa using h2⟩

/-- `initFail true 0`: the server answers INIT with something else. -/
theorem init_strange : ∃ e w, initSession script pooledClose (authToken [] []) (scriptConn [[.val (.record [])]]) = .ok (some e) w ∧ w.connErr = true ∧ closes' w.log = 1 := by
  obtain ⟨a, w, h1, h2⟩ := Out.of_test (o := initSession script pooledClose (authToken [] []) (scriptConn [[.val (.record [])]]))
    (p := fun a w => a.isSome && w.connErr && closes' w.log == 1) (by decide +kernel)
  cases a with
  | none => cases h2
  | some e => exact ⟨e, w, h1, by simpa using h2⟩

/-- C52 is false: when the server closes the connection during a call, the call returns an error and `connErr` is not set;
closing the connection puts the dead socket back into the pool, and the next `OpenPool` returns it. -/
theorem c52_false :
    (∃ e w, execNeo script pooledClose [65] [] (scriptConn [[.eof]]) = .ok (.error e) w ∧ w.connErr = false ∧ closes' w.log = 0) ∧
    ∃ s, Reach .client (.init 1) s ∧ s.calls = [.done (.opened 0), .done .used, .done (.closed true), .done (.opened 1)] ∧ sockOf s 0 = some 0 ∧ sockOf s 1 = some 0 :=
  ⟨use_eof, _, client_after (as := openNew 0 ++ [.call (.use 0 false 0), .run 1 .go] ++ closeIt 2 0 ++ openOld 3) (by decide), by decide, by decide, by decide⟩

end Bolt.Pooling
