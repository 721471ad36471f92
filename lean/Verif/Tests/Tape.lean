import Verif.Model.Opening
import Verif.Model.Surface
import Verif.Spec.Histories

/-!
# Replaying recorded sessions

A recording is the list of what was written to and read from the socket, message by message. The peer `tape` accepts
exactly the recorded writes and answers each with the reads recorded after it. These are tests: they compare the model
with what the driver did when the recordings in /repo/recordings were made.
-/

namespace Bolt.Tests

mutual

/-- Equality of values as a test. -/
def same : Val → Val → Bool
  | .nil, .nil => true
  | .bool a, .bool b => a == b
  | .int k a, .int l b => decide (k = l) && a == b
  | .float32 a, .float32 b => a == b
  | .float64 a, .float64 b => a == b
  | .str a, .str b => a == b
  | .list a, .list b => sameL a b
  | .map a, .map b => sameM a b
  | .node i l p, .node j m q => i == j && l == m && sameM p q
  | .rel i s e t p, .rel j f g u q => i == j && s == f && e == g && t == u && sameM p q
  | .unbound i t p, .unbound j u q => i == j && t == u && sameM p q
  | .path n r s, .path m q t => sameL n m && sameL r q && s == t
  | _, _ => false

/-- … of lists -/
def sameL : List Val → List Val → Bool
  | [], [] => true
  | a :: as, b :: bs => same a b && sameL as bs
  | _, _ => false

/-- … of maps -/
def sameM : List (Str × Val) → List (Str × Val) → Bool
  | [], [] => true
  | (k, a) :: as, (l, b) :: bs => k == l && same a b && sameM as bs
  | _, _ => false

end

/-- Two lists of records. -/
def sameRows : List (List Val) → List (List Val) → Bool
  | [], [] => true
  | a :: as, b :: bs => sameL a b && sameRows as bs
  | _, _ => false

/-- Two lists of maps. -/
def sameMs : List KVs → List KVs → Bool
  | [], [] => true
  | a :: as, b :: bs => sameM a b && sameMs as bs
  | _, _ => false

/-- Two results. -/
def sameRes : Res → Res → Bool
  | .localError, .localError => true
  | .failure a, .failure b => sameM a b
  | .done, .done => true
  | .summary a, .summary b => sameM a b
  | .summaries a, .summaries b => sameMs a b
  | .rows a, .rows b => sameM a b
  | .row a, .row b => sameL a b
  | .eof a, .eof b => sameM a b
  | .data a h m, .data b i n => sameRows a b && sameM h i && sameM m n
  | .all a m, .all b n => sameRows a b && sameM m n
  | .next h m, .next i n => sameM h i && sameM m n
  | .pipeEnd, .pipeEnd => true
  | _, _ => false

/-- Two lists of results. -/
def sameAll : List Res → List Res → Bool
  | [], [] => true
  | a :: as, b :: bs => sameRes a b && sameAll as bs
  | _, _ => false

/-- The reads at the head of a recording, and the rest. -/
def reads : List (Bool × Bytes) → List Item × List (Bool × Bytes)
  | (false, b) :: evs => let r := reads evs; (Source.items ⟨[b], .eof⟩ ++ r.1, r.2)
  | evs => ([], evs)

/-- A peer that accepts the recorded writes only (`none` after any other) and answers each with the reads that follow. -/
def tape : Peer (Option (List (Bool × Bytes))) where
  react s bs :=
    match s with
    | some ((true, b) :: evs) => if b = bs then let r := reads evs; (some r.2, r.1) else (none, [])
    | _ => (none, [])
  ended _ := false

/-- A new connection to it. -/
def tapeConn (evs : List (Bool × Bytes)) : World (Option (List (Bool × Bytes))) where
  stmts := []
  rows := []
  txs := []
  statement := none
  transaction := none
  closed := false
  connErr := false
  chunkSize := 65535
  sockCloseErr := false
  sink := { out := [], budget := none }
  inbox := []
  srv := some evs
  log := []

/-- The order of writes and reads. -/
def shape : List Event → List Bool
  | [] => []
  | .send _ _ :: l => true :: shape l
  | .recv _ :: l => false :: shape l

/-- The recording is used up, nothing is left unread, reads and writes came in the recorded order, what was written is
what was recorded, and the connection is closed. -/
def finished (evs : List (Bool × Bytes)) (w : World (Option (List (Bool × Bytes)))) : Bool :=
  w.srv == some [] && w.inbox.isEmpty && shape w.log == evs.map Prod.fst &&
    w.sink.out == ((evs.filter Prod.fst).map Prod.snd).flatten && w.closed

/-- The calls give the results and exactly the recorded traffic. -/
def replay (evs : List (Bool × Bytes)) (cs : List (Call KVs)) (rs : List Res) : Bool :=
  (runCalls tape (closeN tape 1) .none cs (tapeConn evs)).test fun x w => sameAll x.1 rs && finished evs w

/-- … after a call that fails -/
def replayAfter {α : Type} (m : M (Option (List (Bool × Bytes))) (Except GoErr α)) (evs : List (Bool × Bytes)) (cs : List (Call KVs)) (rs : List Res) : Bool :=
  match m (tapeConn evs) with
  | .ok (.error _) w => (runCalls tape (closeN tape 1) .none cs w).test fun x w => sameAll x.1 rs && finished evs w
  | _ => false

/-- The handshake and INIT without user: the first four events of a recording. -/
def opening (w1 r1 w2 r2 : Bytes) : Bool :=
  (initConn (closeN mute 1) (authToken [] []) ⟨{ out := [], budget := none }, ⟨[r1, r2], .eof⟩, false⟩ false).test fun e w =>
    e.isNone && w.sink.out == w1 ++ w2 && w.inbox.isEmpty && !w.closed && !w.connErr

/-- `RowsAffected` -/
def affects (md : KVs) (n : Int) : Bool :=
  match rowsAffected md with
  | .ok (m, none) => m == n
  | _ => false

end Bolt.Tests
