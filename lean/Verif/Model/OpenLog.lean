import Verif.Model.Opening
import Verif.Model.Transient
import Verif.Model.Log
import Verif.Model.Trace

/-!
# What is logged while a connection is opened: conn.go:119-170, 238-317, 402-472, 551-573, 613-622

The functions of Model/Opening.lean and Model/Session.lean once more, with the calls of the package log. Without the log they
do the same (`c102_same`). Arguments printed with `%s`, `%+v` and `%#v` are printed by functions that are given, one for
values and one for errors. `Close` logs nothing (conn.go:383 is not reached: `reclaim` returns nil). Left out: the trace log
of reads, which shows what the server sent; `Trace` of the time-out and of the host (conn.go:159-160).
-/

namespace Bolt.Logging

/-- A call of the package log. -/
abbrev Line := Fn × Str

/-- A call on the connection, with what it logs. -/
abbrev ML (α : Type) := World Bool → List Line × Out Bool α

/-- return -/
def ML.pure (a : α) : ML α := fun w => ([], .ok a w)

/-- sequence -/
def ML.bind (x : ML α) (f : α → ML β) : ML β := fun w =>
  match x w with
  | (l, .ok a w') => (l ++ (f a w').1, (f a w').2)
  | (l, .panic p w') => (l, .panic p w')
  | (l, .deep w') => (l, .deep w')

instance : Monad ML where
  pure := ML.pure
  bind := ML.bind

/-- a call of the package log -/
def say (f : Fn) (s : Str) : ML Unit := fun w => ([(f, s)], .ok () w)

/-- something that logs nothing -/
def quiet (x : M Bool α) : ML α := fun w => ([], x w)

/-- `boltConn.Write` (conn.go:340-357) with its log. -/
def tracedWrite : Writer (Sink × List Line) := fun s p =>
  let r := s.1.write p
  ((r.1, s.2 ++ [(.tracef, writeLine p (r.1.out.length - s.1.out.length))]), r.2)

/-- `Encode` with the log of its writes. -/
def sendL (v : Val) : ML (Option GoErr) := fun w => ((encodeVia tracedWrite w.chunkSize (w.sink, []) v).1.2, send mute v w)

section
variable (pv : Val → Str) (pe : GoErr → Str)

/-- The IGNORED messages that a loop skips (conn.go:418-420, 452-454). -/
def skipL (s : String) : ML Unit := fun w =>
  ((w.inbox.takeWhile Item.isIgnored).map fun _ => (.infof, txt s ++ pv .ignored), skipIgnored w)

/-- `reset` (conn.go:436-472) -/
def resetL (close : M Bool (Option GoErr)) : ML (Option GoErr) := do
  say .info (txt "Resetting session")
  match ← sendL .reset with
  | some e => ML.pure (some (.wrap "An error occurred encoding reset message" (some e)))
  | none =>
    skipL pv "Got ignored message when resetting session: "
    match ← quiet (recv mute) with
    | (_, some e) => ML.pure (some (.wrap "An error occurred decoding reset message response" (some e)))
    | (.success md, none) =>
      say .infof (txt "Got success message when resetting session: " ++ pv (.success md))
      ML.pure none
    | (.failure md, none) =>
      say .errorf (txt "Got failure message when resetting session: " ++ pv (.failure md))
      match ← quiet close with
      | some e => say .errorf (txt "An error occurred closing the session: " ++ pe e)
      | none => ML.pure ()
      ML.pure (some (.wrap "Error resetting session. CLOSING SESSION!" (some (.failure md))))
    | (v, none) =>
      say .errorf (txt "Got unrecognized response from resetting session: " ++ pv v)
      quiet (M.modify fun w => { w with connErr := true })
      let _ ← quiet close
      ML.pure (some .badConn)

/-- `ackFailure` (conn.go:402-434) -/
def ackFailureL (close : M Bool (Option GoErr)) (md : KVs) : ML (Option GoErr) := do
  say .infof (txt "Acknowledging Failure: " ++ pv (.failure md))
  match ← sendL .ackFailure with
  | some e => ML.pure (some (.wrap "An error occurred encoding ack failure message" (some e)))
  | none =>
    skipL pv "Got ignored message when acking failure: "
    match ← quiet (recv mute) with
    | (_, some e) => ML.pure (some (.wrap "An error occurred decoding ack failure message response" (some e)))
    | (.success md, none) =>
      say .infof (txt "Got success message when acking failure: " ++ pv (.success md))
      ML.pure none
    | (.failure md, none) =>
      say .errorf (txt "Got failure message when acking failure: " ++ pv (.failure md))
      resetL pv pe close
    | (v, none) =>
      say .errorf (txt "Got unrecognized response from acking failure: " ++ pv v)
      quiet (M.modify fun w => { w with connErr := true })
      let _ ← quiet close
      ML.pure (some .badConn)

/-- `consume` (conn.go:551-573) -/
def consumeL (close : M Bool (Option GoErr)) : ML (Val × Option GoErr) := do
  say .info (txt "Consuming response from bolt stream")
  match ← quiet (recv mute) with
  | (v, some e) => ML.pure (v, some e)
  | (.failure md, none) =>
    say .tracef (txt "Consumed Response: " ++ pv (.failure md))
    say .errorf (txt "Got failure message: " ++ pv (.failure md))
    match ← ackFailureL pv pe close md with
    | some e => ML.pure (.nil, some e)
    | none => ML.pure (.failure md, some (.wrap "Neo4J reported a failure for the query" (some (.failure md))))
  | (v, none) =>
    say .tracef (txt "Consumed Response: " ++ pv v)
    ML.pure (v, none)

/-- `sendInit` (conn.go:613-622) -/
def sendInitL (close : M Bool (Option GoErr)) (user : Str) (tok : KVs) : ML (Val × Option GoErr) := do
  say .infof (txt "Sending INIT Message. ClientID: " ++ clientID ++ txt " User: " ++ user)
  match ← sendL (.init clientID tok) with
  | some e => ML.pure (.nil, some (.wrap "An error occurred sending init message" (some e)))
  | none => consumeL pv pe close

/-- `c.Close()` and the log of its error (conn.go:293-295, 301-303) -/
def closeL (close : M Bool (Option GoErr)) : ML Unit := do
  match ← quiet close with
  | some e => say .errorf (txt "An error occurred closing connection: " ++ pe e)
  | none => ML.pure ()

/-- `initialize` (conn.go:263-317) after the handshake -/
def initSessionL (close : M Bool (Option GoErr)) (user : Str) (tok : KVs) : ML (Option GoErr) := do
  match ← sendInitL pv pe close user tok with
  | (_, some e) =>
    closeL pe close
    ML.pure (some e)
  | (.success md, none) =>
    say .infof (txt "Successfully initiated Bolt connection: " ++ pv (.success md))
    ML.pure none
  | (v, none) =>
    say .errorf (txt "Got an unrecognized message when initializing connection :" ++ pv v)
    quiet (M.modify fun w => { w with connErr := true })
    let _ ← quiet close
    ML.pure (some .badConn)

/-- `handShake` (conn.go:238-261). `%s` of the four bytes of the version prints them as they are. -/
def handShakeL (k : Sock) : List Line × Sock × Option GoErr :=
  let out : Line := (.tracef, writeLine handShakeBytes (k.write handShakeBytes).2.1)
  match k.write handShakeBytes with
  | (k', n, _) =>
    if n ≠ 20 then
      ([out, (.errorf, txt "Couldn't write expected bytes for magic preamble + supported versions. Written: " ++ decimal n ++ txt ". Expected: 4")], handShake k)
    else
      match k'.read 4 with
      | (_, v, _) =>
        if v.length ≠ 4 then
          ([out, (.errorf, txt "Could not read server version response. Read " ++ decimal v.length ++ txt " bytes. Expected 4 bytes. Output: " ++ v ++ List.replicate (4 - v.length) 0)], handShake k)
        else ([out], handShake k)

/-- `initialize` (conn.go:263-317) after dialling succeeded -/
def initConnL (close : M Bool (Option GoErr)) (user : Str) (tok : KVs) (k : Sock) (sockCloseErr : Bool) : List Line × Out Bool (Option GoErr) :=
  match handShakeL k with
  | (l, k, some e) =>
    let r := (do
      closeL pe close
      ML.pure (some e) : ML (Option GoErr)) (k.world sockCloseErr)
    (l ++ r.1, r.2)
  | (l, k, none) =>
    let r := initSessionL pv pe close user tok (k.world sockCloseErr)
    (l ++ r.1, r.2)

/-- `parseURL` (conn.go:159-167): the user and the password logged are those of two variables that are never assigned. -/
def parseLog (c : Config) : List Line :=
  [(.trace, txt "User:  " ++ []), (.trace, txt "Password:  " ++ []), (.trace, txt "TLS:  " ++ txt (if c.useTLS then "true" else "false")),
   (.trace, txt "TLS No Verify:  " ++ txt (if c.tlsNoVerify then "true" else "false")), (.trace, txt "Cert File:  " ++ c.certFile),
   (.trace, txt "Key File:  " ++ c.keyFile), (.trace, txt "CA Cert File:  " ++ c.caCertFile)]

/-- `newBoltConn` (conn.go:98-109) with its log. -/
def newBoltConnL (dial : Config → Except GoErr Sock) (order : KVs → KVs) (n : Nat) (u : URL) (sockCloseErr : Bool) : List Line × Except GoErr (Out Bool (Option GoErr)) :=
  match parseURL newConfig u with
  | .error e => ([], .error (.wrap "An error occurred initializing connection" (some (.wrap "An error occurred parsing the conn URL" (some e)))))
  | .ok c =>
    match dial c with
    | .error e => (parseLog c, .error (.wrap "An error occurred initializing connection" (some (.wrap "An error occurred dialing to neo4j" (some e)))))
    | .ok k =>
      let r := initConnL pv pe (closeN mute n) c.user (order (authToken c.user c.password)) k sockCloseErr
      (parseLog c ++ r.1, .ok r.2)

end

/-- What is printed at this level (`run`, Model/Log.lean). -/
def printed (lv : Level) (ls : List Line) : List (Logger × Str) := Logging.run lv (ls.map fun l => .print l.1 l.2)

end Bolt.Logging
