import Verif.Model.Stream

/-!
# Opening a connection: conn.go:88-317, driver.go:12-26, structures/messages/init.go

`net.Dial`, `tls.Dial`, `url.Parse` and reading certificates are given by their results. The recorder
(conn.go:269-284) is not used.
-/

namespace Bolt

/-! ## The connection string -/

/-- A parsed URL (`url.Parse`, conn.go:122) as far as the driver looks at it: `user` is the user name and, when there
is one, the password; `query k` is `url.Query().Get(k)`, empty when absent. -/
structure URL where
  scheme : Str
  user : Option (Str × Option Str)
  host : Str
  query : Str → Str

/-- The fields of `boltConn` that `parseURL` sets (conn.go:68-79); `timeout` in nanoseconds. -/
structure Config where
  user : Str
  password : Str
  timeout : Int
  useTLS : Bool
  certFile : Str
  caCertFile : Str
  keyFile : Str
  tlsNoVerify : Bool

/-- `createBoltConn` (conn.go:88-95) -/
def newConfig : Config where
  user := []
  password := []
  timeout := 60 * 10 ^ 9
  useTLS := false
  certFile := []
  caCertFile := []
  keyFile := []
  tlsNoVerify := false

/-- The option names (conn.go:138, 148, 152-155): `timeout`, `tls`, `tls_cert_file`, `tls_key_file`, `tls_ca_cert_file`,
`tls_no_verify`. -/
def kTimeout : Str := [116, 105, 109, 101, 111, 117, 116]
/-- see `kTimeout` -/
def kTLS : Str := [116, 108, 115]
/-- see `kTimeout` -/
def kCert : Str := kTLS ++ [95, 99, 101, 114, 116, 95, 102, 105, 108, 101]
/-- see `kTimeout` -/
def kKey : Str := kTLS ++ [95, 107, 101, 121, 95, 102, 105, 108, 101]
/-- see `kTimeout` -/
def kCA : Str := kTLS ++ [95, 99, 97, 95, 99, 101, 114, 116, 95, 102, 105, 108, 101]
/-- see `kTimeout` -/
def kNoVerify : Str := kTLS ++ [95, 110, 111, 95, 118, 101, 114, 105, 102, 121]

/-- `unicode.ToLower` of an ASCII character. -/
def lower (b : UInt8) : UInt8 := if 65 ≤ b ∧ b ≤ 90 then b + 32 else b

/-- `strings.ToLower` (conn.go:125, 149, 156). Characters beyond ASCII are left alone; Go maps some of them too, but
none to one of the letters b, o, l, t that the driver compares with. -/
def toLower (s : Str) : Str := s.map lower

/-- A decimal digit. -/
def digit (b : UInt8) : Option Nat := if 48 ≤ b ∧ b ≤ 57 then some (b.toNat - 48) else none

/-- The digits of a number. -/
def digits : Nat → Str → Option Nat
  | acc, [] => some acc
  | acc, b :: r =>
    match digit b with
    | none => none
    | some d => digits (acc * 10 + d) r

/-- The magnitude and sign of a number, in the range of `int`. -/
def signed (neg : Bool) (t : Str) : Option Int :=
  if t = [] then none
  else
    match digits 0 t with
    | none => none
    | some n => if neg then (if n ≤ 2 ^ 63 then some (-n) else none) else (if n < 2 ^ 63 then some n else none)

/-- `strconv.Atoi` (conn.go:140) for a 64-bit `int`. -/
def atoi (s : Str) : Option Int :=
  match s with
  | 45 :: t => signed true t
  | 43 :: t => signed false t
  | t => signed false t

/-- `strings.HasPrefix(strings.ToLower(s), "t") || s == "1"` (conn.go:149, 156) -/
def isTrue (s : Str) : Bool := (toLower s).head? == some 116 || s == [49]

/-- conn.go:129-136 -/
def setLogin (c : Config) (u : URL) : Except GoErr Config :=
  match u.user with
  | none => .ok c
  | some (_, none) => .error (.new "Must specify password when passing user")
  | some (n, some p) => .ok { c with user := n, password := p }

/-- conn.go:138-146 -/
def setTimeout (c : Config) (u : URL) : Except GoErr Config :=
  if u.query kTimeout = [] then .ok c
  else
    match atoi (u.query kTimeout) with
    | none => .error (.new "Invalid format for timeout: %s.  Must be integer")
    | some n => .ok { c with timeout := wrapSigned 8 (n * 10 ^ 9) }

/-- conn.go:148-157 -/
def setTLS (c : Config) (u : URL) : Config :=
  if isTrue (u.query kTLS) then
    { c with
      useTLS := true
      certFile := u.query kCert
      keyFile := u.query kKey
      caCertFile := u.query kCA
      tlsNoVerify := isTrue (u.query kNoVerify) }
  else { c with useTLS := false }

/-- `parseURL` (conn.go:119-170) after `url.Parse` succeeded. On an error the fields already assigned do not matter. -/
def parseURL (c : Config) (u : URL) : Except GoErr Config :=
  if toLower u.scheme ≠ [98, 111, 108, 116] then
    .error (.new "Unsupported connection string scheme: %s. Driver only supports 'bolt' scheme.")
  else
    match setLogin c u with
    | .error e => .error e
    | .ok c =>
      match setTimeout c u with
      | .error e => .error e
      | .ok c => .ok (setTLS c u)

/-- What `tlsConfig` sets in `tls.Config`; the versions are fixed (conn.go:201-204). Certificates are given by the files
they come from. -/
structure TLS where
  rootCAs : Option Bytes
  certificate : Option (Str × Str)
  insecureSkipVerify : Bool

/-- `tlsConfig` (conn.go:200-236); `readFile` and `loadPair` are `ioutil.ReadFile` and `tls.LoadX509KeyPair`. The result
of `AppendCertsFromPEM` is ignored, as in the code: a file without certificates gives an empty pool. -/
def tlsConfig (readFile : Str → Except GoErr Bytes) (loadPair : Str → Str → Option GoErr) (c : Config) : Except GoErr TLS :=
  let ca : Except GoErr (Option Bytes) :=
    if c.caCertFile = [] then .ok none
    else
      match readFile c.caCertFile with
      | .error e => .error e
      | .ok b => .ok (some b)
  match ca with
  | .error e => .error e
  | .ok ca =>
    if c.certFile = [] then .ok { rootCAs := ca, certificate := none, insecureSkipVerify := c.tlsNoVerify }
    else if c.keyFile = [] then .error (.new "If you're providing a cert file, you must also provide a key file")
    else
      match loadPair c.certFile c.keyFile with
      | some e => .error e
      | none => .ok { rootCAs := ca, certificate := some (c.certFile, c.keyFile), insecureSkipVerify := c.tlsNoVerify }

/-! ## Handshake -/

/-- `magicPreamble` and `supportedVersions` (driver.go:13-20) -/
def handShakeBytes : Bytes := [0x60, 0x60, 0xB0, 0x17, 0, 0, 0, 1, 0, 0, 0, 0, 0, 0, 0, 0, 0, 0, 0, 0]

/-- State of the socket during the handshake; `connErr` = the field is non-nil. -/
structure Sock where
  sink : Sink
  src : Source
  connErr : Bool

/-- `boltConn.Read` (conn.go:320-337) of at most `n` bytes. Setting the deadline is assumed to succeed. -/
def Sock.read (k : Sock) (n : Nat) : Sock × Bytes × Option GoErr :=
  match k.src.read n with
  | (r, b, none) => ({ k with src := r }, b, none)
  | (r, b, some e) => if e.isEOF then ({ k with src := r }, b, some e) else ({ k with src := r, connErr := true }, b, some .badConn)

/-- `boltConn.Write` (conn.go:340-357): the number of bytes written, and the error. -/
def Sock.write (k : Sock) (p : Bytes) : Sock × Nat × Option GoErr :=
  match k.sink.write p with
  | (w, true) => ({ k with sink := w }, p.length, none)
  | (w, false) => ({ k with sink := w, connErr := true }, w.out.length - k.sink.out.length, some .badConn)

/-- `errors.Wrap` if there is an error (conn.go:242-245, 251-254). -/
def wrapIf (msg : String) : Option GoErr → Option GoErr
  | none => none
  | some e => some (.wrap msg (some e))

/-- `boltConn.handShake` (conn.go:238-261). A write or read of the wrong size without an error returns a nil error. -/
def handShake (k : Sock) : Sock × Option GoErr :=
  match k.write handShakeBytes with
  | (k, n, err) =>
    if n ≠ 20 then (k, wrapIf "An error occurred writing magic preamble + supported versions" err)
    else
      match k.read 4 with
      | (k, v, err) =>
        if v.length ≠ 4 then (k, wrapIf "An error occurred reading server version" err)
        else if v = [0, 0, 0, 0] then (k, some (.new "Server responded with no supported version"))
        else (k, none)

/-! ## INIT -/

/-- `ClientID` (driver.go:23-25): "GolangNeo4jBolt/1.0" -/
def clientID : Str := [71, 111, 108, 97, 110, 103, 78, 101, 111, 52, 106, 66, 111, 108, 116, 47, 49, 46, 48]

/-- `NewInitMessage` (structures/messages/init.go:15-33): the authentication token: scheme none, or scheme basic with
principal and credentials. -/
def authToken (user password : Str) : KVs :=
  if user = [] then [([115, 99, 104, 101, 109, 101], .str [110, 111, 110, 101])]
  else
    [([115, 99, 104, 101, 109, 101], .str [98, 97, 115, 105, 99]),
     ([112, 114, 105, 110, 99, 105, 112, 97, 108], .str user),
     ([99, 114, 101, 100, 101, 110, 116, 105, 97, 108, 115], .str password)]

section
variable {σ : Type} (P : Peer σ) (close : M σ (Option GoErr))

/-- `sendInit` (conn.go:613-622). `tok` is the token in the order in which the encoder visits the map. -/
def sendInit (tok : KVs) : M σ (Val × Option GoErr) := do
  match ← send P (.init clientID tok) with
  | some e => M.pure (.nil, some (.wrap "An error occurred sending init message" (some e)))
  | none => consume P close

/-- `initialize` (conn.go:263-317) after the handshake. -/
def initSession (tok : KVs) : M σ (Option GoErr) := do
  match ← sendInit P close tok with
  | (_, some e) =>
    let _ ← close
    M.pure (some e)
  | (.success _, none) => M.pure none
  | (_, none) =>
    M.modify fun w => { w with connErr := true }
    let _ ← close
    M.pure (some .badConn)

end

/-- The connection (`createBoltConn`, conn.go:88-95) on this socket. -/
def Sock.world (k : Sock) (sockCloseErr : Bool) : World Bool where
  stmts := []
  rows := []
  txs := []
  statement := none
  transaction := none
  closed := false
  connErr := k.connErr
  chunkSize := 65535
  sockCloseErr := sockCloseErr
  sink := k.sink
  inbox := k.src.items
  srv := k.src.atEOF
  log := []

/-- `initialize` (conn.go:263-317) after dialling succeeded, with `close` for `c.Close()`; the server's side of the
conversation is the stream `k.src`, everything it will ever send. -/
def initConn (close : M Bool (Option GoErr)) (tok : KVs) (k : Sock) (sockCloseErr : Bool) : Out Bool (Option GoErr) :=
  match handShake k with
  | (k, some e) => (do
      let _ ← close
      M.pure (some e) : M Bool (Option GoErr)) (k.world sockCloseErr)
  | (k, none) => initSession mute close tok (k.world sockCloseErr)

/-- `newBoltConn` (conn.go:98-109) without a recorder, from the connection string to the session: `dial` is the result
of `tls.Dial` or `net.DialTimeout` for this configuration, `order` the order in which the map is visited. When dialling
fails there is nothing to close (conn.go:391). -/
def newBoltConn (dial : Config → Except GoErr Sock) (order : KVs → KVs) (n : Nat) (u : URL) (sockCloseErr : Bool) : Except GoErr (Out Bool (Option GoErr)) :=
  match parseURL newConfig u with
  | .error e => .error (.wrap "An error occurred initializing connection" (some (.wrap "An error occurred parsing the conn URL" (some e))))
  | .ok c =>
    match dial c with
    | .error e => .error (.wrap "An error occurred initializing connection" (some (.wrap "An error occurred dialing to neo4j" (some e))))
    | .ok k => .ok (initConn (closeN mute n) (order (authToken c.user c.password)) k sockCloseErr)

end Bolt
