import Verif.Model.Session

/-!
# The bytes behind the messages

`Verif/Model/Session.lean` lets a connection receive `Item`s. Here is what they stand for: the results of calling
`NewDecoder(c).Decode()` (conn.go:554, 412, 446) again and again on the connection's byte stream.
-/

namespace Bolt

/-- The error is `io.EOF`, which `boltConn.Read` passes on, or another one, which it turns into `ErrBadConn` after
setting `connErr` (conn.go:320-337). -/
def Source.atEOF (r : Source) : Bool := r.err.isEOF

/-- The payload is that of a SUCCESS message: a structure marker, its size, and the signature (decoder.go:227-241,
284-319). Where the payload can be decoded, this is what is found (`isSuccess_val`, Verif/Proofs/Half.lean). -/
def isSuccess : Bytes → Bool
  | m :: t =>
    if m ≥ TinyStructMarker && m ≤ TinyStructMarker + 0x0F then t.head? == some SuccessMessageSignature
    else if m == Struct8Marker then (t.drop 1).head? == some SuccessMessageSignature
    else if m == Struct16Marker then (t.drop 2).head? == some SuccessMessageSignature
    else false
  | [] => false

/-- What `d.decode(data)` (decoder.go:98) makes of a payload. -/
def Item.ofPayload (data : Bytes) : Item :=
  match decodePayload data with
  | .ok (v, _) => .val v
  | .error (.err e) => .bad e (isSuccess data)
  | .error (.panic p) => .boom p
  | .error .fuel => .boom .index

/-- The results of calling `Decode` until the stream is exhausted; `f` bounds their number. A stream that ends inside
a message gives one more error (`io.EOF` or, inside the two length bytes, `io.ErrUnexpectedEOF`, wrapped); with nothing
left, or when the end is a network error, what follows is the peer's `ended`. -/
def itemsOf : Nat → Source → List Item
  | 0, _ => []
  | f + 1, r =>
    match readMsg r with
    | .ok data r' => .ofPayload data :: itemsOf f r'
    | .err e _ => if r.size = 0 then [] else if r.atEOF then [.bad e false] else []

/-- … with a bound that suffices (`items_fuel`, Verif/Proofs/Inbox.lean). -/
def Source.items (r : Source) : List Item := itemsOf (r.size + 1) r

/-- A peer that has sent all it will ever send. -/
def mute : Peer Bool where
  react s _ := (s, [])
  ended s := s

end Bolt
