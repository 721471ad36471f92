import Verif.Spec.PackStream

/-! # The string a PackStream encoding ends with -/

namespace PackStream

mutual
/-- The bytes of string content an encoding of the value ends with; empty if it ends with anything else. -/
def PS.lastText : PS → List UInt8
  | .str s => s
  | .list xs => PS.lastTextList xs
  | .map kvs => PS.lastTextKVs kvs
  | .struct _ fs => PS.lastTextList fs
  | _ => []

/-- Of the last element. -/
def PS.lastTextList : List PS → List UInt8
  | [] => []
  | [x] => PS.lastText x
  | _ :: x :: xs => PS.lastTextList (x :: xs)

/-- Of the value of the last entry. -/
def PS.lastTextKVs : List (List UInt8 × PS) → List UInt8
  | [] => []
  | [(_, x)] => PS.lastText x
  | _ :: x :: xs => PS.lastTextKVs (x :: xs)
end

mutual
/-- The same value with the last `n` bytes of that string missing. -/
def PS.shorten (n : Nat) : PS → PS
  | .str s => .str (s.take (s.length - n))
  | .list xs => .list (PS.shortenList n xs)
  | .map kvs => .map (PS.shortenKVs n kvs)
  | .struct sig fs => .struct sig (PS.shortenList n fs)
  | p => p

/-- In the last element. -/
def PS.shortenList (n : Nat) : List PS → List PS
  | [] => []
  | [x] => [PS.shorten n x]
  | y :: x :: xs => y :: PS.shortenList n (x :: xs)

/-- In the value of the last entry. -/
def PS.shortenKVs (n : Nat) : List (List UInt8 × PS) → List (List UInt8 × PS)
  | [] => []
  | [(k, x)] => [(k, PS.shorten n x)]
  | y :: x :: xs => y :: PS.shortenKVs n (x :: xs)
end

end PackStream
