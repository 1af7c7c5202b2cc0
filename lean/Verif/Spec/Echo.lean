import Verif.Model.Echo
/-! # Specification: base64 (RFC 4648) -/

namespace Pgkyl.Spec

/-- The digit for `k < 64`: upper-case letters, lower-case letters, decimal digits, plus, slash. -/
def digit64 (k : Nat) : Char :=
  if k < 26 then Char.ofNat (65 + k) else if k < 52 then Char.ofNat (97 + (k - 26))
  else if k < 62 then Char.ofNat (48 + (k - 52)) else if k = 62 then '+' else '/'

/-- The base64 text of some bytes: groups of three bytes are numbers of 24 bits, written with four digits; a last group of one or two bytes
is filled up with zero bits, and its text with equals signs. -/
def base64 : List UInt8 → List Char
  | [] => []
  | [a] =>
    let n := a.toNat * 65536
    [digit64 (n / 64 ^ 3), digit64 (n / 64 ^ 2 % 64), '=', '=']
  | [a, b] =>
    let n := a.toNat * 65536 + b.toNat * 256
    [digit64 (n / 64 ^ 3), digit64 (n / 64 ^ 2 % 64), digit64 (n / 64 % 64), '=']
  | a :: b :: c :: rest =>
    let n := a.toNat * 65536 + b.toNat * 256 + c.toNat
    [digit64 (n / 64 ^ 3), digit64 (n / 64 ^ 2 % 64), digit64 (n / 64 % 64), digit64 (n % 64)] ++ base64 rest

/-- `enc` is the base64 text of the UTF-8 bytes of `text`, with line ends anywhere. -/
def EncodedAs (text : String) (enc : List Char) : Prop := enc.filter (· ≠ '\n') = base64 text.toUTF8.data.toList

end Pgkyl.Spec
