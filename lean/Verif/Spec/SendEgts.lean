import Verif.Go.Basic
set_option autoImplicit false
/- Files of packets in hexadecimal. Independent of the code. -/
namespace Egts.SendEgts

/-- `c` is the hexadecimal digit of value `n` -/
inductive HexDigit : UInt8 → Nat → Prop
  | dec (n : Nat) (h : n < 10) : HexDigit (UInt8.ofNat (48 + n)) n
  | lower (n : Nat) (h : 10 ≤ n) (h' : n < 16) : HexDigit (UInt8.ofNat (87 + n)) n
  | upper (n : Nat) (h : 10 ≤ n) (h' : n < 16) : HexDigit (UInt8.ofNat (55 + n)) n

/-- blank, tabulator, line feed, vertical tabulator, form feed, carriage return -/
def White (c : UInt8) : Prop := c ∈ ([32, 9, 10, 11, 12, 13] : Bytes)

/-- `s` is a text of `b` in hexadecimal: two digits a byte, white space before, between and after the bytes -/
inductive HexText : Bytes → Bytes → Prop
  | nil : HexText [] []
  | space (c : UInt8) (s b : Bytes) (h : White c) (t : HexText s b) : HexText (c :: s) b
  | byte (c d : UInt8) (x y : Nat) (s b : Bytes) (hx : HexDigit c x) (hy : HexDigit d y) (t : HexText s b) :
      HexText (c :: d :: s) (UInt8.ofNat (16 * x + y) :: b)

/-- `text` is a file of the packets `cs`: one line each, in hexadecimal, and every line ends with LF or CR LF -/
inductive HexFile : Bytes → List Bytes → Prop
  | nil : HexFile [] []
  | line (l eol text c : Bytes) (cs : List Bytes) (hl : HexText l c) (hn : 10 ∉ l ∧ 13 ∉ l) (he : eol = [10] ∨ eol = [13, 10])
      (t : HexFile text cs) : HexFile (l ++ eol ++ text) (c :: cs)

end Egts.SendEgts
