import Verif.Go.Basic
set_option autoImplicit false
/- Decimal numbers as text. Independent of the code. -/
namespace Egts

/-- `s` is a non-empty text of decimal digits, of value `n` -/
inductive Digits : Bytes → Nat → Prop
  | one (d : Nat) (h : d < 10) : Digits [UInt8.ofNat (48 + d)] d
  | snoc (s : Bytes) (n d : Nat) (t : Digits s n) (h : d < 10) : Digits (s ++ [UInt8.ofNat (48 + d)]) (10 * n + d)

/-- `s` is a decimal number with an optional sign, of value `n` -/
inductive Numeral : Bytes → Int → Prop
  | plain (s : Bytes) (n : Nat) (h : Digits s n) : Numeral s n
  | plus (s : Bytes) (n : Nat) (h : Digits s n) : Numeral (43 :: s) n
  | minus (s : Bytes) (n : Nat) (h : Digits s n) : Numeral (45 :: s) (-n)

end Egts
