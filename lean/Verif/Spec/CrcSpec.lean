import Mathlib.Algebra.Polynomial.Div
import Mathlib.Data.ZMod.Basic
import Verif.Go.Basic
set_option autoImplicit false
/- Specification of cyclic redundancy checks by polynomials over GF(2). Independent of the code. -/
namespace Egts
open Polynomial

/-- polynomials over the field with two elements -/
abbrev GF2Poly := Polynomial (ZMod 2)

/-- coefficient of a bit -/
def bitZ (b : Bool) : ZMod 2 := if b then 1 else 0

/-- polynomial whose coefficient of `X^i` is bit `i` (0 = least significant) of the `w`-bit number `n` -/
noncomputable def wordPoly (w n : Nat) : GF2Poly :=
  ∑ i ∈ Finset.range w, C (bitZ (n.testBit i)) * X ^ i

/-- bit `i` of a byte string, counted from the most significant bit of the first byte -/
def msgBit (data : Bytes) (i : Nat) : Bool := ((data.getD (i / 8) 0).toNat).testBit (7 - i % 8)

/-- a byte string as a polynomial: the first transmitted bit is the highest coefficient -/
noncomputable def msgPoly (data : Bytes) : GF2Poly :=
  ∑ i ∈ Finset.range (8 * data.length), C (bitZ (msgBit data i)) * X ^ (8 * data.length - 1 - i)

/-- all-ones polynomial `1 + X + ... + X^(w-1)`: the initial register value -/
noncomputable def onesPoly (w : Nat) : GF2Poly := ∑ i ∈ Finset.range w, X ^ i

/-- generator polynomial of the header checksum, `x^8 + x^5 + x^4 + 1` -/
noncomputable def gen8 : GF2Poly := X ^ 8 + X ^ 5 + X ^ 4 + 1

/-- generator polynomial of the body checksum, `x^16 + x^12 + x^5 + 1` (CCITT) -/
noncomputable def gen16 : GF2Poly := X ^ 16 + X ^ 12 + X ^ 5 + 1

end Egts
