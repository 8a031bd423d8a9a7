import Mathlib.Data.Rat.Defs
import Mathlib.Algebra.Order.Field.Rat
import Mathlib.Algebra.Order.Group.Abs
set_option autoImplicit false
/- What is expected of the decimal text of a floating point number. Independent of the model. -/
namespace Egts

/-- the decimal number `v` stands for the number `x` of a type with the rounding `R`: it is rounded to `x`; no decimal number that is has
fewer digits, and none with at most as many digits is closer to `x` -/
def ShortestDecimal (R : ℚ → ℚ) (x v : ℚ) : Prop :=
  ∃ (d : ℕ) (q : ℤ), v = d * 10 ^ q ∧ R v = x ∧ ∀ (d' : ℕ) (q' : ℤ), R (d' * 10 ^ q') = x →
    (∀ n, d' < 10 ^ n → d < 10 ^ n) ∧
    ((∀ n, d < 10 ^ n → d' < 10 ^ n) → |v - x| ≤ |(d' : ℚ) * 10 ^ q' - x|)

end Egts
