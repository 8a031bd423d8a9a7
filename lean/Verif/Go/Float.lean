/-
float64 arithmetic used by the position codec (egts_sr_pos_data.go:60,67,143,148,153) and by
the litre conversion in server.go:284.

Model: a finite float64 is the rational number it denotes; every operation returns the exact
result rounded to nearest, ties to even, to a 53-bit significand (IEEE 754 binary64).
Not modelled: NaN, infinities, signed zero, overflow and subnormal results (all values that
occur in the properties are 0 or lie between 2^-60 and 2^64 in magnitude).
-/
set_option autoImplicit false
namespace Egts

/-- a finite float64, as the rational number it denotes. -/
abbrev F64 := Rat

/-- `2^e` for an integer exponent. -/
def pow2 (e : Int) : Rat :=
  match e with
  | .ofNat n => ((2 ^ n : Nat) : Rat)
  | .negSucc n => 1 / ((2 ^ (n + 1) : Nat) : Rat)

/-- `floor(log2 x)` for positive `x = n/d`. -/
def ilog2 (x : Rat) : Int :=
  let k : Int := (Nat.log2 x.num.natAbs : Int) - (Nat.log2 x.den : Int)
  if x < pow2 k then k - 1 else k

/-- round to the nearest integer, ties to even. -/
def roundHalfEven (x : Rat) : Int :=
  let f := x.floor
  let r := x - (f : Rat)
  if r < 1 / 2 then f
  else if 1 / 2 < r then f + 1
  else if f % 2 = 0 then f else f + 1

/-- round a positive rational to 53 significant bits. -/
def rndPos (x : Rat) : Rat :=
  let e := ilog2 x - 52
  (roundHalfEven (x / pow2 e) : Rat) * pow2 e

/-- IEEE round-to-nearest-even to binary64 (normal range). -/
def rnd (x : Rat) : F64 :=
  if x = 0 then 0 else if 0 < x then rndPos x else - rndPos (-x)

/-- `x * y`, egts_sr_pos_data.go:60, 67, 148, 153 -/
def fmul (x y : F64) : F64 := rnd (x * y)
/-- `x / y`, egts_sr_pos_data.go:60, 67, 148, 153, server.go:284 -/
def fdiv (x y : F64) : F64 := rnd (x / y)
/-- `x + y` -/
def fadd (x y : F64) : F64 := rnd (x + y)

/-- `float64(n)` of an integer. -/
def f64OfInt (n : Int) : F64 := rnd (n : Rat)

/-- truncation towards zero. -/
def ratTrunc (x : Rat) : Int := if 0 ≤ x then x.floor else - (-x).floor

end Egts
