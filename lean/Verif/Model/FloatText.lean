import Verif.Go.Float
import Verif.Model.PackageJson
set_option autoImplicit false
/- Model of the formatting of floating point numbers in JSON: `floatEncoder.encode` of encoding/json (`f` or `e` format of
`strconv.AppendFloat` with precision -1, then the clean up of the exponent), as used by `(*NavRecord).ToBytes`,
cli/receiver/storage/packet.go:20-22, and `(*Package).ToBytes`, libs/egts/egts_pkg.go:227-230. The digits are those `roundShortest` of
strconv/ftoa.go computes (the faster algorithms tried before compute the same). Not modelled: float64 values below 2^-1022 in magnitude
(as everywhere in the model of float64) and the sign of a float64 zero. -/
namespace Egts

/-- `10^e` for an integer exponent. -/
def pow10 (e : Int) : Rat :=
  match e with
  | .ofNat n => ((10 ^ n : Nat) : Rat)
  | .negSucc n => 1 / ((10 ^ (n + 1) : Nat) : Rat)

/-- number of decimal digits, minus one (Go library, as called by cli/receiver/storage/packet.go:21 and libs/egts/egts_pkg.go:227-230) -/
def log10 (n : Nat) : Nat := if n < 10 then 0 else log10 (n / 10) + 1

/-- `floor(log10 x)` for positive `x`: the position of the first digit -/
def ilog10 (x : Rat) : Int :=
  let k : Int := (log10 x.num.natAbs : Int) - (log10 x.den : Int)
  if x < pow10 k then k - 1 else k

/-- `roundShortest` at the n-th digit of the positive number `x`: may the digits be cut off here, or cut off and increased by one? If
both, to the nearer one. `R` is the rounding to the type of the number; the result is (d, q) for d * 10^q. -/
def shortestAt (R : Rat → Rat) (x : Rat) (n : Nat) : Option (Nat × Int) :=
  let q := ilog10 x + 1 - (n : Int)
  let y := x / pow10 q
  let down := y.floor.toNat
  let okDown : Bool := R ((down : Rat) * pow10 q) = x
  let okUp : Bool := R (((down + 1 : Nat) : Rat) * pow10 q) = x
  if okDown && okUp then some ((roundHalfEven y).toNat, q)
  else if okDown then some (down, q)
  else if okUp then some (down + 1, q)
  else none

/-- the loop of `roundShortest`: the smallest number of digits; (0, 0) is not reached for numbers of the type -/
def shortest (R : Rat → Rat) (x : Rat) : Nat → Nat → Nat × Int
  | 0, _ => (0, 0)
  | fuel + 1, n => match shortestAt R x n with
    | some r => r
    | none => shortest R x fuel (n + 1)

/-- decimal digits (Go library, as called by cli/receiver/storage/packet.go:21 and libs/egts/egts_pkg.go:227-230) -/
def decDigits (n : Nat) : List Nat := if n < 10 then [n] else decDigits (n / 10) ++ [n % 10]

/-- trailing zeros removed (Go library, as called by cli/receiver/storage/packet.go:21 and libs/egts/egts_pkg.go:227-230) -/
def trimDigits (l : List Nat) : List Nat := (l.reverse.dropWhile (· == 0)).reverse

/-- digits as text (Go library, as called by cli/receiver/storage/packet.go:21 and libs/egts/egts_pkg.go:227-230) -/
def digitText (l : List Nat) : Bytes := l.map fun d => UInt8.ofNat (48 + d)

/-- `%f` for the number 0.d1d2... * 10^dp, with the digits that are there (`fmtF` of strconv/ftoa.go, prec = max(nd-dp, 0)) -/
def fmtF (l : List Nat) (dp : Int) : Bytes :=
  (if 0 < dp then digitText (l.take dp.toNat) ++ List.replicate (dp.toNat - l.length) 48 else [48]) ++
  (if dp < l.length then 46 :: (List.replicate (-dp).toNat 48 ++ digitText (l.drop dp.toNat)) else [])

/-- `%e` (`fmtE` of strconv/ftoa.go, prec = nd-1) and the clean up of floatEncoder.encode: at least two digits in the exponent, but
e-09 becomes e-9 -/
def fmtE (l : List Nat) (dp : Int) : Bytes :=
  digitText (l.take 1) ++ (if 1 < l.length then 46 :: digitText (l.drop 1) else []) ++
  (if dp - 1 < 0 then [101, 45] ++ decText (dp - 1).natAbs
   else [101, 43] ++ (if dp - 1 < 10 then [48] else []) ++ decText (dp - 1).natAbs)

/-- the text of a positive number with the decimal d * 10^q; `e` format if below `lo` or from `hi` on -/
def posText (R : Rat → Rat) (fuel : Nat) (lo hi x : Rat) : Bytes :=
  let (d, q) := shortest R x fuel 1
  let l := trimDigits (decDigits d)
  let dp := ((decDigits d).length : Int) + q
  if d = 0 then [48] else if x < lo ∨ hi ≤ x then fmtE l dp else fmtF l dp

/-- a float64 in JSON -/
def floatText (x : F64) : Bytes :=
  if x = 0 then [48]
  else if 0 < x then posText rnd 17 (rnd (1 / 1000000)) 1000000000000000000000 x
  else 45 :: posText rnd 17 (rnd (1 / 1000000)) 1000000000000000000000 (-x)

/-- a finite float32 with these bits, without the sign -/
def f32Abs (b : UInt32) : Rat :=
  let e := b.toNat / 8388608 % 256
  let m := b.toNat % 8388608
  if e = 0 then (m : Rat) * pow2 (-149) else ((8388608 + m : Nat) : Rat) * pow2 ((e : Int) - 150)

/-- round a positive number to float32: 24 significant bits, but no bits below 2^-149 -/
def rnd32 (x : Rat) : Rat :=
  if x ≤ 0 then 0 else
    let e := max (ilog2 x - 23) (-149)
    (roundHalfEven (x / pow2 e) : Rat) * pow2 e

/-- a finite float32 in JSON: with a sign also for -0 -/
def float32Text (b : UInt32) : Bytes :=
  (if 2147483648 ≤ b.toNat then [45] else []) ++
  (if f32Abs b = 0 then [48] else posText rnd32 9 (rnd32 (1 / 1000000)) (rnd32 1000000000000000000000) (f32Abs b))

/-- the formatting of encoding/json; `shortBF` depends on the version of Go (Go library, as called by cli/receiver/storage/packet.go:21 and libs/egts/egts_pkg.go:227-230) -/
def goFmt (shortBF : Bool) : PkgFmt where
  float := floatText
  shortBF := shortBF
  float32 := float32Text

example : floatText (rnd (1 / 10)) = asc "0.1" ∧ floatText (fadd (rnd (1 / 10)) (rnd (2 / 10))) = asc "0.30000000000000004" ∧
    floatText 100 = asc "100" ∧ floatText (-123456789 / 8) = asc "-15432098.625" ∧ floatText (rnd (1 / 10000000)) = asc "1e-7" ∧
    floatText (rnd (123 / 10 ^ 12)) = asc "1.23e-10" ∧ floatText 1000000000000000000000 = asc "1e+21" ∧
    floatText 999999999999999868928 = asc "999999999999999900000" ∧ floatText (2 ^ 70) = asc "1.1805916207174113e+21" := by decide +kernel
/-- 1.5, smallest and largest float32, 0.1, -0, 16777216, 1e-6 and the number before it -/
example : float32Text 0x3FC00000 = asc "1.5" ∧ float32Text 1 = asc "1e-45" ∧ float32Text 0xFF7FFFFF = asc "-3.4028235e+38" ∧
    float32Text 0x3DCCCCCD = asc "0.1" ∧ float32Text 0x80000000 = asc "-0" ∧ float32Text 0x4B800000 = asc "16777216" ∧
    float32Text 0x358637BD = asc "0.000001" ∧ float32Text 0x358637BC = asc "9.999999e-7" := by decide +kernel

end Egts
