import Verif.Go.Basic
import Verif.Model.Storage
import Mathlib.Data.List.Forall2
import Mathlib.Data.Rat.Defs
import Mathlib.Algebra.Order.Field.Rat
import Mathlib.Algebra.Order.Group.Abs
set_option autoImplicit false
/- Numbers and flags on a command line, after the documentation of the Go language (integer and floating-point literals) and of the
packages flag and strconv. Independent of the model (of Model.Storage only `asc` is used, the bytes of a string literal). -/
namespace Egts

/-- the character `c` is a digit to base `b`, of value `d` -/
def DigitOf (b : Nat) (c : UInt8) (d : Nat) : Prop :=
  d < b ∧ (d < 10 ∧ c.toNat = 48 + d ∨ 10 ≤ d ∧ (c.toNat = 55 + d ∨ c.toNat = 87 + d))

/-- digits to base `b`, perhaps with single underscores between them: text, value, number of digits -/
inductive Grouped (b : Nat) : Bytes → Nat → Nat → Prop
  | one {c : UInt8} {d : Nat} (h : DigitOf b c d) : Grouped b [c] d 1
  | next {s : Bytes} {n k : Nat} {c : UInt8} {d : Nat} (g : Grouped b s n k) (h : DigitOf b c d) : Grouped b (s ++ [c]) (b * n + d) (k + 1)
  | under {s : Bytes} {n k : Nat} {c : UInt8} {d : Nat} (g : Grouped b s n k) (h : DigitOf b c d) :
      Grouped b (s ++ [95, c]) (b * n + d) (k + 1)

/-- base prefixes: 0b 0B 0o 0O 0x 0X -/
def basePrefix : List (UInt8 × Nat) := [(98, 2), (66, 2), (111, 8), (79, 8), (120, 16), (88, 16)]

/-- integer literals of Go: decimal if there is no zero at the front; octal with a 0; otherwise with a prefix -/
inductive NatText : Bytes → Nat → Prop
  | zero : NatText [48] 0
  | dec {s : Bytes} {n k : Nat} (g : Grouped 10 s n k) (h : s.head? ≠ some 48) : NatText s n
  | oct {u s : Bytes} {n k : Nat} (hu : u = [] ∨ u = [95]) (g : Grouped 8 s n k) : NatText ([48] ++ u ++ s) n
  | pre {c : UInt8} {b : Nat} {u s : Bytes} {n k : Nat} (hc : (c, b) ∈ basePrefix) (hu : u = [] ∨ u = [95]) (g : Grouped b s n k) :
      NatText ([48, c] ++ u ++ s) n

/-- with an optional sign -/
inductive IntText : Bytes → Int → Prop
  | plain {s : Bytes} {n : Nat} (h : NatText s n) : IntText s n
  | plus {s : Bytes} {n : Nat} (h : NatText s n) : IntText (43 :: s) n
  | minus {s : Bytes} {n : Nat} (h : NatText s n) : IntText (45 :: s) (-n)

/-- digits and a point to base `b`: text, value of all digits, number of digits after the point -/
inductive Mantissa (b : Nat) : Bytes → Nat → Nat → Prop
  | int {s : Bytes} {n k : Nat} (g : Grouped b s n k) : Mantissa b s n 0
  | point {s : Bytes} {n k : Nat} (g : Grouped b s n k) : Mantissa b (s ++ [46]) n 0
  | both {s t : Bytes} {n k m j : Nat} (g : Grouped b s n k) (f : Grouped b t m j) : Mantissa b (s ++ [46] ++ t) (n * b ^ j + m) j
  | frac {t : Bytes} {m j : Nat} (f : Grouped b t m j) : Mantissa b ([46] ++ t) m j

/-- an exponent: sign and decimal digits -/
inductive ExpText : Bytes → Int → Prop
  | plain {s : Bytes} {n k : Nat} (g : Grouped 10 s n k) : ExpText s n
  | plus {s : Bytes} {n k : Nat} (g : Grouped 10 s n k) : ExpText (43 :: s) n
  | minus {s : Bytes} {n k : Nat} (g : Grouped 10 s n k) : ExpText (45 :: s) (-n)

/-- floating-point literals of Go, without sign: text, value, exponent that is written -/
inductive RealText : Bytes → ℚ → Int → Prop
  | dec {s : Bytes} {n j : Nat} (m : Mantissa 10 s n j) : RealText s (n / 10 ^ j) 0
  | decExp {s t : Bytes} {c : UInt8} {n j : Nat} {e : Int} (m : Mantissa 10 s n j) (hc : c = 101 ∨ c = 69) (x : ExpText t e) :
      RealText (s ++ [c] ++ t) (n / 10 ^ j * 10 ^ e) e
  | hex {u s t : Bytes} {x c : UInt8} {n j : Nat} {e : Int} (hx : x = 120 ∨ x = 88) (hu : u = [] ∨ u = [95] ∧ s.head? ≠ some 46)
      (m : Mantissa 16 s n j) (hc : c = 112 ∨ c = 80) (y : ExpText t e) : RealText ([48, x] ++ u ++ s ++ [c] ++ t) (n / 16 ^ j * 2 ^ e) e

/-- with an optional sign -/
inductive FloatText : Bytes → ℚ → Int → Prop
  | plain {s : Bytes} {v : ℚ} {e : Int} (h : RealText s v e) : FloatText s v e
  | plus {s : Bytes} {v : ℚ} {e : Int} (h : RealText s v e) : FloatText (43 :: s) v e
  | minus {s : Bytes} {v : ℚ} {e : Int} (h : RealText s v e) : FloatText (45 :: s) (-v) e

/-- the finite float64 numbers: 53 bits and an exponent from -1074 to 971 -/
def IsFloat64 (y : ℚ) : Prop := ∃ (m e : ℤ), |m| < 2 ^ 53 ∧ -1074 ≤ e ∧ e ≤ 971 ∧ y = m * 2 ^ e

/-- `y` is a float64 number as close as possible to `v` -/
def NearestFloat64 (v y : ℚ) : Prop := IsFloat64 y ∧ ∀ z, IsFloat64 z → |y - v| ≤ |z - v|

/-- correct rounding: as close as possible, and of two that are equally close the even one (an even multiple of their distance) -/
def RoundsTo64 (v y : ℚ) : Prop := NearestFloat64 v y ∧ ∀ z, IsFloat64 z → z ≠ y → |z - v| = |y - v| → ∃ j : ℤ, y = 2 * j * (z - y)

/-- numbers from here on are too large for float64: half way between the largest finite number and 2^1024 -/
def float64Limit : ℚ := 2 ^ 1024 - 2 ^ 970

/-- `w` is the flag `name` with one or two minus signs -/
def FlagWord (w name : Bytes) : Prop := (w = 45 :: name ∨ w = 45 :: 45 :: name) ∧ name ≠ [] ∧ 61 ∉ name ∧ name.head? ≠ some 45

/-- a command line: flags with their values, up to the first argument that is no flag or to the argument -- -/
inductive CommandLine : List Bytes → List (Bytes × Bytes) → Prop
  | nil : CommandLine [] []
  | stop {w : Bytes} {args : List Bytes} (h : w.length < 2 ∨ w.head? ≠ some 45) : CommandLine (w :: args) []
  | dashes {args : List Bytes} : CommandLine ([45, 45] :: args) []
  | apart {w name v : Bytes} {args : List Bytes} {l : List (Bytes × Bytes)} (h : FlagWord w name) (r : CommandLine args l) :
      CommandLine (w :: v :: args) ((name, v) :: l)
  | joined {w name v : Bytes} {args : List Bytes} {l : List (Bytes × Bytes)} (h : FlagWord w name) (r : CommandLine args l) :
      CommandLine ((w ++ [61] ++ v) :: args) ((name, v) :: l)

/-- flags with their values, and nothing else -/
inductive FlagList : List Bytes → List (Bytes × Bytes) → Prop
  | nil : FlagList [] []
  | apart {w name v : Bytes} {args : List Bytes} {l : List (Bytes × Bytes)} (h : FlagWord w name) (r : FlagList args l) :
      FlagList (w :: v :: args) ((name, v) :: l)
  | joined {w name v : Bytes} {args : List Bytes} {l : List (Bytes × Bytes)} (h : FlagWord w name) (r : FlagList args l) :
      FlagList ((w ++ [61] ++ v) :: args) ((name, v) :: l)

/-- the value given last for the flag `n` -/
def LastValue {α : Type} (l : List (Bytes × α)) (n : Bytes) (v : α) : Prop := ∃ a b, l = a ++ (n, v) :: b ∧ ∀ p ∈ b, p.1 ≠ n

/-- no value is given for the flag `n` -/
def NoValue {α : Type} (l : List (Bytes × α)) (n : Bytes) : Prop := ∀ p ∈ l, p.1 ≠ n

/-- the letter `d` in small or capital form -/
def SameLetter (c d : UInt8) : Prop := c = d ∨ c.toNat + 32 = d.toNat

/-- the words that are read as infinity or not-a-number, in small or capital letters -/
def SpecialText (s : Bytes) : Prop :=
  List.Forall₂ SameLetter s (asc "nan") ∨
  ∃ t, (s = t ∨ s = 43 :: t ∨ s = 45 :: t) ∧ (List.Forall₂ SameLetter t (asc "inf") ∨ List.Forall₂ SameLetter t (asc "infinity"))

/-- the documented flags of packet-gen (README and the comment at the head of the program): a value that fits the flag -/
def GenReadable (n v : Bytes) : Prop :=
  (n = asc "pid" ∨ n = asc "oid" ∨ n = asc "liquid" ∨ n = asc "timeout") ∧ (∃ i : Int, IntText v i ∧ -2 ^ 63 ≤ i ∧ i < 2 ^ 63) ∨
  (n = asc "lat" ∨ n = asc "lon") ∧ ((∃ x e, FloatText v x e) ∨ SpecialText v) ∨
  (n = asc "time" ∨ n = asc "server")

/-- the integer given for the flag `n`, 0 if none is given -/
def IntArg (l : List (Bytes × Bytes)) (n : Bytes) (i : Int) : Prop := (∃ s, LastValue l n s ∧ IntText s i) ∨ NoValue l n ∧ i = 0

/-- the number given for the flag `n`, with an exponent of at most five digits; 0 if none is given -/
def RealArg (l : List (Bytes × Bytes)) (n : Bytes) (x : ℚ) : Prop :=
  (∃ s e, LastValue l n s ∧ FloatText s x e ∧ e.natAbs < 100000) ∨ NoValue l n ∧ x = 0

end Egts
