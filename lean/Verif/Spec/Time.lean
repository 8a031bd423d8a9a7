import Verif.Go.Basic
set_option autoImplicit false
/- The meaning of an RFC 3339 date-time, independently of the formatting code: the Gregorian calendar by closed formulas, and a reader
of the text. -/
namespace Egts

/-- number of leap years in the years 1 .. y - 1 (-1 for the year 0, a leap year; divisions are rounded down) -/
def leapsBefore (y : Nat) : Int := ((y : Int) - 1) / 4 - ((y : Int) - 1) / 100 + ((y : Int) - 1) / 400

/-- Gregorian leap year -/
def LeapYear (y : Nat) : Prop := 4 ∣ y ∧ (100 ∣ y → 400 ∣ y)

instance (y : Nat) : Decidable (LeapYear y) := by unfold LeapYear; infer_instance

/-- number of days before month `m` in a year that is not a leap year -/
def daysBeforeMonth (m : Nat) : Nat := [0, 31, 59, 90, 120, 151, 181, 212, 243, 273, 304, 334, 365].getD (m - 1) 0

/-- number of days of month `m` of year `y` -/
def daysInMonth (y m : Nat) : Nat := if m = 2 ∧ LeapYear y then 29 else daysBeforeMonth (m + 1) - daysBeforeMonth m

/-- day number of a date, day 0 is 1970-01-01 (719162 days after 0001-01-01) -/
def dayNumber (y m d : Nat) : Int :=
  365 * (y - 1) + leapsBefore y + daysBeforeMonth m + (if 2 < m ∧ LeapYear y then 1 else 0) + (d - 1) - 719162

/-- `y`-`m`-`d` is a date of the calendar -/
def IsDate (y m d : Nat) : Prop := 1 ≤ m ∧ m ≤ 12 ∧ 1 ≤ d ∧ d ≤ daysInMonth y m

/-- the number written with the decimal digits `s` -/
def decimal : Bytes → Option Nat
  | s => if s.all (fun b => 48 ≤ b.toNat && b.toNat ≤ 57) then some (s.foldl (fun n b => 10 * n + (b.toNat - 48)) 0) else none

/-- `text` is the RFC 3339 date-time `y`-`m`-`d`T`h`:`mi`:`s`Z -/
def Rfc3339Text (text : Bytes) (y m d h mi s : Nat) : Prop :=
  ∃ ty tm td th tmi ts : Bytes, text = ty ++ [45] ++ tm ++ [45] ++ td ++ [84] ++ th ++ [58] ++ tmi ++ [58] ++ ts ++ [90] ∧
    ty.length = 4 ∧ tm.length = 2 ∧ td.length = 2 ∧ th.length = 2 ∧ tmi.length = 2 ∧ ts.length = 2 ∧
    decimal ty = some y ∧ decimal tm = some m ∧ decimal td = some d ∧ decimal th = some h ∧ decimal tmi = some mi ∧ decimal ts = some s

/-- `text` denotes the instant `unix` seconds after 1970-01-01T00:00:00Z -/
def Denotes (text : Bytes) (unix : Int) : Prop :=
  ∃ y m d h mi s, Rfc3339Text text y m d h mi s ∧ IsDate y m d ∧ h < 24 ∧ mi < 60 ∧ s < 60 ∧
    unix = dayNumber y m d * 86400 + h * 3600 + mi * 60 + s

/-- `text` denotes the instant `ns` nanoseconds after 1970-01-01T00:00:00Z: a date-time as above, perhaps with a point and one to nine
digits of a second before the letter Z -/
def DenotesNs (text : Bytes) (ns : Int) : Prop :=
  ∃ (sec frac : Bytes) (k : Nat), text = sec ++ frac ++ [90] ∧ Denotes (sec ++ [90]) (ns / 1000000000) ∧ ns % 1000000000 = k ∧
    ((frac = [] ∧ k = 0) ∨ ∃ ds n, frac = 46 :: ds ∧ decimal ds = some n ∧ 1 ≤ ds.length ∧ ds.length ≤ 9 ∧ k = n * 10 ^ (9 - ds.length))

end Egts
