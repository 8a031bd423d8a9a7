import Verif.Go.Basic
set_option autoImplicit false
/-
`time.Time.Unix` and `time.Time.Format(time.RFC3339)` for UTC times from 1970 on (documented behaviour of
the Go standard library; `Verif/Props/Time.lean` proves that the text denotes the instant).
Used by cli/receiver/server/server.go:121, 191, 201.
-/
namespace Egts

/-- Gregorian leap years. -/
def isLeap (y : Nat) : Bool := (y % 4 == 0 && y % 100 != 0) || y % 400 == 0

/-- number of days of a year. -/
def yearLen (y : Nat) : Nat := if isLeap y then 366 else 365

/-- number of days of the months of a year. -/
def monthLens (y : Nat) : List Nat := [31, if isLeap y then 29 else 28, 31, 30, 31, 30, 31, 31, 30, 31, 30, 31]

/-- split a day number counted from the first day of year `y` into year and day of the year (`fuel` bounds the
number of years). -/
def splitYear : Nat → Nat → Nat → Nat × Nat
  | 0, y, d => (y, d)
  | fuel + 1, y, d => if d < yearLen y then (y, d) else splitYear fuel (y + 1) (d - yearLen y)

/-- split a day of the year into month (counted from `m`) and day of the month (from 0). -/
def splitMonth : List Nat → Nat → Nat → Nat × Nat
  | [], m, d => (m, d)
  | l :: ls, m, d => if d < l then (m, d) else splitMonth ls (m + 1) (d - l)

/-- year, month, day of a day number counted from 1970-01-01. -/
def civil (days : Nat) : Nat × Nat × Nat :=
  let (y, d) := splitYear (days + 1) 1970 days
  let (m, d) := splitMonth (monthLens y) 1 d
  (y, m, d + 1)

/-- decimal digits, zero-padded to `w` (numbers below `10^w`). -/
def digits : Nat → Nat → Bytes
  | 0, _ => []
  | w + 1, n => digits w (n / 10) ++ [UInt8.ofNat (48 + n % 10)]

/-- `t.UTC().Format(time.RFC3339)` for the instant `unix` seconds after 1970-01-01T00:00:00Z, years 1970 to 9999:
`YYYY-MM-DDThh:mm:ssZ`. -/
def rfc3339 (unix : Int) : Bytes :=
  let s := unix.toNat
  let (y, m, d) := civil (s / 86400)
  let t := s % 86400
  digits 4 y ++ [45] ++ digits 2 m ++ [45] ++ digits 2 d ++ [84] ++ digits 2 (t / 3600) ++ [58] ++
    digits 2 (t / 60 % 60) ++ [58] ++ digits 2 (t % 60) ++ [90]

/-- `t.Unix()` of an instant given in nanoseconds relative to 2010-01-01T00:00:00Z (1262304000 s after 1970). -/
def unixOf (ns : Int) : Int := ns / 1000000000 + 1262304000

end Egts
