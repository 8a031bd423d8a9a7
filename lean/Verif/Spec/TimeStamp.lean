import Verif.Spec.Time
import Mathlib.Data.Rat.Floor
set_option autoImplicit false
/- Time stamps with fractions of a second and offsets: RFC 3339, section 5.6, and the larger set of texts that the Go library takes.
Independent of the model. -/
namespace Egts

/-- what may vary in the notation: the number of digits of the hour, the separators, the offsets (text and seconds east of Greenwich) -/
structure Notation where
  hourDigits : Nat → Prop
  tee : UInt8 → Prop
  point : UInt8 → Prop
  zone : Bytes → Int → Prop

/-- a number of `k` decimal digits -/
def DigitText (k : Nat) (s : Bytes) (n : Nat) : Prop := s.length = k ∧ decimal s = some n

/-- a fraction of a second: nothing, or a point and digits -/
def FractionText (point : UInt8 → Prop) (s : Bytes) (f : ℚ) : Prop :=
  (s = [] ∧ f = 0) ∨ ∃ p ds n, s = p :: ds ∧ point p ∧ ds ≠ [] ∧ decimal ds = some n ∧ f = (n : ℚ) / 10 ^ ds.length

/-- `text` is the date `y`-`m`-`d`, the time of day `h`:`mi`:`s` and fraction `f`, and an offset of `off` seconds -/
def StampText (N : Notation) (text : Bytes) (y m d h mi s : Nat) (f : ℚ) (off : Int) : Prop :=
  ∃ ty tm td t th tmi ts tf tz, text = ty ++ [45] ++ tm ++ [45] ++ td ++ [t] ++ th ++ [58] ++ tmi ++ [58] ++ ts ++ tf ++ tz ∧
    DigitText 4 ty y ∧ DigitText 2 tm m ∧ DigitText 2 td d ∧ N.tee t ∧ (∃ k, N.hourDigits k ∧ DigitText k th h) ∧ DigitText 2 tmi mi ∧ DigitText 2 ts s ∧
    FractionText N.point tf f ∧ N.zone tz off

/-- the instant, in seconds after 1970-01-01T00:00:00Z -/
def stampInstant (y m d h mi s : Nat) (f : ℚ) (off : Int) : ℚ := ((dayNumber y m d * 86400 + h * 3600 + mi * 60 + s - off : Int) : ℚ) + f

/-- hours, colon and minutes with a sign, such that `ok` holds of hours and minutes -/
def OffsetText (ok : Int → Int → Prop) (num : Bytes → Int → Prop) (s : Bytes) (off : Int) : Prop :=
  ∃ sg th tm h m, s = [sg] ++ th ++ [58] ++ tm ∧ th.length = 2 ∧ tm.length = 2 ∧ num th h ∧ num tm m ∧ ok h m ∧
    (sg = 43 ∧ off = (h * 60 + m) * 60 ∨ sg = 45 ∧ off = -((h * 60 + m) * 60))

/-- digits only -/
def PlainNum (s : Bytes) (v : Int) : Prop := ∃ n : Nat, decimal s = some n ∧ v = n

/-- digits with an optional sign -/
def SignedNum (s : Bytes) (v : Int) : Prop :=
  PlainNum s v ∨ ∃ t, t ≠ [] ∧ (s = 43 :: t ∧ PlainNum t v ∨ s = 45 :: t ∧ PlainNum t (-v))

/-- RFC 3339, section 5.6, with the remark there that t and z may be in small letters. -/
def rfcNotation : Notation where
  hourDigits k := k = 2
  tee c := c = 84 ∨ c = 116
  point c := c = 46
  zone s off := (s = [90] ∨ s = [122]) ∧ off = 0 ∨ OffsetText (fun h m => h < 24 ∧ m < 60) PlainNum s off

/-- the same with capital T and Z -/
def rfcCapital : Notation where
  hourDigits k := k = 2
  tee c := c = 84
  point c := c = 46
  zone s off := s = [90] ∧ off = 0 ∨ OffsetText (fun h m => h < 24 ∧ m < 60) PlainNum s off

/-- what the Go library takes: one digit for the hour, a comma; since Go 1.20 (`strict`) hours up to 24 and minutes up to 60 in the offset;
before that any two digits, or a sign and a digit -/
def goNotation (strict : Bool) : Notation where
  hourDigits k := k = 1 ∨ k = 2
  tee c := c = 84
  point c := c = 46 ∨ c = 44
  zone s off := s = [90] ∧ off = 0 ∨
    (strict = true ∧ OffsetText (fun h m => h ≤ 24 ∧ m ≤ 60) PlainNum s off ∨ strict = false ∧ OffsetText (fun _ _ => True) SignedNum s off)

/-- a time stamp: a date of the calendar and a time of day without leap second -/
def IsStamp (N : Notation) (text : Bytes) (t : ℚ) : Prop :=
  ∃ y m d h mi s f off, StampText N text y m d h mi s f off ∧ IsDate y m d ∧ h < 24 ∧ mi < 60 ∧ s < 60 ∧ t = stampInstant y m d h mi s f off

end Egts
