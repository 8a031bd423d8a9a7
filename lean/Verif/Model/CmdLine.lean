import Verif.Model.PacketGen
import Verif.Model.Main
import Verif.Model.FloatText
set_option autoImplicit false
/- Model of the command lines: `flag.Parse` of the Go library with the flags of cli/packet-gen/main.go:55-64 and cli/receiver/main.go:12-14,
`strconv.ParseInt(s, 0, 64)` and `strconv.ParseFloat(s, 64)` (the values of `flag.IntVar` and `flag.Float64Var`). Texts are bytes. -/
namespace Egts

/-- `lower` of strconv (Go library, as called by cli/packet-gen/main.go:55-64 and cli/receiver/main.go:13-14) -/
def lowerByte (c : UInt8) : UInt8 := c ||| 32

/-- what the previous character was, `underscoreOK` of strconv/atoi.go (Go library, as called by cli/packet-gen/main.go:55-64 and cli/receiver/main.go:13-14) -/
inductive Prev where
  | start | digit | under | other
deriving DecidableEq

/-- '0' <= c && c <= '9' -/
def decByte (c : UInt8) : Bool := 48 ≤ c.toNat && c.toNat ≤ 57

/-- 'a' <= lower(c) && lower(c) <= 'f' (Go library, as called by cli/packet-gen/main.go:55-64 and cli/receiver/main.go:13-14) -/
def hexByte (c : UInt8) : Bool := 97 ≤ (lowerByte c).toNat && (lowerByte c).toNat ≤ 102

/-- the loop of `underscoreOK` (Go library, as called by cli/packet-gen/main.go:55-64 and cli/receiver/main.go:13-14) -/
def underscoreLoop (hex : Bool) : Prev → Bytes → Bool
  | i, [] => i != .under
  | i, c :: s =>
    if decByte c || (hex && hexByte c) then underscoreLoop hex .digit s
    else if c = 95 then i == .digit && underscoreLoop hex .under s
    else i != .under && underscoreLoop hex .other s

/-- an optional sign removed (Go library, as called by cli/packet-gen/main.go:55-64 and cli/receiver/main.go:13-14) -/
def dropSign : Bytes → Bytes
  | 43 :: s => s
  | 45 :: s => s
  | s => s

/-- `underscoreOK` of strconv/atoi.go: underscores only between digits or between a base prefix and a digit (Go library, as called by cli/packet-gen/main.go:55-64 and cli/receiver/main.go:13-14) -/
def underscoreOK (s : Bytes) : Bool :=
  match dropSign s with
  | 48 :: c :: t =>
    if lowerByte c = 98 ∨ lowerByte c = 111 ∨ lowerByte c = 120 then underscoreLoop (lowerByte c == 120) .digit t
    else underscoreLoop false .start (dropSign s)
  | t => underscoreLoop false .start t

/-- value of a digit or letter, `ParseUint` of strconv/atoi.go (Go library, as called by cli/packet-gen/main.go:55-64 and cli/receiver/main.go:13-14) -/
def digitVal (c : UInt8) : Option Nat :=
  if decByte c then some (c.toNat - 48)
  else if 97 ≤ (lowerByte c).toNat ∧ (lowerByte c).toNat ≤ 122 then some ((lowerByte c).toNat - 87)
  else none

/-- the loop of `ParseUint` with base argument 0 (underscores are skipped here); an error of either kind is `none`. The comparisons
with `cutoff` and the wrap-around test are one comparison with the largest value. -/
def uintLoop (base : Nat) : Bytes → Nat → Option Nat
  | [], n => some n
  | c :: s, n =>
    if c = 95 then uintLoop base s n
    else match digitVal c with
      | none => none
      | some d => if base ≤ d then none
        else if 2 ^ 64 ≤ n * base + d then none
        else uintLoop base s (n * base + d)

/-- base and digits of a number, `ParseUint` with base argument 0 -/
def uintBase (s : Bytes) : Nat × Bytes :=
  match s with
  | 48 :: c :: d :: t =>
    if lowerByte c = 98 then (2, d :: t) else if lowerByte c = 111 then (8, d :: t) else if lowerByte c = 120 then (16, d :: t)
    else (8, c :: d :: t)
  | 48 :: t => (8, t)
  | _ => (10, s)

/-- `strconv.ParseUint(s, 0, 64)` -/
def goParseUint (s : Bytes) : Option Nat :=
  if s = [] then none
  else match uintLoop (uintBase s).1 (uintBase s).2 0 with
    | none => none
    | some n => if s.contains 95 && !underscoreOK s then none else some n

/-- `strconv.ParseInt(s, 0, 64)` -/
def goParseInt (s : Bytes) : Option Int64 :=
  match s with
  | 45 :: t => match goParseUint t with
    | some n => if n ≤ 2 ^ 63 then some (Int64.ofInt (-(n : Int))) else none
    | none => none
  | _ => match goParseUint (dropSign s) with
    | some n => if n < 2 ^ 63 then some (Int64.ofInt n) else none
    | none => none

/-- a float64 as `ParseFloat` returns it -/
inductive FloatArg where
  | fin (x : F64)
  | inf (neg : Bool)
  | nan
deriving DecidableEq

/-- round a positive number to float64: 53 significant bits, but no bits below 2^-1074 -/
def rnd64 (x : Rat) : Rat :=
  if x ≤ 0 then 0 else
    let e := max (ilog2 x - 52) (-1074)
    (roundHalfEven (x / pow2 e) : Rat) * pow2 e

/-- the digits and the point of a number, `readFloat` of strconv/atof.go: digits before the point, digits after it, has there been a
point, the rest (Go library, as called by cli/packet-gen/main.go:55-64 and cli/receiver/main.go:13-14) -/
def mantLoop (hex : Bool) : Bytes → Bool → List Nat → List Nat → List Nat × List Nat × Bool × Bytes
  | [], dot, a, b => (a, b, dot, [])
  | c :: s, dot, a, b =>
    if c = 95 then mantLoop hex s dot a b
    else if c = 46 then if dot then (a, b, dot, c :: s) else mantLoop hex s true a b
    else if decByte c then
      if dot then mantLoop hex s dot a (b ++ [c.toNat - 48]) else mantLoop hex s dot (a ++ [c.toNat - 48]) b
    else if hex && hexByte c then
      if dot then mantLoop hex s dot a (b ++ [(lowerByte c).toNat - 87]) else mantLoop hex s dot (a ++ [(lowerByte c).toNat - 87]) b
    else (a, b, dot, c :: s)

/-- the digits of the exponent, `readFloat`; from 10000 on it is not made larger -/
def expLoop : Bytes → Nat → Nat × Bytes
  | [], e => (e, [])
  | c :: s, e =>
    if c = 95 then expLoop s e
    else if decByte c then expLoop s (if e < 10000 then e * 10 + (c.toNat - 48) else e)
    else (e, c :: s)

/-- the exponent after its letter (Go library, as called by cli/packet-gen/main.go:55-64 and cli/receiver/main.go:13-14) -/
def expPart (s : Bytes) : Option (Int × Bytes) :=
  match dropSign s with
  | c :: t => if decByte c then
      some (if s.head? = some 45 then -((expLoop (c :: t) 0).1 : Int) else ((expLoop (c :: t) 0).1 : Int), (expLoop (c :: t) 0).2)
    else none
  | [] => none

/-- number with these digits to a base (Go library, as called by cli/packet-gen/main.go:55-64 and cli/receiver/main.go:13-14) -/
def valueIn (base : Nat) (l : List Nat) : Nat := l.foldl (fun n d => base * n + d) 0

/-- base prefix 0x, `readFloat`: `i+2 < len(s) && s[i] == '0' && lower(s[i+1]) == 'x'` -/
def isHex (s : Bytes) : Bool :=
  match s with
  | 48 :: c :: _ :: _ => lowerByte c == 120
  | _ => false

/-- `readFloat` after the digits `a` before and `b` after the point: the exponent, which a hexadecimal number must have; nothing may follow (Go library, as called by cli/packet-gen/main.go:55-64 and cli/receiver/main.go:13-14) -/
def afterMant (hex : Bool) (a b : List Nat) (r : Bytes) : Option Rat :=
  let m : Rat := (valueIn (if hex then 16 else 10) (a ++ b) : Nat)
  match r with
  | c :: t => if lowerByte c = (if hex then 112 else 101) then
      match expPart t with
      | some (e, []) => some (if hex then m * pow2 (e - 4 * (b.length : Int)) else m * pow10 (e - (b.length : Int)))
      | _ => none
    else none
  | [] => if hex then none else some (m * pow10 (-(b.length : Int)))

/-- `readFloat` without the sign: the exact number that is written, if the whole text is one (Go library, as called by cli/packet-gen/main.go:55-64 and cli/receiver/main.go:13-14) -/
def readFloat (s : Bytes) : Option Rat :=
  let r := mantLoop (isHex s) (if isHex s then s.drop 2 else s) false [] []
  if r.1 = [] ∧ r.2.1 = [] then none else afterMant (isHex s) r.1 r.2.1 r.2.2.2

/-- the text in small letters (Go library, as called by cli/packet-gen/main.go:55-64 and cli/receiver/main.go:13-14) -/
def lowerText (s : Bytes) : Bytes := s.map lowerByte

/-- `special` of strconv/atof.go: infinity and not-a-number, in any case (Go library, as called by cli/packet-gen/main.go:55-64 and cli/receiver/main.go:13-14) -/
def specialFloat (s : Bytes) : Option FloatArg :=
  if lowerText s = asc "nan" then some .nan
  else if lowerText (dropSign s) = asc "inf" ∨ lowerText (dropSign s) = asc "infinity" then some (.inf (s.head? = some 45))
  else none

/-- `strconv.ParseFloat(s, 64)`: the number that is written, correctly rounded; numbers that are too large are an error -/
def goParseFloat (s : Bytes) : Option FloatArg :=
  match specialFloat s with
  | some x => some x
  | none => match readFloat (dropSign s) with
    | none => none
    | some x =>
      if s.contains 95 && !underscoreOK s then none
      else if 2 ^ 1024 ≤ rnd64 x then none
      else some (.fin (if s.head? = some 45 then -rnd64 x else rnd64 x))

/-- kinds of flags (Go library, as called by cli/packet-gen/main.go:55-64 and cli/receiver/main.go:13-14) -/
inductive FlagKind where
  | int | float | str
deriving DecidableEq

/-- value of a flag (Go library, as called by cli/packet-gen/main.go:55-64 and cli/receiver/main.go:13-14) -/
inductive FlagVal where
  | int (v : Int64)
  | float (v : FloatArg)
  | str (v : Bytes)

/-- `Set` of the values of a flag (flag.go of the Go library) (Go library, as called by cli/packet-gen/main.go:55-64 and cli/receiver/main.go:13-14) -/
def FlagKind.set (k : FlagKind) (s : Bytes) : Option FlagVal :=
  match k with
  | .int => (goParseInt s).map .int
  | .float => (goParseFloat s).map .float
  | .str => some (.str s)

/-- what `flag.Parse` does: the values set, in order, and the arguments that are left; the usage with status 0; an error message and the usage with
status 2 -/
inductive FlagsEnd where
  | ok (sets : List (Bytes × FlagVal)) (rest : List Bytes)
  | help
  | bad

/-- `parseOne`: the name and, after a '=', the value; `for i := 1; i < len(name); i++` -/
def splitName (name : Bytes) : Bytes × Option Bytes :=
  match name with
  | [] => ([], none)
  | c :: s => if 61 ∈ s then (c :: s.takeWhile (· ≠ 61), some ((s.dropWhile (· ≠ 61)).drop 1)) else (c :: s, none)

/-- `s[numMinuses:]` (Go library, as called by cli/packet-gen/main.go:55-64 and cli/receiver/main.go:13-14) -/
def flagName (s : Bytes) : Bytes := if s[1]? = some 45 then s.drop 2 else s.drop 1

/-- add a value that was set (Go library, as called by cli/packet-gen/main.go:55-64 and cli/receiver/main.go:13-14) -/
def FlagsEnd.cons (n : Bytes) (v : FlagVal) : FlagsEnd → FlagsEnd
  | .ok l r => .ok ((n, v) :: l) r
  | e => e

/-- `(*FlagSet).Parse` with `ExitOnError` (flag.go of the Go library; none of the flags is boolean): the loop over `parseOne` (Go library, as called by cli/packet-gen/main.go:55-64 and cli/receiver/main.go:13-14) -/
def flagParse (formal : List (Bytes × FlagKind)) : List Bytes → FlagsEnd
  | [] => .ok [] []
  | s :: args =>
    if s.length < 2 ∨ s.head? ≠ some 45 then .ok [] (s :: args)
    else if s = [45, 45] then .ok [] args
    else match flagName s with
    | [] => .bad
    | c :: name =>
      if c = 45 ∨ c = 61 then .bad
      else
        let n := splitName (c :: name)
        match formal.lookup n.1 with
        | none => if n.1 = asc "help" ∨ n.1 = asc "h" then .help else .bad
        | some k => match n.2 with
          | some v => match k.set v with
            | none => .bad
            | some x => (flagParse formal args).cons n.1 x
          | none => match args with
            | [] => .bad
            | v :: args => match k.set v with
              | none => .bad
              | some x => (flagParse formal args).cons n.1 x

/-- the flags of packet-gen, cli/packet-gen/main.go:55-62 -/
def genFlags : List (Bytes × FlagKind) :=
  [(asc "pid", .int), (asc "oid", .int), (asc "time", .str), (asc "liquid", .int), (asc "lat", .float), (asc "lon", .float),
   (asc "timeout", .int), (asc "server", .str)]

/-- the last value set for a flag (Go library, as called by cli/packet-gen/main.go:55-64 and cli/receiver/main.go:13-14) -/
def lastSet (sets : List (Bytes × FlagVal)) (name : Bytes) : Option FlagVal := sets.reverse.lookup name

/-- an int flag, with default 0 -/
def intFlag (sets : List (Bytes × FlagVal)) (name : Bytes) : Int64 :=
  match lastSet sets name with
  | some (.int v) => v
  | _ => 0

/-- a string flag (cli/packet-gen/main.go:57, 62, cli/receiver/main.go:13) -/
def strFlag (sets : List (Bytes × FlagVal)) (name dflt : Bytes) : Bytes :=
  match lastSet sets name with
  | some (.str v) => v
  | _ => dflt

/-- a float flag, with default 0. The model of float64 has no infinities and no NaN: they are replaced by the numbers `special` says;
they reach only the conversions `uint32(e.Latitude/90*0xFFFFFFFF)`, whose result for them depends on the platform, as for all numbers that
do not fit. -/
def floatFlag (special : FloatArg → F64) (sets : List (Bytes × FlagVal)) (name : Bytes) : F64 :=
  match lastSet sets name with
  | some (.float (.fin x)) => x
  | some (.float v) => special v
  | _ => 0

/-- the variables after `flag.Parse`, cli/packet-gen/main.go:46-64 -/
def GenArgs.ofFlags (special : FloatArg → F64) (sets : List (Bytes × FlagVal)) : GenArgs := {
  pid := intFlag sets (asc "pid")
  oid := intFlag sets (asc "oid")
  ts := strFlag sets (asc "time") []
  liquid := intFlag sets (asc "liquid")
  lat := floatFlag special sets (asc "lat")
  lon := floatFlag special sets (asc "lon")
  timeout := intFlag sets (asc "timeout") }

/-- how the command ends: with the usage, or as `main` does (cli/packet-gen/main.go:44-64, cli/receiver/main.go:11-18) -/
inductive CmdEnd where
  | usage (status : Nat)
  | ran (e : GenEnd)
deriving DecidableEq

end Egts
