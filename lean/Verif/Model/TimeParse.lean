import Verif.Model.CmdLine
set_option autoImplicit false
/- Model of `time.Parse(time.RFC3339, ts)` of the Go library (format.go; the layout is 2006-01-02T15:04:05Z07:00), as called by
cli/packet-gen/main.go:80, and of the command packet-gen as a whole. -/
namespace Egts

/-- `getnum` of time/format.go: two digits, or one if that is allowed (Go library, as called by cli/packet-gen/main.go:80) -/
def getnum (fixed : Bool) : Bytes → Option (Nat × Bytes)
  | c :: d :: s => if !decByte c then none else if decByte d then some (10 * (c.toNat - 48) + (d.toNat - 48), s)
      else if fixed then none else some (c.toNat - 48, d :: s)
  | [c] => if !decByte c || fixed then none else some (c.toNat - 48, [])
  | [] => none

/-- `skip` for one character of the layout (Go library, as called by cli/packet-gen/main.go:80) -/
def skipByte (c : UInt8) : Bytes → Option Bytes
  | d :: s => if d = c then some s else none
  | [] => none

/-- `stdLongYear`: four digits (Go library, as called by cli/packet-gen/main.go:80) -/
def getYear : Bytes → Option (Nat × Bytes)
  | a :: b :: c :: d :: s => if decByte a && decByte b && decByte c && decByte d then
      some (1000 * (a.toNat - 48) + 100 * (b.toNat - 48) + 10 * (c.toNat - 48) + (d.toNat - 48), s) else none
  | _ => none

/-- the fraction of a second that may follow the seconds although the layout has none: nanoseconds of the first nine digits (Go library, as called by cli/packet-gen/main.go:80) -/
def getFraction : Bytes → Nat × Bytes
  | c :: d :: s => if (c = 46 ∨ c = 44) ∧ decByte d then
      let ds := ((d :: s).takeWhile decByte).take 9
      (ds.foldl (fun n b => 10 * n + (b.toNat - 48)) 0 * 10 ^ (9 - ds.length), (d :: s).dropWhile decByte)
    else (0, c :: d :: s)
  | s => (0, s)

/-- two characters of an offset. Before Go 1.20 `atoi`, which takes a sign; since then `getnum` with two digits. -/
def zoneNum (strict : Bool) (c d : UInt8) : Option Int :=
  if decByte c then if decByte d then some (10 * ((c.toNat : Int) - 48) + ((d.toNat : Int) - 48)) else none
  else if strict then none
  else if c = 43 then if decByte d then some ((d.toNat : Int) - 48) else none
  else if c = 45 then if decByte d then some (-((d.toNat : Int) - 48)) else none
  else none

/-- `stdISO8601ColonTZ`: Z or an offset; seconds east of Greenwich. Since Go 1.20 the hours are at most 24 and the minutes at most 60. -/
def getZone (strict : Bool) : Bytes → Option (Int × Bytes)
  | 90 :: s => some (0, s)
  | sg :: h1 :: h2 :: 58 :: m1 :: m2 :: s =>
    match zoneNum strict h1 h2, zoneNum strict m1 m2 with
    | some h, some m =>
      if strict && (24 < h || 60 < m) then none
      else if sg = 43 then some ((h * 60 + m) * 60, s)
      else if sg = 45 then some (-((h * 60 + m) * 60), s)
      else none
    | _, _ => none
  | _ => none

/-- number of days of the years before `y` and of the months before `m`, from 0000-01-01 on -/
def daysBefore (y m : Nat) : Nat := ((List.range y).map yearLen).sum + ((monthLens y).take (m - 1)).sum

/-- `time.Parse(time.RFC3339, v)`: nanoseconds since 2010-01-01T00:00:00Z (734138 days after 0000-01-01). `strict`: Go 1.20 or later. -/
def timeParse (strict : Bool) (v : Bytes) : Option Int := do
  let (year, v) ← getYear v
  let v ← skipByte 45 v
  let (month, v) ← getnum true v
  if month = 0 ∨ 12 < month then none
  let v ← skipByte 45 v
  let (day, v) ← getnum true v
  let v ← skipByte 84 v
  let (hour, v) ← getnum false v
  if 24 ≤ hour then none
  let v ← skipByte 58 v
  let (min, v) ← getnum true v
  if 60 ≤ min then none
  let v ← skipByte 58 v
  let (sec, v) ← getnum true v
  if 60 ≤ sec then none
  let (ns, v) := getFraction v
  let (off, v) ← getZone strict v
  if v ≠ [] then none
  if day < 1 ∨ (monthLens year).getD (month - 1) 0 < day then none
  some (((((daysBefore year month + (day - 1) : Nat) : Int) - 734138) * 86400 + hour * 3600 + min * 60 + sec - off) * 1000000000 + ns)

variable [P : Platform]

/-- the command packet-gen: `flag.Parse` (main.go:64), then the rest of `main`. What happens on the network depends on the server
that is named. -/
def genCommand (strict : Bool) (special : FloatArg → F64) (net : Bytes → GenNet) (args : List Bytes) : Option Bytes × CmdEnd :=
  match flagParse genFlags args with
  | .help => (none, .usage 0)
  | .bad => (none, .usage 2)
  | .ok sets _ =>
    let r := genMain (GenArgs.ofFlags special sets) { net (strFlag sets (asc "server") (asc "localhost:5555")) with parsed := timeParse strict }
    (r.1, .ran r.2)

/-- the command receiver: `flag.Parse` with the flag -c, cli/receiver/main.go:12-14, then the rest of `main`; `none`: the usage -/
def receiverCommand {W : Type} (read : Bytes → Option (List (Bytes × YamlValue)))
    (order : List (Bytes × Option Params) → List (Bytes × Option Params)) (D : Drivers W) (listen : Bytes → Bool)
    (args : List Bytes) (w : W) : Option (Startup × W) :=
  match flagParse [(asc "c", .str)] args with
  | .ok sets _ => some (receiverMain read order D listen (strFlag sets (asc "c") []) w)
  | _ => none

example : timeParse false (asc "2010-01-01T00:00:00Z") = some 0 ∧ timeParse true (asc "2021-12-16T09:12:00.25+03:30") =
    some (377341920 * 1000000000 - 12600 * 1000000000 + 250000000) := by decide +kernel

end Egts
