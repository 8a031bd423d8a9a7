import Verif.Model.Json
set_option autoImplicit false
/- Documents as their readers see them: keys, members, arrays; texts as sequences of Unicode characters. -/
namespace Egts

/-- keys of an object, in order -/
def Json.keys : Json → List Bytes
  | .obj m => m.map (·.1)
  | _ => []

/-- the member with key `k` -/
def Json.member (k : Bytes) : Json → Option Json
  | .obj m => (m.find? (·.1 = k)).map (·.2)
  | _ => none

/-- an array -/
def Json.IsArray : Json → Prop
  | .arr _ => True
  | _ => False

/-- valid UTF-8: the encoding of a sequence of Unicode characters (encoding as defined by Lean) -/
def ValidUtf8 (s : Bytes) : Prop := ∃ cs : List Char, s = cs.flatMap String.utf8EncodeChar

/-- all texts of a record are valid UTF-8 -/
def NavRecord.TextsOk (r : NavRecord) : Prop :=
  ValidUtf8 r.ServerID ∧ ValidUtf8 r.IMEI ∧ ValidUtf8 r.ReceivedDt ∧ (∀ s ∈ r.LocStates, ValidUtf8 s.NavigationDt) ∧
  ∀ q ∈ r.LiquidSensors, ValidUtf8 q.ErrorFlag ∧ ValidUtf8 q.ValueUnit

end Egts
