import Mathlib.Data.List.Forall2
import Verif.Spec.Conform
set_option autoImplicit false
/- Records distributed over packets in different ways. Independent of the code. -/
namespace Egts
variable [P : Platform]

/-- `cs` are data packets without confirmations, with the records `ls`, packet by packet -/
def Carry (cs : List Bytes) (ls : List (List ServiceDataRecord)) : Prop :=
  List.Forall₂ (fun c l => (∃ pid, DataPacket c pid l) ∧ NoResponses l) cs ls

/-- the record numbers that the packet `w` confirms, read with Package.Decode; none if it is refused or no RESPONSE -/
def confirmedBy (w : Bytes) : List UInt16 :=
  match Package.decode {} w [] with
  | .ret _ none q =>
    match q.ServicesFrameData with
    | some (.response r) => (subsOf (r.SDR.getD [])).filterMap fun
      | .response c => some c.ConfirmedRecordNumber
      | _ => none
    | _ => []
  | _ => []

/-- the places stored, in order, whatever the records they are in -/
def placesStored (es : List Effect) : List LocState := (savesOf es).flatMap (·.LocStates)

/-- the liquid levels stored, in order, whatever the records they are in -/
def liquidsStored (es : List Effect) : List LiquidSensor := (savesOf es).flatMap (·.LiquidSensors)

/-- the analog readings stored, in order, whatever the records they are in -/
def readingsStored (es : List Effect) : List AnSensor := (savesOf es).flatMap (·.AnSensors)

end Egts
