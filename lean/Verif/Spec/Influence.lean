import Mathlib.Data.List.Forall2
import Verif.Spec.Conform
set_option autoImplicit false
/- What of a data packet matters to the gate. Independent of the code. -/
namespace Egts
variable [P : Platform]

/-- the data of the subrecords of one record -/
def dataOfRecord (r : ServiceDataRecord) : List SubData := r.RecordDataSet.filterMap (·.SubrecordData)

/-- the kinds of subrecords that are told apart: positions, terminal identities, analog readings, liquid levels, absolute counters, and
everything else -/
def SubData.kind : SubData → Nat
  | .pos _ => 1
  | .term _ => 2
  | .ad _ => 3
  | .absAn _ => 3
  | .liquid _ => 4
  | .absCntr _ => 5
  | _ => 0

/-- subrecords that play no part: state, extended position, counters (type 19), dispatcher identity, result code, telematic messages, and
absolute counters other than 110 and 111 -/
def SubData.Idle : SubData → Prop
  | .state _ | .ext _ | .counters _ | .dispatcher _ | .result _ | .storage _ => True
  | .absCntr c => c.CounterNumber ≠ 110 ∧ c.CounterNumber ≠ 111
  | _ => False

/-- what is used of a position: place, speed and time -/
def placeOf (d : SrPosData) : F64 × F64 × UInt16 × Int := (d.Latitude, d.Longitude, d.Speed, d.NavigationTime)

/-- the absolute counters 110 and 111, which make up the number of a record -/
def counterOf : SubData → Option SrAbsCntrData
  | .absCntr c => if c.CounterNumber = 110 ∨ c.CounterNumber = 111 then some c else none
  | _ => none

/-- two records that are the same to the gate: record number, object and service; the places, in order; the IMEIs, in order; the analog
readings, in order; the liquid levels, in order; the counters 110 and 111, in order; whether there is a login, and whether there is a confirmation -/
structure SameRecord (r r' : ServiceDataRecord) : Prop where
  number : r'.RecordNumber = r.RecordNumber
  object : r'.ObjectIdentifier = r.ObjectIdentifier
  service : r'.SourceServiceType = r.SourceServiceType
  places : (positions (dataOfRecord r')).map placeOf = (positions (dataOfRecord r)).map placeOf
  imeis : ((dataOfRecord r').filterMap (·.term?)).map (·.IMEI) = ((dataOfRecord r).filterMap (·.term?)).map (·.IMEI)
  analog : (dataOfRecord r').flatMap (·.readings) = (dataOfRecord r).flatMap (·.readings)
  liquid : (dataOfRecord r').filterMap (·.liquid?) = (dataOfRecord r).filterMap (·.liquid?)
  counters : (dataOfRecord r').filterMap counterOf = (dataOfRecord r).filterMap counterOf
  login : (dataOfRecord r').any (·.isLogin) = (dataOfRecord r).any (·.isLogin)
  response : (dataOfRecord r').any (·.isResponse) = (dataOfRecord r).any (·.isResponse)

/-- data packets with the same identifier, with records that are alike, one by one -/
def SamePacket (c c' : Bytes) : Prop := ∃ pid l l', DataPacket c pid l ∧ DataPacket c' pid l' ∧ List.Forall₂ SameRecord l l'

/-- `x` is `y` with its elements in another order, but those of each kind in the same order -/
def Rearranged (x y : List SubData) : Prop := x.Perm y ∧ ∀ k, x.filter (·.kind = k) = y.filter (·.kind = k)

end Egts
