import Verif.Spec.Server
set_option autoImplicit false
/- Whose data the saved records are (C92), and what is lost (C93, C96). -/
namespace Egts
variable [P : Platform]

/-- the positions of one record -/
def ServiceDataRecord.positions (r : ServiceDataRecord) : List SrPosData := Egts.positions (r.RecordDataSet.filterMap (·.SubrecordData))

/-- what C92 asks for: every position of the records `l` is in a saved record that names the object of its own record, and every saved
location is such a position -/
def Attributed (l : List ServiceDataRecord) (saves : List NavRecord) : Prop :=
  (∀ rec ∈ l, ∀ d ∈ rec.positions, ∃ s ∈ saves, s.ClientID = rec.ObjectIdentifier ∧ locOf d ∈ s.LocStates) ∧
  (∀ s ∈ saves, ∀ x ∈ s.LocStates, ∃ rec ∈ l, rec.ObjectIdentifier = s.ClientID ∧ ∃ d ∈ rec.positions, locOf d = x)

/-- what C93 asks for: every analog reading and every liquid level of the records `l` is in a saved record -/
def ReadingsKept (l : List ServiceDataRecord) (saves : List NavRecord) : Prop :=
  (∀ a ∈ (subsOf l).flatMap (·.readings), ∃ s ∈ saves, a ∈ s.AnSensors) ∧
  (∀ d ∈ (subsOf l).filterMap (·.liquid?), ∃ s ∈ saves, liquidOf d ∈ s.LiquidSensors)

/-- the same subrecord; a position is flagged as without valid fix -/
def SubData.invalidated : SubData → SubData
  | .pos d => .pos { d with VLD := [48] }
  | d => d

/-- the same records; all positions are flagged as without valid fix -/
def invalidated (l : List ServiceDataRecord) : List ServiceDataRecord :=
  l.map fun r => { r with RecordDataSet := r.RecordDataSet.map fun rd => { rd with SubrecordData := rd.SubrecordData.map (·.invalidated) } }

/-- what C96 asks for: every saved location is that of a position with a valid fix (VLD = 1) -/
def OnlyValid (l : List ServiceDataRecord) (saves : List NavRecord) : Prop :=
  ∀ s ∈ saves, ∀ x ∈ s.LocStates, ∃ d ∈ positions (subsOf l), d.VLD = [49] ∧ locOf d = x

end Egts
