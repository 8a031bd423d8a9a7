import Verif.Spec.Stream
set_option autoImplicit false
/- Packets that differ only in the credentials they carry. -/
namespace Egts
open Frame
variable [P : Platform]

/-- two subrecords of the same type that are equal, or two logins with whatever user names, passwords and server sequences -/
def AlikeSub (x y : RecordData) : Prop :=
  x.SubrecordType = y.SubrecordType ∧
  (x.SubrecordData = y.SubrecordData ∨ ∃ a b, x.SubrecordData = some (.auth a) ∧ y.SubrecordData = some (.auth b))

/-- two records that are equal but for the credentials (and for their length, which depends on these) -/
def AlikeRecord (r s : ServiceDataRecord) : Prop :=
  r = { s with RecordLength := r.RecordLength, RecordDataSet := r.RecordDataSet } ∧ List.Forall₂ AlikeSub r.RecordDataSet s.RecordDataSet

/-- two accepted data packets with the same identifier whose records differ only in the credentials -/
def AlikePackets (c d : Bytes) : Prop := ∃ l m, List.Forall₂ AlikeRecord l m ∧ ∀ spare, ∃ p q,
  Package.decode {} c spare = .ret 0 none p ∧ Package.decode {} d spare = .ret 0 none q ∧
  p.PacketIdentifier = q.PacketIdentifier ∧ p.ServicesFrameData = some (.appdata l) ∧ q.ServicesFrameData = some (.appdata m)

end Egts
