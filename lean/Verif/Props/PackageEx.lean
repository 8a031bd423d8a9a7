import Verif.Props.Package
set_option autoImplicit false
/- Concrete values that meet the hypotheses of C13, C16, C17 (tests, not proofs of the properties). -/
namespace Egts
variable [P : Platform]

def exPos : SrPosData := { plainPos with
  ALTE := [49], Latitude := 55, Longitude := 37, Speed := 60, DirectionHighestBit := 1, Direction := 200, Odometer := 77
  Altitude := 300, NavigationTime := 350000000000000000 }

def exState : SrStateData :=
  { State := 2, MainPowerSourceVoltage := 127, BackUpBatteryVoltage := 0, InternalBatteryVoltage := 41, NMS := [49], IBU := [48],
    BBU := [48] }

/-- an APPDATA package with routing fields, one record with object id and time, and four subrecords: a position (type
and length filled in by Encode), a state (type 20), a dispatcher identity and a record response -/
def exPackage : Package := {
  ProtocolVersion := 1, Prefix := [48, 48], Route := [49], EncryptionAlg := [48, 48], Compression := [48], Priority := [49, 48]
  PacketIdentifier := 7, PacketType := 1, PeerAddress := 513, RecipientAddress := 6, TimeToLive := 9
  ServicesFrameData := some (.appdata [{
    RecordNumber := 95, SourceServiceOnDevice := [49], RecipientServiceOnDevice := [48], Group := [48]
    RecordProcessingPriority := [49, 49], TimeFieldExists := [49], EventIDFieldExists := [48], ObjectIDFieldExists := [49]
    ObjectIdentifier := 133552, Time := 99, SourceServiceType := 2, RecipientServiceType := 2
    RecordDataSet := [⟨0, 0, some (.pos exPos)⟩, ⟨20, 5, some (.state exState)⟩, ⟨5, 0, some (.dispatcher ⟨0, 47, [65, 66]⟩)⟩,
      ⟨0, 3, some (.response ⟨95, 0⟩)⟩] }]) }

omit P in
theorem isBit0 : IsBit [48] := .inl rfl
omit P in
theorem isBit1 : IsBit [49] := .inr rfl

theorem exPos_encode : exPos.encode =
    .ok [128, 147, 220, 20, 27, 199, 113, 156, 244, 73, 159, 52, 129, 88, 130, 72, 77, 0, 0, 0, 0, 44, 1, 0] := by
  have a1 : rawOfLon 37 = 882854388 := by kernel_rfl
  have a2 : rawOfLat 55 = 2624702235:= by kernel_rfl
  have a3 : rawOfNavTime 350000000000000000 = 350000000 := by kernel_rfl
  have h1 : exPos.Longitude = 37 := rfl
  have h2 : exPos.Latitude = 55 := rfl
  have h3 : exPos.NavigationTime = 350000000000000000 := rfl
  unfold SrPosData.encode
  rw [h1, h2, h3, a1, a2, a3]
  decide +kernel

theorem exPos_wf : (SubData.pos exPos : SubData).WellFormed := by
  refine ⟨⟨?_, by decide, by decide, by decide, by decide, by decide⟩, by decide, ?_, rfl, ⟨350000000, by norm_num, rfl⟩, ?_, ?_⟩
  · simp [SrPosData.FlagsOk, IsBit, plainPos, exPos]
  · intro h; exact absurd rfl h
  · constructor <;> norm_num [exPos]
  · constructor <;> norm_num [exPos]

theorem exPackage_wf : exPackage.WellFormed := by
  have hl : ∀ rd ∈ ([⟨0, 0, some (.pos exPos)⟩, ⟨20, 5, some (.state exState)⟩, ⟨5, 0, some (.dispatcher ⟨0, 47, [65, 66]⟩)⟩,
      ⟨0, 3, some (.response ⟨95, 0⟩)⟩] : List RecordData), rd.WellFormed := by
    intro rd hrd
    simp only [List.mem_cons, List.not_mem_nil, or_false] at hrd
    rcases hrd with rfl | rfl | rfl | rfl
    · exact ⟨⟨_, rfl, .inr (.inl ⟨rfl, rfl⟩)⟩, ⟨_, _, rfl, exPos_encode, by decide, .inl rfl⟩, _, rfl, exPos_wf⟩
    · exact ⟨⟨_, rfl, .inr (.inr ⟨rfl, _, rfl⟩)⟩, ⟨_, [2, 127, 0, 41, 4], rfl, by kernel_rfl, by decide, .inr rfl⟩, _, rfl,
        isBit1, isBit0, isBit0⟩
    · exact ⟨⟨_, rfl, .inl rfl⟩, ⟨_, _, rfl, rfl, by decide, .inl rfl⟩, _, rfl, trivial⟩
    · exact ⟨⟨_, rfl, .inl rfl⟩, ⟨_, _, rfl, rfl, by decide, .inr rfl⟩, _, rfl, trivial⟩
  obtain ⟨b, l', hb, -, -⟩ := rds_roundtrip _ hl
  have henc : RecordDataSet.encode ([⟨0, 0, some (.pos exPos)⟩, ⟨20, 5, some (.state exState)⟩,
      ⟨5, 0, some (.dispatcher ⟨0, 47, [65, 66]⟩)⟩, ⟨0, 3, some (.response ⟨95, 0⟩)⟩] : List RecordData) = .ok
      [16, 24, 0, 128, 147, 220, 20, 27, 199, 113, 156, 244, 73, 159, 52, 129, 88, 130, 72, 77, 0, 0, 0, 0, 44, 1, 0,
        20, 5, 0, 2, 127, 0, 41, 4, 5, 7, 0, 0, 47, 0, 0, 0, 65, 66, 0, 3, 0, 95, 0, 0] := by
    have e1 : RecordData.encode ⟨0, 0, some (.pos exPos)⟩ = .ok ([16] ++ le16 24 ++ _) :=
      rd_encode_eq _ _ 16 24 _ rfl rfl (by
        show lengthOf exPos.encode = _
        rw [exPos_encode]; rfl) exPos_encode
    have e2 : RecordData.encode ⟨20, 5, some (.state exState)⟩ = .ok [20, 5, 0, 2, 127, 0, 41, 4] := by kernel_rfl
    have e3 : RecordData.encode ⟨5, 0, some (.dispatcher ⟨0, 47, [65, 66]⟩)⟩ = .ok [5, 7, 0, 0, 47, 0, 0, 0, 65, 66] := by
      kernel_rfl
    have e4 : RecordData.encode ⟨0, 3, some (.response ⟨95, 0⟩)⟩ = .ok [0, 3, 0, 95, 0, 0] := by kernel_rfl
    simp only [RecordDataSet.encode, encodeAll, e1, e2, e3, e4, Go.ok_bind, Go.pure_def]
    rfl
  refine ⟨⟨⟨_, _, isBit0, isBit0, rfl⟩, isBit1, ⟨_, _, isBit0, isBit0, rfl⟩, isBit0, ⟨_, _, isBit1, isBit0, rfl⟩⟩, .inl rfl,
    .inl ⟨rfl, _, rfl, by simp, ?_⟩, ?_⟩
  · intro e he
    rw [List.mem_singleton.mp he]
    exact ⟨⟨isBit1, isBit0, isBit0, ⟨_, _, isBit1, isBit1, rfl⟩, isBit1, isBit0, isBit1⟩, ⟨_, henc, by decide, .inl rfl⟩, hl⟩
  · intro b hb
    have he : exPackage.HasBody ([51, 0, 95, 0, 157, 176, 9, 2, 0, 99, 0, 0, 0, 2, 2,
        16, 24, 0, 128, 147, 220, 20, 27, 199, 113, 156, 244, 73, 159, 52, 129, 88, 130, 72, 77, 0, 0, 0, 0, 44, 1, 0,
        20, 5, 0, 2, 127, 0, 41, 4, 5, 7, 0, 0, 47, 0, 0, 0, 65, 66, 0, 3, 0, 95, 0, 0]) := by
      unfold Package.HasBody
      simp only [exPackage, ServiceDataSet.encode, encodeAll, ServiceDataRecord.encode, henc, Go.ok_bind, Go.pure_def]
      kernel_rfl
    unfold Package.HasBody at hb he
    have := Go.ok.inj (hb.symm.trans he)
    have h16 : exPackage.headerBytes = 16 := rfl
    rw [this, h16]; decide

end Egts
