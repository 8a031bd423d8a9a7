import Verif.Props.PassOn
import Verif.Lemmas.KernelRfl
set_option autoImplicit false
/- C87: packets that Decode accepts and Encode does not give back, and packets that meet the hypotheses of the partial theorems. -/
namespace Egts
open Frame
variable [P : Platform]

/-- header of an unrouted data packet with identifier 5 and a body of `n` bytes -/
def plainHead (n : UInt8) : Bytes := [1, 0, 0, 11, 0, n, 0, 5, 0, 1]

/-- the package decoded from a packet with `plainHead` -/
def plainPackage (n : UInt8) (crc : UInt8) (crc2 : UInt16) (b : Option Body) : Package := {
  ProtocolVersion := 1, Prefix := [48, 48], Route := [48], EncryptionAlg := [48, 48], Compression := [48], Priority := [48, 48]
  HeaderLength := 11, FrameDataLength := n.toUInt16, PacketIdentifier := 5, PacketType := 1, HeaderCheckSum := crc
  ServicesFrameData := b, ServicesFrameDataCheckSum := crc2 }

/-- a counter (type 25) with one byte more than the standard gives it -/
def longBody : Bytes := [8, 0, 1, 0, 0, 2, 2, 25, 5, 0, 110, 1, 0, 0, 9]

omit P in
theorem plain_right (b : Bytes) (h : b.length < 256) : RightHeader (plainHead (UInt8.ofNat b.length)) 1 5 b.length := by
  refine ⟨rfl, by simp [plainHead, headerSize, routed, byteAt], by simp [plainHead, headerSize, routed, byteAt, declaredHL], ?_, by simp [plainHead, word16At, byteAt, leValue], rfl⟩
  have : (UInt8.ofNat b.length).toNat = b.length := by rw [UInt8.toNat_ofNat', Nat.mod_eq_of_lt h]
  simp [declaredFDL, word16At, plainHead, byteAt, leValue, this]

def longPackage : Package := plainPackage 15 (crc8 (plainHead 15)) (crc16 longBody) (some (.appdata [{ cutRecord with
  RecordLength := 8
  RecordDataSet := [⟨25, 5, some (.absCntr { CounterNumber := 110, CounterValue := 1 })⟩] }]))

/-- C87 is false of the code: a packet with a subrecord that is one byte longer than its fields is accepted; Encode drops that byte and
keeps the old record and subrecord lengths, so the packet it gives is not one the standard describes. -/
theorem pass_on_wrong : ∃ q q' b', Package.decode {} (packet (plainHead 15) longBody) [] = .ret 0 none q ∧
    q.encode = .ok (packet (plainHead 14) b', q') ∧ ∀ l, ¬ CompleteRecords b' l := by
  refine ⟨longPackage, { longPackage with
    FrameDataLength := 14 }, [8, 0, 1, 0, 0, 2, 2, 25, 5, 0, 110, 1, 0, 0], by kernel_rfl, by kernel_rfl, fun l hl => ?_⟩
  have h : ∃ r : ServiceDataRecord, ServiceDataSet.decode [] [8, 0, 1, 0, 0, 2, 2, 25, 5, 0, 110, 1, 0, 0] = .ok [r] ∧ r.announced = 15 := by
    refine ⟨{ cutRecord with
      RecordLength := 8
      RecordDataSet := [⟨25, 5, some (.absCntr { CounterNumber := 110, CounterValue := 1 })⟩] }, by kernel_rfl, rfl⟩
  obtain ⟨r, h1, h2⟩ := h
  have h3 := Out.ok.inj (h1.symm.trans (body_decoded _ _ hl))
  subst h3
  have := complete_announced hl
  simp [h2] at this

def statePackage : Package :=
  plainPackage 15 (crc8 (plainHead 15)) (crc16 [8, 0, 1, 0, 0, 2, 2, 21, 5, 0, 2, 127, 0, 41, 248]) (some (.appdata [{ cutRecord with
    RecordLength := 8
    RecordDataSet := [⟨21, 5, some (.state { State := 2, MainPowerSourceVoltage := 127, BackUpBatteryVoltage := 0, InternalBatteryVoltage := 41, NMS := [48], IBU := [48], BBU := [48] })⟩] }]))

/-- C87 is false of the code: the reserved bits of the flags of a state subrecord are lost (here the last byte 248 becomes 0); the packet
given by Encode is another one, with right lengths and checksums. -/
theorem pass_on_reserved : ∃ q q',
    Package.decode {} (packet (plainHead 15) [8, 0, 1, 0, 0, 2, 2, 21, 5, 0, 2, 127, 0, 41, 248]) [] = .ret 0 none q ∧
    q.encode = .ok (packet (plainHead 15) [8, 0, 1, 0, 0, 2, 2, 21, 5, 0, 2, 127, 0, 41, 0], q') :=
  ⟨statePackage, statePackage, by kernel_rfl, by kernel_rfl⟩

/-- C87 is false of the code: a packet with an empty body, which Decode accepts only with the two bytes FF FF of a body checksum, is
given back without them, and Decode rejects the packet that Encode gives. -/
theorem pass_on_empty : ∃ q q' c', Package.decode {} (plainHead 0 ++ [crc8 (plainHead 0), 255, 255]) [] = .ret 0 none q ∧
    q.encode = .ok (c', q') ∧ c' = plainHead 0 ++ [crc8 (plainHead 0)] ∧
    ∃ e q'', Package.decode {} c' [] = .ret 132 (some e) q'' := by
  refine ⟨plainPackage 0 (crc8 (plainHead 0)) 65535 (some (.appdata [])), plainPackage 0 (crc8 (plainHead 0)) 65535 (some (.appdata [])),
    _, by kernel_rfl, by kernel_rfl, rfl, .eof, plainPackage 0 (crc8 (plainHead 0)) 0 none, by kernel_rfl⟩

/-- the packet of `exDataPacket`, with a counter and an empty record, meets the hypotheses of `pass_on_partial` -/
example : BodyWith Canonical 1 [7, 0, 1, 0, 0, 2, 2, 25, 4, 0, 110, 1, 0, 0, 0, 0, 1, 0, 0, 2, 2] := by
  refine .inl ⟨rfl, ?_⟩
  refine RecordsBecome.cons (d := [25, 4, 0, 110, 1, 0, 0]) (d' := [25, 4, 0, 110, 1, 0, 0]) (b := [0, 0, 1, 0, 0, 2, 2])
    (b' := [0, 0, 1, 0, 0, 2, 2]) 1 0 0 0 0 2 2 ?_ (by decide) ?_
  · refine SubsBecome.cons (t := 25) (c := [110, 1, 0, 0]) (c' := [110, 1, 0, 0]) (b := []) (b' := []) ⟨?_, rfl⟩ (by decide) .nil
    simp [Canonical]
  · exact RecordsBecome.cons (d := []) (d' := []) (b := []) (b' := []) 1 0 0 0 0 2 2 .nil (by decide) .nil

/-- a position with altitude and 60 km/h, and a RESPONSE packet: meet the hypotheses of `pass_on_pos_partial` -/
example : BodyWith Passable 0 (leBytes 2 5 ++ [0] ++ (recordHead 27 95 5 133552 0 99 2 2 ++
    [16, 24, 0, 128, 147, 220, 20, 27, 199, 113, 156, 244, 73, 159, 52, 129, 88, 130, 72, 77, 0, 0, 0, 0, 44, 1, 0])) := by
  refine .inr ⟨rfl, 5, 0, _, _, ?_, rfl, rfl⟩
  refine RecordsBecome.cons (d := [16, 24, 0, 128, 147, 220, 20, 27, 199, 113, 156, 244, 73, 159, 52, 129, 88, 130, 72, 77, 0, 0, 0, 0, 44, 1, 0])
    (d' := [16, 24, 0, 128, 147, 220, 20, 27, 199, 113, 156, 244, 73, 159, 52, 129, 88, 130, 72, 77, 0, 0, 0, 0, 44, 1, 0]) (b := []) (b' := [])
    95 5 133552 0 99 2 2 ?_ (by decide) .nil
  refine SubsBecome.cons (t := 16) (c := [128, 147, 220, 20, 27, 199, 113, 156, 244, 73, 159, 52, 129, 88, 130, 72, 77, 0, 0, 0, 0, 44, 1, 0])
    (c' := [128, 147, 220, 20, 27, 199, 113, 156, 244, 73, 159, 52, 129, 88, 130, 72, 77, 0, 0, 0, 0, 44, 1, 0]) (b := []) (b' := [])
    ⟨.inr ⟨rfl, ?_, ?_, ?_⟩, rfl⟩ (by decide) .nil
  all_goals decide

end Egts
