import Verif.Props.StorageWire
import Verif.Props.Body
import Verif.Props.Records
import Verif.Lemmas.KernelRfl
import Verif.Spec.SubRecord
set_option autoImplicit false
/- C80-C82: the EGTS_SR_EGTSPLUS_DATA subrecord: its wire format, round trip, and what is accepted. -/
namespace Egts

/-- no field of the message or of its parts is one the .proto file does not know -/
def StorageRecord.NoUnknown (m : StorageRecord) : Prop :=
  m.XXX_unrecognized = [] ∧
  (∀ x ∈ m.SensNdNavData, x.XXX_unrecognized = []) ∧
  (∀ x ∈ m.SensFuelLevel, x.XXX_unrecognized = []) ∧
  (∀ x ∈ m.SensAinAinValue, x.XXX_unrecognized = []) ∧
  (∀ x ∈ m.SensDinsFlags, x.XXX_unrecognized = []) ∧
  (∀ x ∈ m.SensCounterCount, x.XXX_unrecognized = []) ∧
  (∀ x ∈ m.SensFmeterFrequency, x.XXX_unrecognized = []) ∧
  (∀ x ∈ m.SensGsmCellMonotoringCellMonitoring, x.XXX_unrecognized = []) ∧
  (∀ x ∈ m.SensButtonPressCounter, x.XXX_unrecognized = []) ∧
  (∀ x ∈ m.SensTermoData, x.XXX_unrecognized = []) ∧
  (∀ x ∈ m.SensCanLogData, x.XXX_unrecognized = []) ∧
  (∀ x ∈ m.SensCanLogTmpDataExt, x.XXX_unrecognized = []) ∧
  (∀ x ∈ m.SensAccelerometerData, x.XXX_unrecognized = []) ∧
  (∀ x ∈ m.SensDoutsFlags, x.XXX_unrecognized = []) ∧
  (∀ x ∈ m.SensBufferData, x.XXX_unrecognized = []) ∧
  (∀ x ∈ m.SensStorInfo, x.XXX_unrecognized = []) ∧
  (∀ x ∈ m.SensTrackerInfo, x.XXX_unrecognized = []) ∧
  (∀ x ∈ m.SensTestEraTests, x.XXX_unrecognized = []) ∧
  (∀ x ∈ m.SensCrashData, x.XXX_unrecognized = [])

theorem StorageRecord.initialized_iff (m : StorageRecord) : m.initialized = true ↔ m.Required := by
  simp only [StorageRecord.initialized, StorageRecord.Required, Bool.and_eq_true, Option.isSome_iff_ne_none, and_assoc]

theorem PB.msgs_typed {T : Type} {sch : PB.SubSchema} {toSub : T → PB.Sub} (h : ∀ m, PB.SubTyped sch (toSub m).vals) {l : List T}
    (hu : ∀ x ∈ l, (toSub x).unknown = []) : PB.SlotTyped (.msgs sch) (.msgs (l.map toSub)) := by
  intro x hx
  obtain ⟨y, hy, rfl⟩ := List.mem_map.mp hx
  exact ⟨h y, by rw [hu y hy]; exact .nil⟩

theorem StorageRecord.toMsg_typed (m : StorageRecord) (h : m.NoUnknown) : PB.MsgTyped StorageRecord.schema m.toMsg.1 := by
  obtain ⟨-, h0, h1, h2, h3, h4, h5, h6, h7, h8, h9, h10, h11, h12, h13, h14, h15, h16, h17⟩ := h
  simp only [StorageRecord.schema, StorageRecord.toMsg, PB.MsgTyped]
  exact .cons (PB.map_has_uint32 _) <| .cons (PB.map_has_fixed32 _) <| .cons trivial <| .cons (PB.map_has_fixed32 _) <| .cons (PB.msgs_typed SensNdNavData.typed h0) <| 
    .cons (PB.msgs_typed SensFuelLevel.typed h1) <| 
    .cons (PB.msgs_typed SensAinAinValue.typed h2) <| 
    .cons (PB.msgs_typed SensDinsFlags.typed h3) <| 
    .cons (PB.msgs_typed SensCounterCount.typed h4) <| 
    .cons (PB.msgs_typed SensFmeterFrequency.typed h5) <| 
    .cons (PB.msgs_typed SensGsmCellMonotoringCellMonitoring.typed h6) <| 
    .cons (PB.msgs_typed SensButtonPressCounter.typed h7) <| 
    .cons (PB.msgs_typed SensTermoData.typed h8) <| 
    .cons (PB.msgs_typed SensCanLogData.typed h9) <| 
    .cons (PB.msgs_typed SensCanLogTmpDataExt.typed h10) <| 
    .cons (PB.msgs_typed SensAccelerometerData.typed h11) <| 
    .cons (PB.msgs_typed SensDoutsFlags.typed h12) <| 
    .cons (PB.msgs_typed SensBufferData.typed h13) <| 
    .cons (PB.msgs_typed SensStorInfo.typed h14) <| 
    .cons (PB.msgs_typed SensTrackerInfo.typed h15) <| 
    .cons (PB.msgs_typed SensTestEraTests.typed h16) <| 
    .cons (PB.msgs_typed SensCrashData.typed h17) <| 
    .nil

/-- C80: `Encode` succeeds exactly for messages with the required fields, and gives the bytes of the .proto file (of which there are less
than 2^64, as in every byte slice). -/
theorem StorageRecord.marshal_iff (m : StorageRecord) (b : Bytes) (hb : m.wire.length < 18446744073709551616) :
    m.marshal = some b ↔ m.Required ∧ b = m.wire := by
  unfold StorageRecord.marshal
  rw [m.putMsg_wire hb]
  by_cases h : m.initialized
  · rw [if_pos h]; simp [(StorageRecord.initialized_iff m).mp h, eq_comm]
  · rw [if_neg h]; simp [show ¬ m.Required from fun hr => h ((StorageRecord.initialized_iff m).mpr hr)]

/-- C81: encoding and decoding a message with the required fields gives it back. -/
theorem StorageRecord.roundtrip (m : StorageRecord) (hr : m.Required) (hu : m.NoUnknown)
    (hb : m.wire.length < 18446744073709551616) : StorageRecord.unmarshal m.wire = some m := by
  have e := m.putMsg_wire hb
  rw [← e] at hb
  rw [← e]
  clear e
  unfold StorageRecord.unmarshal
  rw [PB.msg_roundtrip _ _ StorageRecord.schema_ok StorageRecord.fields_ok (m.toMsg_typed hu)
    (by show PB.Unk _ m.XXX_unrecognized; rw [hu.1]; exact .nil) hb]
  simp only [StorageRecord.ofMsg_toMsg]
  rw [if_pos ((StorageRecord.initialized_iff m).mpr hr)]

/-- C82: what `Decode` accepts has the required fields. -/
theorem StorageRecord.unmarshal_required {b : Bytes} {m : StorageRecord} (h : StorageRecord.unmarshal b = some m) : m.Required := by
  unfold StorageRecord.unmarshal at h
  split at h
  · cases h
  · split at h
    · next hi => rw [← Option.some.inj h]; exact (StorageRecord.initialized_iff _).mp hi
    · cases h

/-- C82: what `Decode` accepts can be encoded, and decoding that again gives the same message, with all unknown fields. -/
theorem StorageRecord.unmarshal_stable {b : Bytes} {m : StorageRecord} (h : StorageRecord.unmarshal b = some m)
    (hb : m.wire.length < 18446744073709551616) : m.marshal = some m.wire ∧ StorageRecord.unmarshal m.wire = some m := by
  have hr := StorageRecord.unmarshal_required h
  refine ⟨(m.marshal_iff _ hb).mpr ⟨hr, rfl⟩, ?_⟩
  unfold StorageRecord.unmarshal at h
  split at h
  · cases h
  · next s hs =>
    split at h
    · have hm := Option.some.inj h
      have ht := PB.getMsg_typed hs
      have hto : m.toMsg = s := by rw [← hm, StorageRecord.toMsg_ofMsg _ ht.1]
      have e := m.putMsg_wire hb
      rw [hto] at e
      rw [← e] at hb
      rw [← e]
      clear e
      unfold StorageRecord.unmarshal
      rw [PB.msg_stable StorageRecord.schema_ok StorageRecord.fields_ok hs hb]
      simp only [hm]
      rw [if_pos ((StorageRecord.initialized_iff m).mpr hr)]
    · cases h

section
variable (f2u32OutOfRange : F64 → UInt32)

/-- C81, at the level of the subrecord: with the protobuf library filled in, the round trip theorems for subrecords, records and
packets (C14-C20) apply to every such message. -/
theorem storage_wellformed (m : StorageRecord) (hr : m.Required) (hu : m.NoUnknown) (hb : m.wire.length < 18446744073709551616) :
    letI : Platform := protobufPlatform f2u32OutOfRange
    SubData.WellFormed (.storage m) :=
  ⟨m.wire, (m.marshal_iff _ hb).mpr ⟨hr, rfl⟩, m.roundtrip hr hu hb⟩

/-- C81: a list of such messages as the subrecords of a record: type codes and lengths are filled in or right, and every message
comes back. -/
theorem storage_set_roundtrip (l : List StorageRecord) (hr : ∀ m ∈ l, m.Required) (hu : ∀ m ∈ l, m.NoUnknown)
    (hb : ∀ m ∈ l, m.wire.length < 65536) :
    letI : Platform := protobufPlatform f2u32OutOfRange
    ∃ b, RecordDataSet.encode (l.map fun m => ⟨0, 0, some (.storage m)⟩) = .ok b ∧
      RecordDataSet.decode [] b = .ok (l.map fun m => ⟨15, UInt16.ofNat m.wire.length, some (.storage m)⟩) := by
  let : Platform := protobufPlatform f2u32OutOfRange
  have hm : ∀ m ∈ l, (SubData.storage m : SubData).encode = .ok m.wire := by
    intro m h
    show storageEncode m = _
    unfold storageEncode
    have : Platform.pbMarshal m = some m.wire := (m.marshal_iff _ (Nat.lt_trans (hb m h) (by decide))).mpr ⟨hr m h, rfl⟩
    rw [this]
  obtain ⟨b, l', he, hd, hs⟩ := rds_roundtrip (l.map fun m => (⟨0, 0, some (.storage m)⟩ : RecordData)) (by
    intro rd h
    obtain ⟨m, hm1, rfl⟩ := List.mem_map.mp h
    have hb' := hb m hm1
    exact ⟨⟨.storage m, rfl, .inr (.inl ⟨rfl, rfl⟩)⟩, ⟨.storage m, m.wire, rfl, hm m hm1, hb', .inl rfl⟩,
      .storage m, rfl, storage_wellformed _ m (hr m hm1) (hu m hm1) (by omega)⟩)
  refine ⟨b, he, hd.trans ?_⟩
  congr 1
  clear hd he hr hu hb
  induction l generalizing l' with
  | nil => cases hs; rfl
  | cons m l ih =>
    cases hs with
    | cons h hs =>
      obtain ⟨d, b', d', h1, h2, h3, h4⟩ := h
      obtain rfl := Option.some.inj h1
      rw [hm m (by simp)] at h2
      obtain rfl := Go.ok.inj h2
      obtain rfl : d' = .storage m := h3
      rw [h4, List.map_cons, ih (fun m h => hm m (List.mem_cons_of_mem _ h)) _ hs]
      rfl

end

/-- the message of egts_sr_egtsplus_data_test.go:12-30 -/
def exStorage : StorageRecord :=
  { RecordNumber := some 60027
    TimeStamp := some 1549747771
    StatusFlags := some 0
    SensCanLogData := [{ SensNum := some 1, EngineTemperature := some (-40) }]
    SensCanLogTmpDataExt := [{ SensNum := some 1 }] }

/-- its bytes there -/
example : exStorage.wire = [0x08, 0xFB, 0xD4, 0x03, 0x15, 0x3B, 0x46, 0x5F, 0x5C, 0x25, 0x00, 0x00, 0x00, 0x00,
    0x82, 0x01, 0x04, 0x08, 0x01, 0x30, 0x4F, 0x8A, 0x01, 0x02, 0x08, 0x01] := by decide +kernel
/-- the hypotheses of the theorems hold for it -/
example : exStorage.Required ∧ exStorage.NoUnknown ∧ exStorage.wire.length < 65536 := by
  refine ⟨?_, ?_, by decide +kernel⟩
  · simp [StorageRecord.Required, exStorage]
  · simp [StorageRecord.NoUnknown, exStorage]
/-- an unknown field (number 5) and fields in another order are accepted; the unknown field is kept -/
example : StorageRecord.unmarshal [0x25, 0, 0, 0, 0, 0x28, 0x07, 0x15, 1, 0, 0, 0, 0x08, 0x02] =
    some { RecordNumber := some 2, TimeStamp := some 1, StatusFlags := some 0, XXX_unrecognized := [0x28, 0x07] } := by
  decide +kernel
/-- a required field is missing -/
example : StorageRecord.unmarshal [0x25, 0, 0, 0, 0, 0x15, 1, 0, 0, 0] = none := by decide +kernel

end Egts
