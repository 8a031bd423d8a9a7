import Verif.Props.PackageDoc
import Verif.Props.DecodeAll
import Verif.Lemmas.KernelRfl
import Verif.Props.Server3
import Verif.Lemmas.Origin
set_option autoImplicit false
set_option linter.unusedSimpArgs false
/- C105, C106: texts of decoded packages. -/
namespace Egts

/-! ### EGTS+ messages -/

theorem keyed_present (m : List (Bytes × Option GoVal)) (h : ∀ kv ∈ m, (∀ c ∈ kv.1, Plain c) ∧ ∀ v, kv.2 = some v → v.Keyed) :
    (present m).Keyed := by
  unfold present
  simp only [GoVal.Keyed]
  induction m with
  | nil => trivial
  | cons kv m ih =>
    have ih := ih fun x hx => h x (by simp [hx])
    obtain ⟨h1, h2⟩ := h kv (by simp)
    obtain ⟨k, o⟩ := kv
    cases o with
    | none => simpa using ih
    | some v => exact ⟨h1, h2 v rfl, ih⟩

theorem writable_present (m : List (Bytes × Option GoVal)) :
    (present m).Writable ↔ ∀ kv ∈ m, ∀ v, kv.2 = some v → v.Writable := by
  unfold present
  simp only [GoVal.Writable]
  induction m with
  | nil => simp [GoVal.WritableM]
  | cons kv m ih =>
    obtain ⟨k, o⟩ := kv
    cases o with
    | none => simpa using ih
    | some v =>
      simp only [List.filterMap_cons, Option.map_some, GoVal.WritableM, ih, List.forall_mem_cons, Option.some.injEq, forall_eq']

theorem opt_all {α : Type} (Q : GoVal → Prop) (o : Option α) (f : α → GoVal) :
    (∀ v, o.map f = some v → Q v) ↔ ∀ a, o = some a → Q (f a) := by
  cases o <;> simp

theorem nonEmpty_all (Q : GoVal → Prop) (hQ : ∀ s, Q (.b64 s)) (s : Option Bytes) : (∀ v, nonEmpty s = some v → Q v) ↔ True := by
  unfold nonEmpty
  split <;> simp [hQ]

theorem slice_writable {α : Type} (f : α → GoVal) (l : List α) :
    (∀ v, sliceVal f l = some v → v.Writable) ↔ ∀ a ∈ l, (f a).Writable := by
  unfold sliceVal
  cases l with
  | nil => simp
  | cons a l => simp only [List.isEmpty_cons, Bool.false_eq_true, if_false, Option.some.injEq, forall_eq', GoVal.Writable, writableL_map]

theorem slice_keyed {α : Type} (f : α → GoVal) (l : List α) (h : ∀ a, (f a).Keyed) : (∀ v, sliceVal f l = some v → v.Keyed) ↔ True := by
  refine iff_true_intro ?_
  unfold sliceVal
  intro v hv
  split at hv
  · cases hv
  · cases hv
    exact keyedL_map f l fun a _ => h a

section
macro "keyed_leaf" : tactic => `(tactic| (
  apply keyed_present
  simp only [List.forall_mem_cons, List.not_mem_nil, false_implies, implies_true, and_true, opt_all,
    nonEmpty_all GoVal.Keyed (fun _ => trivial), GoVal.Keyed]
  decide +kernel))
theorem keyed_SensAccelerometerData (m : SensAccelerometerData) : m.goVal.Keyed := by unfold SensAccelerometerData.goVal; keyed_leaf
theorem keyed_SensAinAinValue (m : SensAinAinValue) : m.goVal.Keyed := by unfold SensAinAinValue.goVal; keyed_leaf
theorem keyed_SensBufferData (m : SensBufferData) : m.goVal.Keyed := by unfold SensBufferData.goVal; keyed_leaf
theorem keyed_SensButtonPressCounter (m : SensButtonPressCounter) : m.goVal.Keyed := by unfold SensButtonPressCounter.goVal; keyed_leaf
theorem keyed_SensCanLogData (m : SensCanLogData) : m.goVal.Keyed := by unfold SensCanLogData.goVal; keyed_leaf
theorem keyed_SensCanLogTmpDataExt (m : SensCanLogTmpDataExt) : m.goVal.Keyed := by unfold SensCanLogTmpDataExt.goVal; keyed_leaf
theorem keyed_SensCounterCount (m : SensCounterCount) : m.goVal.Keyed := by unfold SensCounterCount.goVal; keyed_leaf
theorem keyed_SensCrashData (m : SensCrashData) : m.goVal.Keyed := by unfold SensCrashData.goVal; keyed_leaf
theorem keyed_SensDinsFlags (m : SensDinsFlags) : m.goVal.Keyed := by unfold SensDinsFlags.goVal; keyed_leaf
theorem keyed_SensDoutsFlags (m : SensDoutsFlags) : m.goVal.Keyed := by unfold SensDoutsFlags.goVal; keyed_leaf
theorem keyed_SensFmeterFrequency (m : SensFmeterFrequency) : m.goVal.Keyed := by unfold SensFmeterFrequency.goVal; keyed_leaf
theorem keyed_SensFuelLevel (m : SensFuelLevel) : m.goVal.Keyed := by unfold SensFuelLevel.goVal; keyed_leaf
theorem keyed_SensGsmCellMonotoringCellMonitoring (m : SensGsmCellMonotoringCellMonitoring) : m.goVal.Keyed := by unfold SensGsmCellMonotoringCellMonitoring.goVal; keyed_leaf
theorem keyed_SensNdNavData (m : SensNdNavData) : m.goVal.Keyed := by unfold SensNdNavData.goVal; keyed_leaf
theorem keyed_SensStorInfo (m : SensStorInfo) : m.goVal.Keyed := by unfold SensStorInfo.goVal; keyed_leaf
theorem keyed_SensTermoData (m : SensTermoData) : m.goVal.Keyed := by unfold SensTermoData.goVal; keyed_leaf
theorem keyed_SensTestEraTests (m : SensTestEraTests) : m.goVal.Keyed := by unfold SensTestEraTests.goVal; keyed_leaf
theorem keyed_SensTrackerInfo (m : SensTrackerInfo) : m.goVal.Keyed := by unfold SensTrackerInfo.goVal; keyed_leaf
end

/-- the names in EGTS+ messages need no escaping -/
theorem storage_keyed (m : StorageRecord) : m.goVal.Keyed := by
  unfold StorageRecord.goVal
  apply keyed_present
  simp only [List.forall_mem_cons, List.not_mem_nil, false_implies, implies_true, and_true, true_and, opt_all, GoVal.Keyed,
    slice_keyed (fun (v : Int32) => GoVal.int v.toInt) m.RecordReason (fun _ => trivial),
    slice_keyed SensAccelerometerData.goVal m.SensAccelerometerData keyed_SensAccelerometerData,
    slice_keyed SensAinAinValue.goVal m.SensAinAinValue keyed_SensAinAinValue,
    slice_keyed SensBufferData.goVal m.SensBufferData keyed_SensBufferData,
    slice_keyed SensButtonPressCounter.goVal m.SensButtonPressCounter keyed_SensButtonPressCounter,
    slice_keyed SensCanLogData.goVal m.SensCanLogData keyed_SensCanLogData,
    slice_keyed SensCanLogTmpDataExt.goVal m.SensCanLogTmpDataExt keyed_SensCanLogTmpDataExt,
    slice_keyed SensCounterCount.goVal m.SensCounterCount keyed_SensCounterCount,
    slice_keyed SensCrashData.goVal m.SensCrashData keyed_SensCrashData,
    slice_keyed SensDinsFlags.goVal m.SensDinsFlags keyed_SensDinsFlags,
    slice_keyed SensDoutsFlags.goVal m.SensDoutsFlags keyed_SensDoutsFlags,
    slice_keyed SensFmeterFrequency.goVal m.SensFmeterFrequency keyed_SensFmeterFrequency,
    slice_keyed SensFuelLevel.goVal m.SensFuelLevel keyed_SensFuelLevel,
    slice_keyed SensGsmCellMonotoringCellMonitoring.goVal m.SensGsmCellMonotoringCellMonitoring keyed_SensGsmCellMonotoringCellMonitoring,
    slice_keyed SensNdNavData.goVal m.SensNdNavData keyed_SensNdNavData,
    slice_keyed SensStorInfo.goVal m.SensStorInfo keyed_SensStorInfo,
    slice_keyed SensTermoData.goVal m.SensTermoData keyed_SensTermoData,
    slice_keyed SensTestEraTests.goVal m.SensTestEraTests keyed_SensTestEraTests,
    slice_keyed SensTrackerInfo.goVal m.SensTrackerInfo keyed_SensTrackerInfo]
  decide +kernel

macro "writable_leaf" : tactic => `(tactic| (
  simp only [writable_present, List.forall_mem_cons, List.not_mem_nil, false_implies, implies_true, and_true, opt_all,
    nonEmpty_all GoVal.Writable (fun _ => trivial), GoVal.Writable]))
theorem writable_SensAccelerometerData (m : SensAccelerometerData) : m.goVal.Writable ↔ True := by unfold SensAccelerometerData.goVal; writable_leaf
theorem writable_SensAinAinValue (m : SensAinAinValue) : m.goVal.Writable ↔ True := by unfold SensAinAinValue.goVal; writable_leaf
theorem writable_SensBufferData (m : SensBufferData) : m.goVal.Writable ↔ True := by unfold SensBufferData.goVal; writable_leaf
theorem writable_SensButtonPressCounter (m : SensButtonPressCounter) : m.goVal.Writable ↔ True := by unfold SensButtonPressCounter.goVal; writable_leaf
theorem writable_SensCanLogData (m : SensCanLogData) : m.goVal.Writable ↔ True := by unfold SensCanLogData.goVal; writable_leaf
theorem writable_SensCanLogTmpDataExt (m : SensCanLogTmpDataExt) : m.goVal.Writable ↔ True := by unfold SensCanLogTmpDataExt.goVal; writable_leaf
theorem writable_SensCounterCount (m : SensCounterCount) : m.goVal.Writable ↔ True := by unfold SensCounterCount.goVal; writable_leaf
theorem writable_SensCrashData (m : SensCrashData) : m.goVal.Writable ↔ True := by unfold SensCrashData.goVal; writable_leaf
theorem writable_SensDinsFlags (m : SensDinsFlags) : m.goVal.Writable ↔ True := by unfold SensDinsFlags.goVal; writable_leaf
theorem writable_SensDoutsFlags (m : SensDoutsFlags) : m.goVal.Writable ↔ True := by unfold SensDoutsFlags.goVal; writable_leaf
theorem writable_SensFmeterFrequency (m : SensFmeterFrequency) : m.goVal.Writable ↔ True := by unfold SensFmeterFrequency.goVal; writable_leaf
theorem writable_SensFuelLevel (m : SensFuelLevel) : m.goVal.Writable ↔ ∀ b, m.Value = some b → f32Finite b = true := by unfold SensFuelLevel.goVal; writable_leaf; simp
theorem writable_SensGsmCellMonotoringCellMonitoring (m : SensGsmCellMonotoringCellMonitoring) : m.goVal.Writable ↔ True := by unfold SensGsmCellMonotoringCellMonitoring.goVal; writable_leaf
theorem writable_SensNdNavData (m : SensNdNavData) : m.goVal.Writable ↔ True := by unfold SensNdNavData.goVal; writable_leaf
theorem writable_SensStorInfo (m : SensStorInfo) : m.goVal.Writable ↔ True := by unfold SensStorInfo.goVal; writable_leaf
theorem writable_SensTermoData (m : SensTermoData) : m.goVal.Writable ↔ True := by unfold SensTermoData.goVal; writable_leaf
theorem writable_SensTestEraTests (m : SensTestEraTests) : m.goVal.Writable ↔ True := by unfold SensTestEraTests.goVal; writable_leaf
theorem writable_SensTrackerInfo (m : SensTrackerInfo) : m.goVal.Writable ↔ True := by unfold SensTrackerInfo.goVal; writable_leaf

/-- an EGTS+ message can be written if and only if its fuel levels are finite numbers -/
theorem storage_writable (m : StorageRecord) : m.goVal.Writable ↔ ∀ q ∈ m.SensFuelLevel, ∀ b, q.Value = some b → f32Finite b = true := by
  unfold StorageRecord.goVal
  simp only [writable_present, List.forall_mem_cons, List.not_mem_nil, false_implies, implies_true, and_true, true_and, opt_all, slice_writable,
    GoVal.Writable, writable_SensAccelerometerData, writable_SensAinAinValue, writable_SensBufferData, writable_SensButtonPressCounter,
    writable_SensCanLogData, writable_SensCanLogTmpDataExt, writable_SensCounterCount, writable_SensCrashData,
    writable_SensDinsFlags, writable_SensDoutsFlags, writable_SensFmeterFrequency, writable_SensFuelLevel,
    writable_SensGsmCellMonotoringCellMonitoring, writable_SensNdNavData, writable_SensStorInfo, writable_SensTermoData,
    writable_SensTestEraTests, writable_SensTrackerInfo]

section
variable [P : Platform]

/-- C106 (partial): every package that `Decode` accepts has a text, if the EGTS+ messages in it can be written; in particular if there
are none. -/
theorem decoded_text_partial (c spare : Bytes) (q : Package) (h : Package.decode {} c spare = .ret 0 none q) (F : PkgFmt) (V : PkgVals)
    (hs : ∀ b, q.ServicesFrameData = some b → ∀ r ∈ b.records, ∀ rd ∈ r.RecordDataSet, ∀ m, rd.SubrecordData = some (.storage m) →
      (V.pb m).Writable) : ∃ t, q.toBytes F V = some t := by
  rw [package_text_iff]
  intro b hb r hr rd hrd x hx
  obtain ⟨-, -, hbody, -⟩ := (decode_accept_iff {} c spare b).mp ⟨q, h, hb⟩
  have hds : ∃ b' l, ServiceDataSet.decode [] b' = .ok l ∧ r ∈ l := by
    match b, hbody, hr with
    | .appdata l, hbody, hr => exact ⟨_, l, (body_decode_iff _ l).mpr hbody.2, hr⟩
    | .response e, ⟨_, b', _, hx⟩, hr =>
      rcases hx with ⟨-, h0⟩ | ⟨-, l, hl, hrec⟩
      · simp [Body.records, h0] at hr
      · simp only [Body.records, hl, Option.getD_some] at hr
        exact ⟨b', l, (body_decode_iff _ l).mpr hrec, hr⟩
  obtain ⟨b', l, hd, hrl⟩ := hds
  obtain ⟨content, d, -, h1, h2⟩ := sds_origin hd r hrl rd hrd
  rw [hx] at h1
  cases h1
  cases x with
  | storage m => exact hs b hb r hr rd hrd m hx
  | pos e =>
    show YearOk e.NavigationTime
    have hn := navtime_decoded content e (decodeSub_pos h2)
    have := wireNat_lt content 0 4
    unfold YearOk
    rw [hn]
    have : Frame.ntm content < 4294967296 := this
    omega
  | _ => trivial

/-- ... in particular if there are no EGTS+ messages in it -/
theorem decoded_text_plain_partial (c spare : Bytes) (q : Package) (h : Package.decode {} c spare = .ret 0 none q) (hn : q.NoStorage)
    (F : PkgFmt) (V : PkgVals) : ∃ t, q.toBytes F V = some t :=
  decoded_text_partial c spare q h F V fun b hb r hr rd hrd _ hx => (hn b hb r hr rd hrd _ hx).elim

/-! ### a package for which two texts are the same -/

/-- a package with an authentication subrecord whose user name is the byte `x` -/
def exText (x : UInt8) : Package :=
  { PacketType := 1, ServicesFrameData := some (.appdata [{ RecordDataSet := [{ SubrecordType := 7, SubrecordData := some (.auth { UserName := [x] }) }] }]) }

/-- C105 as stated fails: two different packages have the same text (bytes that are not UTF-8 are replaced). -/
theorem package_text_not_lossless (F : PkgFmt) (V : PkgVals) : (exText 0xFF).toBytes F V = (exText 0xFE).toBytes F V ∧ exText 0xFF ≠ exText 0xFE := by
  constructor
  · have e : quoteText F.toJsonFmt [0xFF] = quoteText F.toJsonFmt [0xFE] := by
      unfold quoteText
      have : ∀ bf, escText bf [0xFF] = escText bf [0xFE] := by
        intro bf
        rw [escText, if_neg (by decide), if_pos (by decide), escText.eq_def bf [0xFE]]
        simp only
        rw [if_neg (by decide), if_pos (by decide)]
      rw [this]
    have hr : ∀ x : UInt8, (exText x).toBytes F V = GoVal.text F ((exText x).goVal V) := fun _ => rfl
    have hv : ∀ x, ((exText x).goVal V) = ((exText x).goVal { V with nilRD := fun _ => false }) := by
      intro x
      simp [exText, Package.goVal, bodyVal, sdsVal, ServiceDataRecord.goVal, rdVal]
    rw [hr, hr, hv, hv]
    simp only [exText, Package.goVal, bodyVal, sdsVal, ServiceDataRecord.goVal, rdVal, List.map_cons, List.map_nil, RecordData.goVal, subVal,
      SrAuthInfo.goVal, List.isEmpty_cons, Bool.false_eq_true, false_and, and_self, if_false, GoVal.text, GoVal.texts, GoVal.members, e]
  · intro h
    simp [exText] at h

end

/-! ### a packet whose contents have no text -/

section
variable (f2u32OutOfRange : F64 → UInt32)

/-- a packet with an EGTS+ message whose fuel level is NaN -/
def exNaN : Bytes := [1, 0, 0, 11, 0, 29, 0, 5, 0, 1, 196, 22, 0, 1, 0, 0, 2, 2, 15, 19, 0, 8, 1, 21, 1, 0, 0, 0, 37, 0, 0, 0, 0, 66, 5, 21, 0, 0, 192, 127, 155, 173]

/-- C106 as stated fails: `Decode` accepts a packet, `ToBytes` returns an error for the package. -/
theorem decoded_text_fails : letI : Platform := protobufPlatform f2u32OutOfRange
    ∃ q, Package.decode {} exNaN [] = .ret 0 none q ∧
      ∀ (F : PkgFmt) (nilRD : ServiceDataRecord → Bool), q.toBytes F ⟨StorageRecord.goVal, nilRD⟩ = none := by
  let : Platform := protobufPlatform f2u32OutOfRange
  refine ⟨{ ProtocolVersion := 1, Prefix := asc "00", Route := asc "0", EncryptionAlg := asc "00", Compression := asc "0", Priority := asc "00", HeaderLength := 11, FrameDataLength := 29, PacketIdentifier := 5, PacketType := 1, HeaderCheckSum := 196, ServicesFrameDataCheckSum := 44443, ServicesFrameData := some (.appdata [{
      RecordLength := 22, RecordNumber := 1, SourceServiceOnDevice := asc "0", RecipientServiceOnDevice := asc "0", Group := asc "0", RecordProcessingPriority := asc "00", TimeFieldExists := asc "0", EventIDFieldExists := asc "0", ObjectIDFieldExists := asc "0", SourceServiceType := 2, RecipientServiceType := 2, RecordDataSet := [{
        SubrecordType := 15, SubrecordLength := 19, SubrecordData := some (.storage ({ RecordNumber := some 1, TimeStamp := some 1, StatusFlags := some 0, SensFuelLevel := [{ Value := some 0x7FC00000 }] } : StorageRecord)) }] }]) }, ?_, ?_⟩
  · kernel_rfl
  · intro F nilRD
    rw [Option.eq_none_iff_forall_not_mem]
    intro t ht
    have := (package_text_iff F ⟨StorageRecord.goVal, nilRD⟩ _).mp ⟨t, ht⟩ _ rfl _ List.mem_cons_self _ List.mem_cons_self _ rfl
    have hw := (storage_writable _).mp this _ List.mem_cons_self _ rfl
    exact absurd hw (by decide)

end

/-! ### tests -/

/-- a formatting of floats (integral parts only) -/
def exPkgFmt : PkgFmt where
  float x := intText (ratTrunc x)
  shortBF := true
  float32 b := intText b.toNat
def exDocFmt : DocFmt where
  num x := ratTrunc x
  num32 b := b.toNat
  time ns := (timeText ns).getD []
  bin := base64

/-- the assumptions about formatting can be met -/
theorem exFmtOk : FmtOk exPkgFmt exDocFmt where
  float x := getNumber_int _
  float32 b _ := by have := getNumber_int b.toNat; rwa [Int.cast_natCast] at this
  time ns t h := by simp [exDocFmt, h]
  bin _ := rfl

/-- the zero time, the start of 2010, and an instant with a fraction -/
example : timeText (-63397900800000000000) = some (asc "0001-01-01T00:00:00Z") ∧ timeText 0 = some (asc "2010-01-01T00:00:00Z") ∧
    timeText 1500000000 = some (asc "2010-01-01T00:00:01.5Z") ∧ timeText (-63429523200000000000) = some (asc "0000-01-01T00:00:00Z") ∧
    timeText 252139996800000000000 = none := by decide +kernel
/-- RFC 4648, section 10 -/
example : base64 (asc "foobar") = asc "Zm9vYmFy" ∧ base64 (asc "fooba") = asc "Zm9vYmE=" ∧ base64 (asc "foob") = asc "Zm9vYg==" := by decide +kernel
/-- an answer -/
example [P : Platform] (V : PkgVals) : (PtResponse.goVal V { ResponsePacketID := 7, ProcessingResult := 0 }).text exPkgFmt =
    some (asc "{\"RPID\":7,\"PR\":0,\"SDR\":null}") := by
  show (GoVal.obj [(asc "RPID", .int 7), (asc "PR", .int 0), (asc "SDR", .nul)]).text exPkgFmt = _
  kernel_rfl
/-- a message -/
example : ({ RecordNumber := some 1, SensFuelLevel := [{ Value := some 5 }] } : StorageRecord).goVal.text exPkgFmt =
    some (asc "{\"record_number\":1,\"sens_fuel_level\":[{\"value\":5}]}") := by decide +kernel

/-- the hypotheses of `package_text_lossless_partial` hold for a package with a position -/
example [P : Platform] (V : PkgVals) :
    let p : Package := { PacketType := 1, ServicesFrameData := some (.appdata [{ RecordDataSet := [{ SubrecordData := some (.pos { NavigationTime := 5000000000, Latitude := 55, Longitude := -37, ALTE := asc "1" }) }] }]) }
    p.NoStorage ∧ (p.goVal V).Readable exDocFmt ∧ ∃ t, p.toBytes exPkgFmt V = some t := by
  have hv : ∀ s : Bytes, (∀ c ∈ s, c.toNat < 128) → ValidUtf8 s := ascii_valid
  refine ⟨?_, ?_, ?_⟩
  · intro b hb
    cases hb
    intro r hr rd hrd d hd
    rw [List.mem_singleton.mp hr] at hrd
    rw [List.mem_singleton.mp hrd] at hd
    cases hd
    trivial
  · have h0 : ValidUtf8 [] := hv [] (by simp)
    have h1 : ValidUtf8 (asc "1") := hv _ (by decide)
    simp only [Package.goVal, bodyVal, sdsVal, ServiceDataRecord.goVal, rdVal, List.map_cons, List.map_nil, RecordData.goVal, subVal,
      SrPosData.goVal, List.isEmpty_cons, Bool.false_eq_true, false_and, if_false, GoVal.Readable, GoVal.ReadableL, GoVal.ReadableM, h0, h1,
      and_true, true_and]
    exact ⟨by decide +kernel, by decide +kernel⟩
  · rw [package_text_iff]
    intro b hb
    cases hb
    intro r hr rd hrd d hd
    rw [List.mem_singleton.mp hr] at hrd
    rw [List.mem_singleton.mp hrd] at hd
    cases hd
    show YearOk 5000000000
    unfold YearOk
    omega

end Egts
