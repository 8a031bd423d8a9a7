import Verif.Lemmas.Reply
import Verif.Spec.Server
import Verif.Lemmas.Float
set_option autoImplicit false
/- What the record and subrecord loops of the server compute. -/
namespace Egts
open Frame
variable [P : Platform]

/-- the body of a result code packet -/
theorem result_body (code : UInt8) :
    RecordDataSet.encode ([⟨9, 1, some (.result { ResultCode := code })⟩] : List RecordData) = .ok [9, 1, 0, code] := by
  have h : RecordData.encode ⟨9, 1, some (.result { ResultCode := code })⟩ = .ok ([9] ++ le16 1 ++ [code]) :=
    rd_encode_eq _ _ 9 1 _ rfl rfl rfl rfl
  simp only [RecordDataSet.encode, encodeAll, h, Go.ok_bind, Go.pure_def]
  rfl

/-- the bytes of a result code packet -/
def resultPacket (pid : UInt16) (code : UInt8) : Bytes :=
  let h : Bytes := [1, 0, 0, 11, 0, 11, 0] ++ le16 (pid + 1) ++ [0]
  let b : Bytes := [4, 0, 1, 0, 32, 1, 1, 9, 1, 0, code]
  h ++ [crc8 h] ++ (b ++ le16 (crc16 b))

/-- the record section of a result code packet -/
def resultSds (code : UInt8) : ServiceDataSet := [replyRecord 4 1 [⟨9, 1, some (.result { ResultCode := code })⟩]]

theorem resultSds_encode (code : UInt8) : ServiceDataSet.encode (resultSds code) = .ok [4, 0, 1, 0, 32, 1, 1, 9, 1, 0, code] := by
  simp only [resultSds, ServiceDataSet.encode, encodeAll,
    replyRecord_encode _ _ _ _ (result_body code) (show (4 : UInt16) ≠ 0 by decide), Go.ok_bind, Go.pure_def]
  rfl

theorem reply_hdr (pid : UInt16) (code : UInt8) (body : Body) :
    hdrOf (replyPackage 11 pid body) 0 11 (len16 [4, 0, 1, 0, 32, 1, 1, 9, 1, 0, code]) =
      [1, 0, 0, 11, 0, 11, 0] ++ le16 (pid + 1) ++ [0] := by
  have hr : ((replyPackage 11 pid body).Route == [49]) = false := by kernel_rfl
  unfold hdrOf
  rw [hr]
  have hl : le16 (len16 [4, 0, 1, 0, 32, 1, 1, 9, 1, 0, code]) = [11, 0] := by
    have : len16 [4, 0, 1, 0, 32, 1, 1, 9, 1, 0, code] = 11 := by simp [len16]
    rw [this]; decide
  rw [hl]
  simp [replyPackage]

theorem reply_flags (fdl pid : UInt16) (body : Body) :
    parseFlags ((replyPackage fdl pid body).Prefix ++ (replyPackage fdl pid body).Route ++
      (replyPackage fdl pid body).EncryptionAlg ++ (replyPackage fdl pid body).Compression ++
      (replyPackage fdl pid body).Priority) = .ok 0 := by kernel_rfl

theorem result_encode (pid : UInt16) (code : UInt8) :
    ∃ q, (replyPackage 11 pid (.appdata (resultSds code))).encode = .ok (resultPacket pid code, q) := by
  obtain ⟨hl, hhl, he⟩ := encode_eq (replyPackage 11 pid (.appdata (resultSds code))) 0 _ (reply_flags _ _ _)
    (resultSds_encode code)
  have hhl' : hl = 11 := hhl
  subst hhl'
  rw [if_pos (by exact len16_pos _ (by simp) (by simp)), reply_hdr] at he
  exact ⟨_, he⟩

theorem result_rl (code : UInt8) :
    RecordDataSet.length16 ([⟨9, 1, some (.result { ResultCode := code })⟩] : List RecordData) = .ok 4 := by
  unfold RecordDataSet.length16; rw [result_body]; rfl

theorem result_fdl (code : UInt8) : ServiceDataSet.length16 (resultSds code) = .ok 11 := by
  unfold ServiceDataSet.length16; rw [resultSds_encode]; rfl

theorem go_bind_eq {α β : Type} {m : Go α} {a : α} {f : α → Go β} {b : Go β} (h : m = .ok a) (k : f a = b) : (m >>= f) = b := by
  rw [h]; exact k

theorem createSrResultCode_eq (pid : UInt16) (code : UInt8) : createSrResultCode pid code = .ok (resultPacket pid code) := by
  obtain ⟨q, he⟩ := result_encode pid code
  generalize resultPacket pid code = out at he ⊢
  unfold createSrResultCode
  refine go_bind_eq (result_rl code) ?_
  refine go_bind_eq (result_fdl code) ?_
  refine go_bind_eq he ?_
  rfl

omit P in
theorem resultPacket_ne (pid : UInt16) (code : UInt8) : (resultPacket pid code).length > 0 := by
  simp [resultPacket]

/-- how a subrecord changes the record number bytes and the exported packet id -/
def counterStep (st : Bytes × UInt32) (d : SubData) : Bytes × UInt32 :=
  match d.absCntr? with
  | some c =>
    if c.CounterNumber = 110 then (be32 c.CounterValue, c.CounterValue)
    else if c.CounterNumber = 111 then
      let b := if st.1.length = 4 then st.1.set 3 ((be32 c.CounterValue).getD 3 0) else be32 c.CounterValue
      (b, u32 b)
    else st
  | none => st

/-- state of the scan after the subrecords `ds` -/
def ScanSt.after (pid : UInt16) (s : ScanSt) (ds : List SubData) : ScanSt :=
  { vars := { s.vars with
      isPkgSave := s.vars.isPkgSave || !(positions ds).isEmpty
      srResultCodePkg := if ds.any (·.isLogin) then resultPacket pid 0 else s.vars.srResultCodePkg }
    exp := { s.exp with
      IMEI := ((ds.filterMap (·.term?)).getLast?.map (·.IMEI)).getD s.exp.IMEI
      PacketID := (ds.foldl counterStep (s.packetIDBytes, s.exp.PacketID)).2
      NavigationTimestamp := ((positions ds).getLast?.map fun d => unixOf d.NavigationTime).getD s.exp.NavigationTimestamp
      AnSensors := s.exp.AnSensors ++ ds.flatMap (·.readings)
      LiquidSensors := s.exp.LiquidSensors ++ (ds.filterMap (·.liquid?)).map liquidOf
      LocStates := s.exp.LocStates ++ (positions ds).map locOf
      LocStatesCount := s.exp.LocStatesCount + Int32.ofNat (positions ds).length }
    packetIDBytes := (ds.foldl counterStep (s.packetIDBytes, s.exp.PacketID)).1 }

omit P in
theorem getLast_cons {α β : Type} (x : α) (l : List α) (f : α → β) (z : β) :
    ((x :: l).getLast?.map f).getD z = (l.getLast?.map f).getD (f x) := by
  cases l with
  | nil => rfl
  | cons y l => rw [List.getLast?_cons_cons]; cases h : (y :: l).getLast? <;> simp_all

theorem after_nil (pid : UInt16) (s : ScanSt) : s.after pid [] = s := by
  obtain ⟨v, e, b⟩ := s
  simp [ScanSt.after, positions]

omit P in
theorem int32_succ (n : Nat) : Int32.ofNat (n + 1) = 1 + Int32.ofNat n := by
  rw [Nat.add_comm, Int32.ofNat_add]; rfl

omit P in
theorem anIf_eq (f : Bytes) (n : UInt8) (v : UInt32) (l : List AnSensor) :
    anIf f n v l = l ++ ([(n, f, v)].filterMap fun (n, f, v) => if f = [49] then some (⟨n, v⟩ : AnSensor) else none) := by
  unfold anIf
  by_cases h : f = [49] <;> simp [h]

omit P in
theorem anIf_all (d : SrAdSensorsData) (l : List AnSensor) :
    (anIf d.ASFE8 8 d.ANS8 <| anIf d.ASFE7 7 d.ANS7 <| anIf d.ASFE6 6 d.ANS6 <|
          anIf d.ASFE5 5 d.ANS5 <| anIf d.ASFE4 4 d.ANS4 <| anIf d.ASFE3 3 d.ANS3 <|
          anIf d.ASFE2 2 d.ANS2 <| anIf d.ASFE1 1 d.ANS1 l) = l ++
      [(1, d.ASFE1, d.ANS1), (2, d.ASFE2, d.ANS2), (3, d.ASFE3, d.ANS3), (4, d.ASFE4, d.ANS4), (5, d.ASFE5, d.ANS5),
      (6, d.ASFE6, d.ANS6), (7, d.ASFE7, d.ANS7), (8, d.ASFE8, d.ANS8)].filterMap fun (n, f, v) =>
        if f = [49] then some (⟨n, v⟩ : AnSensor) else none := by
  simp only [anIf_eq, List.append_assoc, ← List.filterMap_append]
  rfl

omit P in
theorem liquid_eq (d : SrLiquidLevelSensor) :
    (let sensor : LiquidSensor := {
      SensorNumber := d.LiquidLevelSensorNumber
      ModuleNumber := d.ModuleAddress
      ErrorFlag := d.LiquidLevelSensorErrorFlag
      ValueUnit := d.LiquidLevelSensorValueUnit }
    if d.LiquidLevelSensorValueUnit = [48, 48] ∨ d.LiquidLevelSensorValueUnit = [48, 49] then
        { sensor with ValueMm := d.LiquidLevelSensorData }
      else if d.LiquidLevelSensorValueUnit = [49, 48] then
        { sensor with ValueL := fdiv (f64OfInt d.LiquidLevelSensorData.toNat) 10 }
      else sensor) = liquidOf d := by
  have h32 : d.LiquidLevelSensorData.toNat < 2 ^ 53 := by
    have := d.LiquidLevelSensorData.toNat_lt; omega
  unfold liquidOf
  rw [f64OfInt_nat h32]
  simp only [List.mem_cons, List.not_mem_nil, or_false, fdiv]
  by_cases h1 : d.LiquidLevelSensorValueUnit = [48, 48] ∨ d.LiquidLevelSensorValueUnit = [48, 49]
  · have h2 : d.LiquidLevelSensorValueUnit ≠ [49, 48] := by rcases h1 with h | h <;> rw [h] <;> decide
    simp only [h1, h2, if_true, if_false]
  · by_cases h2 : d.LiquidLevelSensorValueUnit = [49, 48]
    · simp only [h1, h2, if_true, if_false]; simp
    · simp only [h1, h2, if_false]

theorem foldl_counter_cons (d : SubData) (ds : List SubData) (st : Bytes × UInt32) :
    (d :: ds).foldl counterStep st = ds.foldl counterStep (counterStep st d) := rfl

/-- one subrecord that is not a record response -/
theorem subStep_eq (pid : UInt16) (s : ScanSt) (rd : RecordData) (d : SubData) (hd : rd.SubrecordData = some d)
    (hr : d.isResponse = false) : subStep pid s rd = .next (s.after pid [d]) := by
  obtain ⟨v, e, b⟩ := s
  unfold subStep
  rw [hd]
  cases d with
  | response d => simp [SubData.isResponse] at hr
  | auth d =>
    simp [createSrResultCode_eq, bytesOrNil, ScanSt.after, positions, SubData.isLogin, SubData.pos?, SubData.term?, SubData.liquid?,
      SubData.readings, counterStep, SubData.absCntr?]
  | term d =>
    simp [createSrResultCode_eq, bytesOrNil, ScanSt.after, positions, SubData.isLogin, SubData.pos?, SubData.term?, SubData.liquid?,
      SubData.readings, counterStep, SubData.absCntr?]
  | pos d =>
    simp [ScanSt.after, positions, SubData.isLogin, SubData.pos?, SubData.term?, SubData.liquid?,
      SubData.readings, counterStep, SubData.absCntr?, locOf]
  | liquid d =>
    have := liquid_eq d
    simp only at this
    simp only [this]
    simp [ScanSt.after, positions, SubData.isLogin, SubData.pos?, SubData.term?, SubData.liquid?,
      SubData.readings, counterStep, SubData.absCntr?]
  | ad d =>
    have := anIf_all d e.AnSensors
    simp only [this]
    simp [ScanSt.after, positions, SubData.isLogin, SubData.pos?, SubData.term?, SubData.liquid?,
      SubData.readings, counterStep, SubData.absCntr?]
  | absCntr d =>
    by_cases h1 : d.CounterNumber = 110
    · simp [h1, ScanSt.after, positions, SubData.isLogin, SubData.pos?, SubData.term?, SubData.liquid?,
        SubData.readings, counterStep, SubData.absCntr?]
    · by_cases h2 : d.CounterNumber = 111
      · simp [h2, ScanSt.after, positions, SubData.isLogin, SubData.pos?, SubData.term?, SubData.liquid?,
          SubData.readings, counterStep, SubData.absCntr?]
      · simp [h1, h2, ScanSt.after, positions, SubData.isLogin, SubData.pos?, SubData.term?, SubData.liquid?,
          SubData.readings, counterStep, SubData.absCntr?]
  | _ =>
    simp [ScanSt.after, positions, SubData.isLogin, SubData.pos?, SubData.term?, SubData.liquid?,
      SubData.readings, counterStep, SubData.absCntr?]

omit P in
theorem getLast_append {α β : Type} (l l' : List α) (f : α → β) (z : β) :
    ((l ++ l').getLast?.map f).getD z = (l'.getLast?.map f).getD ((l.getLast?.map f).getD z) := by
  cases h : l'.getLast? with
  | none =>
    have : l' = [] := List.getLast?_eq_none_iff.mp h
    subst this; simp
  | some x => rw [List.getLast?_append, h]; simp

theorem positions_append (a b : List SubData) : positions (a ++ b) = positions a ++ positions b := by
  simp [positions]

theorem after_append (pid : UInt16) (s : ScanSt) (a b : List SubData) :
    (s.after pid a).after pid b = s.after pid (a ++ b) := by
  obtain ⟨v, e, pb⟩ := s
  simp only [ScanSt.after, List.foldl_append, positions_append, List.filterMap_append, List.flatMap_append, List.map_append,
    List.any_append, List.length_append, Int32.ofNat_add, getLast_append, List.append_assoc]
  congr 1
  · congr 1
    · cases hp : positions a <;> cases v.isPkgSave <;> simp
    · by_cases h1 : b.any (·.isLogin) <;> by_cases h2 : a.any (·.isLogin) <;> simp [h1, h2]
  · congr 1
    rw [Int32.add_assoc]

/-- the loop over the subrecords of a record without record responses -/
theorem subLoop_eq (pid : UInt16) (s : ScanSt) (rds : List RecordData)
    (hr : ∀ d ∈ rds.filterMap (·.SubrecordData), d.isResponse = false) :
    subLoop pid s rds = .next (s.after pid (rds.filterMap (·.SubrecordData))) := by
  induction rds generalizing s with
  | nil => simp [subLoop, after_nil]
  | cons rd rds ih =>
    unfold subLoop
    cases hd : rd.SubrecordData with
    | none =>
      have : subStep pid s rd = .next s := by unfold subStep; rw [hd]
      rw [this]
      simp only [List.filterMap_cons, hd] at hr ⊢
      exact ih s hr
    | some d =>
      simp only [List.filterMap_cons, hd, List.mem_cons] at hr
      rw [subStep_eq pid s rd d hd (hr d (.inl rfl))]
      simp only [List.filterMap_cons, hd]
      rw [ih _ fun x hx => hr x (.inr hx), after_append]
      rfl

/-- a record response anywhere makes the loop go to `Received` -/
theorem subLoop_received (pid : UInt16) (s : ScanSt) (rds : List RecordData)
    (hr : ∃ d ∈ rds.filterMap (·.SubrecordData), d.isResponse = true) :
    ∃ v, subLoop pid s rds = .received v := by
  induction rds generalizing s with
  | nil => simp at hr
  | cons rd rds ih =>
    unfold subLoop
    cases hd : rd.SubrecordData with
    | none =>
      have : subStep pid s rd = .next s := by unfold subStep; rw [hd]
      rw [this]
      simp only [List.filterMap_cons, hd] at hr
      exact ih s hr
    | some d =>
      cases hdr : d.isResponse with
      | true =>
        have : subStep pid s rd = .received s.vars := by
          unfold subStep; rw [hd]
          cases d <;> first | rfl | (simp [SubData.isResponse] at hdr)
        rw [this]; exact ⟨_, rfl⟩
      | false =>
        rw [subStep_eq pid s rd d hd hdr]
        apply ih
        obtain ⟨x, hx, hxr⟩ := hr
        simp only [List.filterMap_cons, hd, List.mem_cons] at hx
        rcases hx with rfl | hx
        · rw [hdr] at hxr; cases hxr
        · exact ⟨x, hx, hxr⟩

/-- the state before the subrecords of a record are looked at -/
def ScanSt.enter (s : ScanSt) (rec : ServiceDataRecord) : ScanSt := { s with
  packetIDBytes := zeros 4
  vars := { s.vars with
    srResponsesRecord := s.vars.srResponsesRecord ++ [confirmation rec.RecordNumber]
    serviceType := rec.SourceServiceType }
  exp := { s.exp with ClientID := rec.ObjectIdentifier } }

theorem recStep_eq (pid : UInt16) (s : ScanSt) (rec : ServiceDataRecord)
    (hr : ∀ d ∈ rec.RecordDataSet.filterMap (·.SubrecordData), d.isResponse = false) :
    recStep pid s rec = .next ((s.enter rec).after pid (rec.RecordDataSet.filterMap (·.SubrecordData))) :=
  subLoop_eq pid _ _ hr

/-- packet id after the records `l` -/
def packetIdAfter : UInt32 → List ServiceDataRecord → UInt32
  | v, [] => v
  | v, r :: rs => packetIdAfter ((r.RecordDataSet.filterMap (·.SubrecordData)).foldl counterStep (zeros 4, v)).2 rs

/-- what the scan of a whole packet computes, field by field -/
structure Scanned (pid : UInt16) (s s' : ScanSt) (l : List ServiceDataRecord) : Prop where
  responses : s'.vars.srResponsesRecord = s.vars.srResponsesRecord ++ l.map fun r => confirmation r.RecordNumber
  serviceType : s'.vars.serviceType = (l.getLast?.map (·.SourceServiceType)).getD s.vars.serviceType
  save : s'.vars.isPkgSave = (s.vars.isPkgSave || !(positions (subsOf l)).isEmpty)
  result : s'.vars.srResultCodePkg = if (subsOf l).any (·.isLogin) then resultPacket pid 0 else s.vars.srResultCodePkg
  exp : s'.exp = { s.exp with
      IMEI := (((subsOf l).filterMap (·.term?)).getLast?.map (·.IMEI)).getD s.exp.IMEI
      ClientID := (l.getLast?.map (·.ObjectIdentifier)).getD s.exp.ClientID
      PacketID := packetIdAfter s.exp.PacketID l
      NavigationTimestamp :=
        ((positions (subsOf l)).getLast?.map fun d => unixOf d.NavigationTime).getD s.exp.NavigationTimestamp
      AnSensors := s.exp.AnSensors ++ (subsOf l).flatMap (·.readings)
      LiquidSensors := s.exp.LiquidSensors ++ ((subsOf l).filterMap (·.liquid?)).map liquidOf
      LocStates := s.exp.LocStates ++ (positions (subsOf l)).map locOf
      LocStatesCount := s.exp.LocStatesCount + Int32.ofNat (positions (subsOf l)).length }

theorem subsOf_cons (r : ServiceDataRecord) (l : List ServiceDataRecord) :
    subsOf (r :: l) = r.RecordDataSet.filterMap (·.SubrecordData) ++ subsOf l := rfl

theorem recLoop_eq (pid : UInt16) (s : ScanSt) (l : List ServiceDataRecord) (hr : NoResponses l) :
    ∃ s', recLoop pid s l = .next s' ∧ Scanned pid s s' l := by
  induction l generalizing s with
  | nil =>
    refine ⟨s, rfl, ?_⟩
    constructor <;> simp [subsOf, positions, packetIdAfter]
  | cons r l ih =>
    have h1 : ∀ d ∈ r.RecordDataSet.filterMap (·.SubrecordData), d.isResponse = false := fun d hd =>
      hr d (by rw [subsOf_cons]; exact List.mem_append_left _ hd)
    have h2 : NoResponses l := fun d hd => hr d (by rw [subsOf_cons]; exact List.mem_append_right _ hd)
    unfold recLoop
    rw [recStep_eq pid s r h1]
    obtain ⟨s', hs', hsc⟩ := ih ((s.enter r).after pid (r.RecordDataSet.filterMap (·.SubrecordData))) h2
    refine ⟨s', hs', ?_⟩
    constructor
    · rw [hsc.responses]; simp [ScanSt.after, ScanSt.enter]
    · rw [hsc.serviceType, getLast_cons]; rfl
    · rw [hsc.save, subsOf_cons, positions_append]
      simp only [ScanSt.after, ScanSt.enter]
      cases positions (r.RecordDataSet.filterMap (·.SubrecordData)) <;> cases s.vars.isPkgSave <;> simp
    · rw [hsc.result, subsOf_cons, List.any_append]
      simp only [ScanSt.after, ScanSt.enter]
      by_cases a : (r.RecordDataSet.filterMap (·.SubrecordData)).any (·.isLogin) <;>
        by_cases b : (subsOf l).any (·.isLogin) <;> simp only [a, b, Bool.or_true, Bool.or_false, if_true] <;> simp
    · rw [hsc.exp, subsOf_cons, positions_append, List.filterMap_append, List.flatMap_append, List.filterMap_append,
        List.map_append, List.map_append, List.length_append, Int32.ofNat_add, getLast_append, getLast_append, getLast_cons]
      simp only [ScanSt.after, ScanSt.enter, packetIdAfter, List.append_assoc]
      congr 1
      rw [Int32.add_assoc]

theorem recLoop_received (pid : UInt16) (s : ScanSt) (l : List ServiceDataRecord) (hr : ¬ NoResponses l) :
    ∃ v, recLoop pid s l = .received v := by
  induction l generalizing s with
  | nil => exact absurd (fun d hd => by simp [subsOf] at hd) hr
  | cons r l ih =>
    unfold recLoop
    by_cases h1 : ∀ d ∈ r.RecordDataSet.filterMap (·.SubrecordData), d.isResponse = false
    · rw [recStep_eq pid s r h1]
      apply ih
      intro h2
      apply hr
      intro d hd
      rw [subsOf_cons] at hd
      rcases List.mem_append.mp hd with h | h
      · exact h1 d h
      · exact h2 d h
    · have : ∃ d ∈ r.RecordDataSet.filterMap (·.SubrecordData), d.isResponse = true := by
        by_contra hh
        apply h1
        intro d hd
        cases hd' : d.isResponse with
        | false => rfl
        | true => exact absurd ⟨d, hd, hd'⟩ hh
      obtain ⟨v, hv⟩ := subLoop_received pid (s.enter r) r.RecordDataSet this
      have : recStep pid s r = .received v := hv
      rw [this]
      exact ⟨v, rfl⟩

end Egts
