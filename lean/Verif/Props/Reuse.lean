import Verif.Lemmas.Reuse
import Verif.Lemmas.KernelRfl
import Mathlib.Data.List.TakeWhile
set_option autoImplicit false
/- C132: decoding into a value that was used before -/
namespace Egts

/-! ### everything is overwritten -/

/-- no field of old state data is left -/
theorem state_reused (e : SrStateData) (c : Bytes) : Same (SrStateData.decode e c) (SrStateData.decode {} c) := by
  refine LS.sameBut (σ := SrStateData) ?_ {} c
  refine LS.bind (fun q => { e with State := q.State }) (LS.readByteTo fun _ _ => rfl) fun _ => ?_
  refine LS.bind (fun q => { q with BackUpBatteryVoltage := e.BackUpBatteryVoltage, InternalBatteryVoltage := e.InternalBatteryVoltage, NMS := e.NMS, IBU := e.IBU, BBU := e.BBU })
    (LS.readByteTo fun _ _ => rfl) fun _ => ?_
  refine LS.bind (fun q => { q with InternalBatteryVoltage := e.InternalBatteryVoltage, NMS := e.NMS, IBU := e.IBU, BBU := e.BBU })
    (LS.readByteTo fun _ _ => rfl) fun _ => ?_
  refine LS.bind (fun q => { q with NMS := e.NMS, IBU := e.IBU, BBU := e.BBU }) (LS.readByteTo fun _ _ => rfl) fun _ => ?_
  exact LS.bind _ LS.readByte fun _ => LS.upd fun _ => rfl

/-- no field of an old liquid level is left -/
theorem liquid_reused (e : SrLiquidLevelSensor) (c : Bytes) : Same (SrLiquidLevelSensor.decode e c) (SrLiquidLevelSensor.decode {} c) := by
  refine LS.sameBut (σ := SrLiquidLevelSensor) ?_ {} c
  refine LS.bind _ LS.readByte fun fl => ?_
  refine LS.bind (fun q => { q with LiquidLevelSensorNumber := e.LiquidLevelSensorNumber, ModuleAddress := e.ModuleAddress, LiquidLevelSensorData := e.LiquidLevelSensorData })
    (LS.upd fun _ => rfl) fun _ => ?_
  refine LS.bind (fun q => { q with LiquidLevelSensorNumber := e.LiquidLevelSensorNumber, ModuleAddress := e.ModuleAddress, LiquidLevelSensorData := e.LiquidLevelSensorData })
    (by split <;> first | exact LS.pure | exact LS.fail) fun _ => ?_
  refine LS.bind (fun q => { q with ModuleAddress := e.ModuleAddress, LiquidLevelSensorData := e.LiquidLevelSensorData }) (LS.upd fun _ => rfl) fun _ => ?_
  refine LS.bind _ LS.read fun _ => ?_
  refine LS.bind (fun q => { q with LiquidLevelSensorData := e.LiquidLevelSensorData }) (LS.upd fun _ => rfl) fun _ => ?_
  exact LS.bind _ LS.read fun _ => LS.upd fun _ => rfl

/-- no field of an old absolute counter is left -/
theorem abscntr_reused (e : SrAbsCntrData) (c : Bytes) : Same (SrAbsCntrData.decode e c) (SrAbsCntrData.decode {} c) := by
  refine LS.sameBut (σ := SrAbsCntrData) ?_ {} c
  refine LS.bind (fun q => { e with CounterNumber := q.CounterNumber }) (LS.readByteTo fun _ _ => rfl) fun _ => ?_
  exact LS.bind _ LS.read fun _ => LS.upd fun _ => rfl

/-- no field of an old analog sensor is left -/
theorem absan_reused (e : SrAbsAnSensData) (c : Bytes) : Same (SrAbsAnSensData.decode e c) (SrAbsAnSensData.decode {} c) := by
  unfold Same SameBut SrAbsAnSensData.decode
  by_cases h : c.length < 4
  · simp only [if_pos h]
    exact ⟨_, rfl⟩
  · simp only [if_neg h]
    rcases c with _ | ⟨_, _ | ⟨_, _ | ⟨_, _ | ⟨_, _⟩⟩⟩⟩ <;> rfl

/-- no field of an old result code is left -/
theorem resultcode_reused (e : SrResultCode) (c : Bytes) : Same (SrResultCode.decode e c) (SrResultCode.decode {} c) :=
  LS.sameBut (σ := SrResultCode) (LS.readByteTo fun _ _ => rfl) {} c

/-- no field of an old dispatcher identity is left -/
theorem dispatcher_reused (e : SrDispatcherIdentity) (c : Bytes) : Same (SrDispatcherIdentity.decode e c) (SrDispatcherIdentity.decode {} c) := by
  refine LS.sameBut (σ := SrDispatcherIdentity) ?_ {} c
  refine LS.bind (fun q => { e with DispatcherType := q.DispatcherType }) (LS.readByteTo fun _ _ => rfl) fun _ => ?_
  refine LS.bind _ LS.read fun _ => ?_
  refine LS.bind (fun q => { q with Description := e.Description }) (LS.upd fun _ => rfl) fun _ => ?_
  exact LS.bind _ LS.unread fun _ => LS.upd fun _ => rfl

/-- no field of an old record response is left -/
theorem srresponse_reused [P : Platform] (e : SrResponse) (c : Bytes) : Same (SrResponse.decode e c) (SrResponse.decode {} c) := by
  refine LS.sameBut (σ := SrResponse) ?_ {} c
  refine LS.bind _ LS.read fun _ => ?_
  refine LS.bind (fun q => { e with ConfirmedRecordNumber := q.ConfirmedRecordNumber }) (LS.upd fun _ => rfl) fun _ => ?_
  refine LS.bind id (LS.readByteTo fun _ _ => rfl) fun _ => ?_
  exact LS.bind _ LS.unread fun _ => LS.bind _ LS.call fun _ => LS.pure

/-- all fields are new (test) -/
example : SrStateData.decode { State := 9, NMS := [49] } [1, 2, 3, 4, 3] = .ok ⟨1, 2, 3, 4, [48], [49], [49]⟩ := by kernel_rfl

/-! ### what is not announced stays -/

/-- positions -/
theorem pos_reused_partial (e : SrPosData) (c : Bytes) : SameBut e.stale (SrPosData.decode e c) (SrPosData.decode {} c) := by
  refine LS.sameBut (σ := SrPosData) ?_ {} c
  refine LS.bind _ LS.read fun _ => ?_
  refine LS.bind (fun q => { e with NavigationTime := q.NavigationTime }) (LS.upd fun _ => rfl) fun _ => ?_
  refine LS.bind _ LS.read fun _ => ?_
  refine LS.bind (fun q => { e with NavigationTime := q.NavigationTime, Latitude := q.Latitude }) (LS.upd fun _ => rfl) fun _ => ?_
  refine LS.bind _ LS.read fun _ => ?_
  refine LS.bind (fun q => { e with NavigationTime := q.NavigationTime, Latitude := q.Latitude, Longitude := q.Longitude }) (LS.upd fun _ => rfl) fun _ => ?_
  refine LS.bind _ LS.readByte fun _ => ?_
  refine LS.bind (fun q => { q with DirectionHighestBit := e.DirectionHighestBit, AltitudeSign := e.AltitudeSign, Speed := e.Speed, Direction := e.Direction, Odometer := e.Odometer, DigitalInputs := e.DigitalInputs, Source := e.Source, Altitude := e.Altitude, SourceData := e.SourceData })
    (LS.upd fun _ => rfl) fun _ => ?_
  refine LS.bind _ LS.read fun _ => ?_
  refine LS.bind (fun q => { q with Speed := e.Speed, Direction := e.Direction, Odometer := e.Odometer, DigitalInputs := e.DigitalInputs, Source := e.Source, Altitude := e.Altitude, SourceData := e.SourceData })
    (LS.upd fun _ => rfl) fun _ => ?_
  refine LS.bind (fun q => { q with Speed := e.Speed, Direction := e.Direction, Odometer := e.Odometer, DigitalInputs := e.DigitalInputs, Source := e.Source, Altitude := e.Altitude, SourceData := e.SourceData })
    (by split <;> first | exact LS.pure | exact LS.fail) fun _ => ?_
  refine LS.bind (fun q => { q with Direction := e.Direction, Odometer := e.Odometer, DigitalInputs := e.DigitalInputs, Source := e.Source, Altitude := e.Altitude, SourceData := e.SourceData })
    (LS.upd fun _ => rfl) fun _ => ?_
  refine LS.bind (fun q => { q with Odometer := e.Odometer, DigitalInputs := e.DigitalInputs, Source := e.Source, Altitude := e.Altitude, SourceData := e.SourceData })
    (LS.readByteTo fun _ _ => rfl) fun _ => ?_
  refine LS.bind (fun q => { q with Odometer := e.Odometer, DigitalInputs := e.DigitalInputs, Source := e.Source, Altitude := e.Altitude, SourceData := e.SourceData })
    (LS.upd fun _ => rfl) fun _ => ?_
  refine LS.bind _ LS.read fun _ => ?_
  refine LS.bind (fun q => { q with DigitalInputs := e.DigitalInputs, Source := e.Source, Altitude := e.Altitude, SourceData := e.SourceData }) (LS.upd fun _ => rfl) fun _ => ?_
  refine LS.bind (fun q => { q with Source := e.Source, Altitude := e.Altitude, SourceData := e.SourceData }) (LS.readByteTo fun _ _ => rfl) fun _ => ?_
  refine LS.bind (fun q => { q with Altitude := e.Altitude, SourceData := e.SourceData }) (LS.readByteTo fun _ _ => rfl) fun _ => ?_
  refine LS.opt (fun _ => rfl) (fun s hs r => ?_) fun s hs => ?_
  · refine (LS.read s r).bind fun t s' r' ht => ?_
    obtain rfl : s' = s := (Dec.read_inv ht).1
    exact LSat.updAt (by simp [SrPosData.stale, hs])
  · simp [SrPosData.stale, hs]

/-- extended positions -/
theorem extpos_reused_partial (e : SrExtPosData) (c : Bytes) : SameBut e.stale (SrExtPosData.decode e c) (SrExtPosData.decode {} c) := by
  refine LS.sameBut (σ := SrExtPosData) ?_ {} c
  refine LS.bind _ LS.readByte fun _ => ?_
  refine LS.bind (fun q => { q with
    VerticalDilutionOfPrecision := e.VerticalDilutionOfPrecision, HorizontalDilutionOfPrecision := e.HorizontalDilutionOfPrecision
    PositionDilutionOfPrecision := e.PositionDilutionOfPrecision, Satellites := e.Satellites, NavigationSystem := e.NavigationSystem }) (LS.upd fun _ => rfl) fun _ => ?_
  refine LS.bind (fun q => { q with
    VerticalDilutionOfPrecision := if q.VdopFieldExists = [49] then q.VerticalDilutionOfPrecision else e.VerticalDilutionOfPrecision
    HorizontalDilutionOfPrecision := e.HorizontalDilutionOfPrecision
    PositionDilutionOfPrecision := e.PositionDilutionOfPrecision, Satellites := e.Satellites, NavigationSystem := e.NavigationSystem })
    (LS.optRead (fun _ => rfl) (fun s v h => by simp [h]) fun s h => by simp [h]) fun _ => ?_
  refine LS.bind (fun q => { q with
    VerticalDilutionOfPrecision := if q.VdopFieldExists = [49] then q.VerticalDilutionOfPrecision else e.VerticalDilutionOfPrecision
    HorizontalDilutionOfPrecision := if q.HdopFieldExists = [49] then q.HorizontalDilutionOfPrecision else e.HorizontalDilutionOfPrecision
    PositionDilutionOfPrecision := e.PositionDilutionOfPrecision, Satellites := e.Satellites, NavigationSystem := e.NavigationSystem })
    (LS.optRead (fun _ => rfl) (fun s v h => by simp [h]) fun s h => by simp [h]) fun _ => ?_
  refine LS.bind (fun q => { q with
    VerticalDilutionOfPrecision := if q.VdopFieldExists = [49] then q.VerticalDilutionOfPrecision else e.VerticalDilutionOfPrecision
    HorizontalDilutionOfPrecision := if q.HdopFieldExists = [49] then q.HorizontalDilutionOfPrecision else e.HorizontalDilutionOfPrecision
    PositionDilutionOfPrecision := if q.PdopFieldExists = [49] then q.PositionDilutionOfPrecision else e.PositionDilutionOfPrecision
    Satellites := e.Satellites, NavigationSystem := e.NavigationSystem })
    (LS.optRead (fun _ => rfl) (fun s v h => by simp [h]) fun s h => by simp [h]) fun _ => ?_
  refine LS.bind (fun q => { e.stale q with NavigationSystem := e.NavigationSystem })
    (LS.optByte (fun _ => rfl) (fun s v h => by simp [h, SrExtPosData.stale]) fun s h => by simp [h, SrExtPosData.stale]) fun _ => ?_
  exact LS.bind _ (LS.optRead (fun _ => rfl) (fun s v h => by simp [h, SrExtPosData.stale]) fun s h => by simp [h, SrExtPosData.stale]) fun _ => LS.pure

/-- analog and digital sensors -/
theorem adsensors_reused_partial (e : SrAdSensorsData) (c : Bytes) : SameBut e.stale (SrAdSensorsData.decode e c) (SrAdSensorsData.decode {} c) := by
  refine LS.sameBut (σ := SrAdSensorsData) ?_ {} c
  refine LS.bind _ LS.readByte fun _ => ?_
  refine LS.bind (fun q => { e with DIOE8 := q.DIOE8, DIOE7 := q.DIOE7, DIOE6 := q.DIOE6, DIOE5 := q.DIOE5, DIOE4 := q.DIOE4, DIOE3 := q.DIOE3, DIOE2 := q.DIOE2, DIOE1 := q.DIOE1 })
    (LS.upd fun _ => rfl) fun _ => ?_
  refine LS.bind (fun q => { e with
    DIOE8 := q.DIOE8, DIOE7 := q.DIOE7, DIOE6 := q.DIOE6, DIOE5 := q.DIOE5, DIOE4 := q.DIOE4, DIOE3 := q.DIOE3, DIOE2 := q.DIOE2, DIOE1 := q.DIOE1, DOUT := q.DOUT })
    (LS.readByteTo fun _ _ => rfl) fun _ => ?_
  refine LS.bind _ LS.readByte fun _ => ?_
  refine LS.bind (fun q => { q with
    ADIO1 := e.ADIO1, ADIO2 := e.ADIO2, ADIO3 := e.ADIO3, ADIO4 := e.ADIO4, ADIO5 := e.ADIO5, ADIO6 := e.ADIO6, ADIO7 := e.ADIO7, ADIO8 := e.ADIO8, ANS1 := e.ANS1, ANS2 := e.ANS2, ANS3 := e.ANS3, ANS4 := e.ANS4, ANS5 := e.ANS5, ANS6 := e.ANS6, ANS7 := e.ANS7, ANS8 := e.ANS8 })
    (LS.upd fun _ => rfl) fun _ => ?_
  refine LS.bind (fun q => { e.stale q with ADIO2 := e.ADIO2, ADIO3 := e.ADIO3, ADIO4 := e.ADIO4, ADIO5 := e.ADIO5, ADIO6 := e.ADIO6, ADIO7 := e.ADIO7, ADIO8 := e.ADIO8, ANS1 := e.ANS1, ANS2 := e.ANS2, ANS3 := e.ANS3, ANS4 := e.ANS4, ANS5 := e.ANS5, ANS6 := e.ANS6, ANS7 := e.ANS7, ANS8 := e.ANS8 })
    (LS.optByte (fun _ => rfl) (fun s v h => by simp [h, SrAdSensorsData.stale]) fun s h => by simp [h, SrAdSensorsData.stale]) fun _ => ?_
  refine LS.bind (fun q => { e.stale q with ADIO3 := e.ADIO3, ADIO4 := e.ADIO4, ADIO5 := e.ADIO5, ADIO6 := e.ADIO6, ADIO7 := e.ADIO7, ADIO8 := e.ADIO8, ANS1 := e.ANS1, ANS2 := e.ANS2, ANS3 := e.ANS3, ANS4 := e.ANS4, ANS5 := e.ANS5, ANS6 := e.ANS6, ANS7 := e.ANS7, ANS8 := e.ANS8 })
    (LS.optByte (fun _ => rfl) (fun s v h => by simp [h, SrAdSensorsData.stale]) fun s h => by simp [h, SrAdSensorsData.stale]) fun _ => ?_
  refine LS.bind (fun q => { e.stale q with ADIO4 := e.ADIO4, ADIO5 := e.ADIO5, ADIO6 := e.ADIO6, ADIO7 := e.ADIO7, ADIO8 := e.ADIO8, ANS1 := e.ANS1, ANS2 := e.ANS2, ANS3 := e.ANS3, ANS4 := e.ANS4, ANS5 := e.ANS5, ANS6 := e.ANS6, ANS7 := e.ANS7, ANS8 := e.ANS8 })
    (LS.optByte (fun _ => rfl) (fun s v h => by simp [h, SrAdSensorsData.stale]) fun s h => by simp [h, SrAdSensorsData.stale]) fun _ => ?_
  refine LS.bind (fun q => { e.stale q with ADIO5 := e.ADIO5, ADIO6 := e.ADIO6, ADIO7 := e.ADIO7, ADIO8 := e.ADIO8, ANS1 := e.ANS1, ANS2 := e.ANS2, ANS3 := e.ANS3, ANS4 := e.ANS4, ANS5 := e.ANS5, ANS6 := e.ANS6, ANS7 := e.ANS7, ANS8 := e.ANS8 })
    (LS.optByte (fun _ => rfl) (fun s v h => by simp [h, SrAdSensorsData.stale]) fun s h => by simp [h, SrAdSensorsData.stale]) fun _ => ?_
  refine LS.bind (fun q => { e.stale q with ADIO6 := e.ADIO6, ADIO7 := e.ADIO7, ADIO8 := e.ADIO8, ANS1 := e.ANS1, ANS2 := e.ANS2, ANS3 := e.ANS3, ANS4 := e.ANS4, ANS5 := e.ANS5, ANS6 := e.ANS6, ANS7 := e.ANS7, ANS8 := e.ANS8 })
    (LS.optByte (fun _ => rfl) (fun s v h => by simp [h, SrAdSensorsData.stale]) fun s h => by simp [h, SrAdSensorsData.stale]) fun _ => ?_
  refine LS.bind (fun q => { e.stale q with ADIO7 := e.ADIO7, ADIO8 := e.ADIO8, ANS1 := e.ANS1, ANS2 := e.ANS2, ANS3 := e.ANS3, ANS4 := e.ANS4, ANS5 := e.ANS5, ANS6 := e.ANS6, ANS7 := e.ANS7, ANS8 := e.ANS8 })
    (LS.optByte (fun _ => rfl) (fun s v h => by simp [h, SrAdSensorsData.stale]) fun s h => by simp [h, SrAdSensorsData.stale]) fun _ => ?_
  refine LS.bind (fun q => { e.stale q with ADIO8 := e.ADIO8, ANS1 := e.ANS1, ANS2 := e.ANS2, ANS3 := e.ANS3, ANS4 := e.ANS4, ANS5 := e.ANS5, ANS6 := e.ANS6, ANS7 := e.ANS7, ANS8 := e.ANS8 })
    (LS.optByte (fun _ => rfl) (fun s v h => by simp [h, SrAdSensorsData.stale]) fun s h => by simp [h, SrAdSensorsData.stale]) fun _ => ?_
  refine LS.bind (fun q => { e.stale q with ANS1 := e.ANS1, ANS2 := e.ANS2, ANS3 := e.ANS3, ANS4 := e.ANS4, ANS5 := e.ANS5, ANS6 := e.ANS6, ANS7 := e.ANS7, ANS8 := e.ANS8 })
    (LS.optByte (fun _ => rfl) (fun s v h => by simp [h, SrAdSensorsData.stale]) fun s h => by simp [h, SrAdSensorsData.stale]) fun _ => ?_
  refine LS.bind (fun q => { e.stale q with ANS2 := e.ANS2, ANS3 := e.ANS3, ANS4 := e.ANS4, ANS5 := e.ANS5, ANS6 := e.ANS6, ANS7 := e.ANS7, ANS8 := e.ANS8 })
    (LS.optRead (fun _ => rfl) (fun s v h => by simp [h, SrAdSensorsData.stale]) fun s h => by simp [h, SrAdSensorsData.stale]) fun _ => ?_
  refine LS.bind (fun q => { e.stale q with ANS3 := e.ANS3, ANS4 := e.ANS4, ANS5 := e.ANS5, ANS6 := e.ANS6, ANS7 := e.ANS7, ANS8 := e.ANS8 })
    (LS.optRead (fun _ => rfl) (fun s v h => by simp [h, SrAdSensorsData.stale]) fun s h => by simp [h, SrAdSensorsData.stale]) fun _ => ?_
  refine LS.bind (fun q => { e.stale q with ANS4 := e.ANS4, ANS5 := e.ANS5, ANS6 := e.ANS6, ANS7 := e.ANS7, ANS8 := e.ANS8 })
    (LS.optRead (fun _ => rfl) (fun s v h => by simp [h, SrAdSensorsData.stale]) fun s h => by simp [h, SrAdSensorsData.stale]) fun _ => ?_
  refine LS.bind (fun q => { e.stale q with ANS5 := e.ANS5, ANS6 := e.ANS6, ANS7 := e.ANS7, ANS8 := e.ANS8 })
    (LS.optRead (fun _ => rfl) (fun s v h => by simp [h, SrAdSensorsData.stale]) fun s h => by simp [h, SrAdSensorsData.stale]) fun _ => ?_
  refine LS.bind (fun q => { e.stale q with ANS6 := e.ANS6, ANS7 := e.ANS7, ANS8 := e.ANS8 })
    (LS.optRead (fun _ => rfl) (fun s v h => by simp [h, SrAdSensorsData.stale]) fun s h => by simp [h, SrAdSensorsData.stale]) fun _ => ?_
  refine LS.bind (fun q => { e.stale q with ANS7 := e.ANS7, ANS8 := e.ANS8 })
    (LS.optRead (fun _ => rfl) (fun s v h => by simp [h, SrAdSensorsData.stale]) fun s h => by simp [h, SrAdSensorsData.stale]) fun _ => ?_
  refine LS.bind (fun q => { e.stale q with ANS8 := e.ANS8 })
    (LS.optRead (fun _ => rfl) (fun s v h => by simp [h, SrAdSensorsData.stale]) fun s h => by simp [h, SrAdSensorsData.stale]) fun _ => ?_
  exact LS.bind e.stale (LS.optRead (fun _ => rfl) (fun s v h => by simp [h, SrAdSensorsData.stale]) fun s h => by simp [h, SrAdSensorsData.stale]) fun _ => LS.pure

/-- terminal identities -/
theorem term_reused_partial (e : SrTermIdentity) (c : Bytes) : SameBut e.stale (SrTermIdentity.decode e c) (SrTermIdentity.decode {} c) := by
  refine LS.sameBut (σ := SrTermIdentity) ?_ {} c
  refine LS.bind _ LS.read fun _ => ?_
  refine LS.bind (fun q => { e with TerminalIdentifier := q.TerminalIdentifier }) (LS.upd fun _ => rfl) fun _ => ?_
  refine LS.bind _ LS.readByte fun _ => ?_
  refine LS.bind (fun q => { q with
    HomeDispatcherIdentifier := e.HomeDispatcherIdentifier, IMEI := e.IMEI, IMSI := e.IMSI, LanguageCode := e.LanguageCode, NetworkIdentifier := e.NetworkIdentifier, BufferSize := e.BufferSize, MobileNumber := e.MobileNumber }) (LS.upd fun _ => rfl) fun _ => ?_
  refine LS.bind (fun q => { e.stale q with IMEI := e.IMEI, IMSI := e.IMSI, LanguageCode := e.LanguageCode, NetworkIdentifier := e.NetworkIdentifier, BufferSize := e.BufferSize, MobileNumber := e.MobileNumber })
    (LS.optRead (fun _ => rfl) (fun s v h => by simp [h, SrTermIdentity.stale]) fun s h => by simp [h, SrTermIdentity.stale]) fun _ => ?_
  refine LS.bind (fun q => { e.stale q with IMSI := e.IMSI, LanguageCode := e.LanguageCode, NetworkIdentifier := e.NetworkIdentifier, BufferSize := e.BufferSize, MobileNumber := e.MobileNumber })
    (LS.optRead (fun _ => rfl) (fun s v h => by simp [h, SrTermIdentity.stale]) fun s h => by simp [h, SrTermIdentity.stale]) fun _ => ?_
  refine LS.bind (fun q => { e.stale q with LanguageCode := e.LanguageCode, NetworkIdentifier := e.NetworkIdentifier, BufferSize := e.BufferSize, MobileNumber := e.MobileNumber })
    (LS.optRead (fun _ => rfl) (fun s v h => by simp [h, SrTermIdentity.stale]) fun s h => by simp [h, SrTermIdentity.stale]) fun _ => ?_
  refine LS.bind (fun q => { e.stale q with NetworkIdentifier := e.NetworkIdentifier, BufferSize := e.BufferSize, MobileNumber := e.MobileNumber })
    (LS.optRead (fun _ => rfl) (fun s v h => by simp [h, SrTermIdentity.stale]) fun s h => by simp [h, SrTermIdentity.stale]) fun _ => ?_
  refine LS.bind (fun q => { e.stale q with BufferSize := e.BufferSize, MobileNumber := e.MobileNumber })
    (LS.optRead (fun _ => rfl) (fun s v h => by simp [h, SrTermIdentity.stale]) fun s h => by simp [h, SrTermIdentity.stale]) fun _ => ?_
  refine LS.bind (fun q => { e.stale q with MobileNumber := e.MobileNumber })
    (LS.optRead (fun _ => rfl) (fun s v h => by simp [h, SrTermIdentity.stale]) fun s h => by simp [h, SrTermIdentity.stale]) fun _ => ?_
  exact LS.bind e.stale (LS.optRead (fun _ => rfl) (fun s v h => by simp [h, SrTermIdentity.stale]) fun s h => by simp [h, SrTermIdentity.stale]) fun _ => LS.pure

/-- counters -/
theorem counters_reused_partial (e : SrCountersData) (c : Bytes) : SameBut e.stale (SrCountersData.decode e c) (SrCountersData.decode {} c) := by
  refine LS.sameBut (σ := SrCountersData) ?_ {} c
  refine LS.bind _ LS.readByte fun _ => ?_
  refine LS.bind (fun q => { q with
    CN1 := e.CN1, CN2 := e.CN2, CN3 := e.CN3, CN4 := e.CN4, CN5 := e.CN5, CN6 := e.CN6, CN7 := e.CN7, CN8 := e.CN8 })
    (LS.upd fun _ => rfl) fun _ => ?_
  refine LS.bind (fun q => { q with
    CN1 := if q.CFE1 = [49] then q.CN1 else e.CN1, CN2 := e.CN2, CN3 := e.CN3, CN4 := e.CN4, CN5 := e.CN5, CN6 := e.CN6, CN7 := e.CN7, CN8 := e.CN8 })
    (LS.optRead (fun _ => rfl) (fun s v h => by simp [h]) fun s h => by simp [h]) fun _ => ?_
  refine LS.bind (fun q => { e.stale q with CN3 := e.CN3, CN4 := e.CN4, CN5 := e.CN5, CN6 := e.CN6, CN7 := e.CN7, CN8 := e.CN8 })
    (LS.optRead (fun _ => rfl) (fun s v h => by simp [h, SrCountersData.stale]) fun s h => by simp [h, SrCountersData.stale]) fun _ => ?_
  refine LS.bind (fun q => { e.stale q with CN4 := e.CN4, CN5 := e.CN5, CN6 := e.CN6, CN7 := e.CN7, CN8 := e.CN8 })
    (LS.optRead (fun _ => rfl) (fun s v h => by simp [h, SrCountersData.stale]) fun s h => by simp [h, SrCountersData.stale]) fun _ => ?_
  refine LS.bind (fun q => { e.stale q with CN5 := e.CN5, CN6 := e.CN6, CN7 := e.CN7, CN8 := e.CN8 })
    (LS.optRead (fun _ => rfl) (fun s v h => by simp [h, SrCountersData.stale]) fun s h => by simp [h, SrCountersData.stale]) fun _ => ?_
  refine LS.bind (fun q => { e.stale q with CN6 := e.CN6, CN7 := e.CN7, CN8 := e.CN8 })
    (LS.optRead (fun _ => rfl) (fun s v h => by simp [h, SrCountersData.stale]) fun s h => by simp [h, SrCountersData.stale]) fun _ => ?_
  refine LS.bind (fun q => { e.stale q with CN7 := e.CN7, CN8 := e.CN8 })
    (LS.optRead (fun _ => rfl) (fun s v h => by simp [h, SrCountersData.stale]) fun s h => by simp [h, SrCountersData.stale]) fun _ => ?_
  refine LS.bind (fun q => { e.stale q with CN8 := e.CN8 })
    (LS.optRead (fun _ => rfl) (fun s v h => by simp [h, SrCountersData.stale]) fun s h => by simp [h, SrCountersData.stale]) fun _ => ?_
  exact LS.bind e.stale (LS.optRead (fun _ => rfl) (fun s v h => by simp [h, SrCountersData.stale]) fun s h => by simp [h, SrCountersData.stale]) fun _ => LS.pure

theorem readNul_len {σ : Type} {s s' : σ} {r t r' : Bytes} (h : readNul s r = .ok t s' r') : s' = s ∧ r.length = t.length + 1 + r'.length := by
  unfold readNul at h
  split at h
  · rename_i h0
    cases h
    refine ⟨rfl, ?_⟩
    have e := congrArg List.length (List.takeWhile_append_dropWhile (p := fun x : UInt8 => decide (x ≠ 0)) (l := r))
    have : r.dropWhile (fun x : UInt8 => decide (x ≠ 0)) ≠ [] := by
      intro hn
      rw [List.dropWhile_eq_nil_iff] at hn
      have := hn 0 h0
      simp at this
    have := List.length_pos_iff.mpr this
    rw [List.length_append] at e
    rw [List.length_drop]
    omega
  · cases h

/-- credentials -/
theorem auth_reused_partial (e : SrAuthInfo) (c : Bytes) : SameBut (SrAuthInfo.stale c e) (SrAuthInfo.decode e c) (SrAuthInfo.decode {} c) := by
  refine LSat.sameBut (μ := fun _ => e) (?_ : LSat _ _ SrAuthInfo.decodeM {} c)
  refine (LS.readNul _ _).bind fun t1 s1 r1 h1 => ?_
  obtain ⟨-, h1⟩ := readNul_len h1
  refine LSat.bind (ν := fun q => { e with UserName := q.UserName }) (LSat.updAt rfl) fun _ s2 r2 h2 => ?_
  cases h2
  refine (LS.readNul _ _).bind fun t3 s3 r3 h3 => ?_
  obtain ⟨rfl, h3⟩ := readNul_len h3
  refine LSat.bind (ν := fun q => { q with ServerSequence := e.ServerSequence }) (LSat.updAt rfl) fun _ s4 r4 h4 => ?_
  cases h4
  refine (LS.unread _ _).bind fun t5 s5 r5 h5 => ?_
  cases h5
  by_cases h : r3.length > 0
  · rw [decide_eq_true h]
    refine (LS.readNul _ _).bind fun t6 s6 r6 h6 => ?_
    obtain ⟨rfl, h6⟩ := readNul_len h6
    refine LSat.updAt ?_
    unfold SrAuthInfo.stale
    rw [if_neg (by simp only; omega)]
  · rw [decide_eq_false h]
    refine (?_ : LSat _ _ (Pure.pure ()) _ _)
    unfold LSat
    simp only [Dec.pure_apply]
    unfold SrAuthInfo.stale
    rw [if_pos (by simp only; omega)]

/-- answers -/
theorem ptresponse_reused_partial [P : Platform] (e : PtResponse) (c : Bytes) : SameBut (PtResponse.stale c e) (PtResponse.decode e c) (PtResponse.decode {} c) := by
  refine LSat.sameBut (μ := fun _ => e) (?_ : LSat _ _ PtResponse.decodeM {} c)
  refine (LS.read _ _).bind fun t1 s1 r1 h1 => ?_
  obtain ⟨rfl, -, h1, -⟩ := Dec.read_inv h1
  refine LSat.bind (ν := fun q => { e with ResponsePacketID := q.ResponsePacketID }) (LSat.updAt rfl) fun _ s2 r2 h2 => ?_
  cases h2
  refine LSat.bind (ν := fun q => { q with SDR := e.SDR }) (?hb) fun _ s3 r3 h3 => ?_
  case hb => cases r1 <;> first | exact ⟨_, rfl⟩ | rfl
  obtain ⟨b, rfl, rfl⟩ := Dec.readByteTo_inv h3
  have h1 := h1 (by simp)
  simp only [zeros, List.length_replicate, List.length_cons] at h1
  refine (LS.unread _ _).bind fun t5 s5 r5 h5 => ?_
  cases h5
  by_cases h : r3.length > 0
  · rw [decide_eq_true h]
    generalize ServiceDataSet.decode [] r3 = o
    cases o with
    | ok sds =>
      show Res.ok () _ r3 = Res.ok () (PtResponse.stale c e _) r3
      simp only [PtResponse.stale]
      rw [if_neg (by omega)]
    | err x sds => exact ⟨_, rfl⟩
    | panic => rfl
    | diverge => rfl
  · rw [decide_eq_false h]
    refine (?_ : LSat _ _ (Pure.pure ()) _ _)
    unfold LSat
    simp only [Dec.pure_apply, PtResponse.stale]
    rw [if_pos (by omega)]

/-! ### sets grow -/

theorem LS.loopN {σ : Type} {μ : σ → σ} {m : Dec σ Unit} (h : LS μ μ m) (n : Nat) : LS μ μ (Dec.loopN m n) := by
  induction n with
  | zero =>
    intro s r
    unfold LSat Dec.loopN
    split <;> rename_i he <;> split at he <;> simp_all
  | succ n ih =>
    intro s r
    have := LS.bind μ h (fun _ => ih) s r
    unfold LSat at *
    rw [Dec.loopN]
    by_cases hr : r = []
    · simp [hr]
    · simpa only [if_neg hr] using this

theorem LS.whileUnread {σ : Type} {μ : σ → σ} {m : Dec σ Unit} (h : LS μ μ m) : LS μ μ (Dec.whileUnread m) :=
  fun s r => LS.loopN h r.length s r

/-- records are added to those of the old set -/
theorem servicedata_reused_partial [P : Platform] (e : ServiceDataSet) (c : Bytes) :
    SameBut (e ++ ·) (ServiceDataSet.decode e c) (ServiceDataSet.decode [] c) := by
  have : LS (e ++ ·) (e ++ ·) (sdsStep nestedDecode) := by
    intro s r
    unfold LSat sdsStep
    cases sdrDecodeM nestedDecode {} r with
    | ok _ sdr r' => simp
    | err x _ => exact ⟨_, rfl⟩
    | panic => rfl
    | diverge => rfl
  have := LSat.sameBut (LS.whileUnread this [] c)
  rwa [List.append_nil] at this

/-- subrecords are added to those of the old set -/
theorem recorddata_reused_partial [P : Platform] (e : RecordDataSet) (c : Bytes) :
    SameBut (e ++ ·) (RecordDataSet.decode e c) (RecordDataSet.decode [] c) := by
  have : LS (e ++ ·) (e ++ ·) (rdsStep nestedDecode) := by
    refine LS.bind _ LS.readByte fun _ => LS.bind _ LS.read fun _ => ?_
    refine LS.bind (e ++ ·) (fun _ _ => rfl) fun _ => LS.bind _ LS.call fun _ => LS.upd fun _ => ?_
    simp
  have := LSat.sameBut (LS.whileUnread this [] c)
  rwa [List.append_nil] at this

/-! ### and so the property is false -/

/-- what a successful decode gives -/
def Out.val? {σ : Type} : Out σ → Option σ
  | .ok q => some q
  | _ => none

/-- C132 is false of the code: a position without altitude is decoded with the altitude of the one before; a satellite count that was not sent is that of the last subrecord;
the confirmed records of an earlier answer are in the next one, which has none; and the subrecords of an earlier record are there twice. -/
theorem reused_wrong [P : Platform] :
    ((SrPosData.decode { Altitude := 7 } (zeros 21)).val?.map (·.Altitude) = some 7 ∧ (SrPosData.decode {} (zeros 21)).val?.map (·.Altitude) = some 0) ∧
    ((SrExtPosData.decode { Satellites := 9 } [0]).val?.map (·.Satellites) = some 9 ∧ (SrExtPosData.decode {} [0]).val?.map (·.Satellites) = some 0) ∧
    ((PtResponse.decode { SDR := some [] } [1, 0, 0]).val?.map (·.SDR) = some (some []) ∧ (PtResponse.decode {} [1, 0, 0]).val?.map (·.SDR) = some none) ∧
    ((RecordDataSet.decode [⟨9, 1, some (.result ⟨0⟩)⟩] [9, 1, 0, 0]).val?.map List.length = some 2 ∧ (RecordDataSet.decode [] [9, 1, 0, 0]).val?.map List.length = some 1) :=
  ⟨⟨by kernel_rfl, by kernel_rfl⟩, ⟨by kernel_rfl, by kernel_rfl⟩, ⟨by kernel_rfl, by kernel_rfl⟩, ⟨by kernel_rfl, by kernel_rfl⟩⟩

end Egts
