import Verif.Go.Basic
set_option autoImplicit false
/- Models of the small fixed-layout subrecords:
libs/egts/egts_sr_state_data.go, egts_sr_liquid_level_sensor.go, egts_sr_abs_cntr_data.go,
egts_sr_abs_an_sensors_data.go, egts_sr_result_code.go. -/
namespace Egts

/-- `SrStateData`, egts_sr_state_data.go:12-20. -/
structure SrStateData where
  State : UInt8 := 0
  MainPowerSourceVoltage : UInt8 := 0
  BackUpBatteryVoltage : UInt8 := 0
  InternalBatteryVoltage : UInt8 := 0
  NMS : Bytes := []
  IBU : Bytes := []
  BBU : Bytes := []
deriving DecidableEq

/-- body of `(*SrStateData).Decode`, egts_sr_state_data.go:23-55. -/
def SrStateData.decodeM : Dec SrStateData Unit := do
  Dec.readByteTo fun e b => { e with State := b }                       -- 30
  Dec.readByteTo fun e b => { e with MainPowerSourceVoltage := b }      -- 34
  Dec.readByteTo fun e b => { e with BackUpBatteryVoltage := b }        -- 38
  Dec.readByteTo fun e b => { e with InternalBatteryVoltage := b }      -- 42
  let flags ← Dec.readByte                                              -- 46
  let fb := fmtBin 8 flags.toNat                                        -- 49
  Dec.upd fun e => { e with NMS := sl fb 5 6, IBU := sl fb 6 7, BBU := sl fb 7 8 } -- 50-52

/-- `(*SrStateData).Decode`, egts_sr_state_data.go:23-55. -/
def SrStateData.decode (e : SrStateData) (content : Bytes) : Out SrStateData :=
  SrStateData.decodeM.run e content

/-- `(*SrStateData).Encode`, egts_sr_state_data.go:58-93. -/
def SrStateData.encode (e : SrStateData) : Go Bytes := do
  let f ← parseFlags ([48, 48, 48, 48, 48] ++ e.NMS ++ e.IBU ++ e.BBU)  -- 82
  pure [e.State, e.MainPowerSourceVoltage, e.BackUpBatteryVoltage, e.InternalBatteryVoltage, f] -- 66-88

/-- `SrLiquidLevelSensor`, egts_sr_liquid_level_sensor.go:12-19. -/
structure SrLiquidLevelSensor where
  LiquidLevelSensorErrorFlag : Bytes := []
  LiquidLevelSensorValueUnit : Bytes := []
  RawDataFlag : Bytes := []
  LiquidLevelSensorNumber : UInt8 := 0
  ModuleAddress : UInt16 := 0
  LiquidLevelSensorData : UInt32 := 0
deriving DecidableEq

/-- body of `(*SrLiquidLevelSensor).Decode`, egts_sr_liquid_level_sensor.go:22-57. -/
def SrLiquidLevelSensor.decodeM : Dec SrLiquidLevelSensor Unit := do
  let flags ← Dec.readByte                                              -- 30
  let fb := fmtBin 8 flags.toNat                                        -- 33
  Dec.upd fun e => { e with                                             -- 35-37
    LiquidLevelSensorErrorFlag := sl fb 1 2, LiquidLevelSensorValueUnit := sl fb 2 4,
    RawDataFlag := sl fb 4 5 }
  let n ← (match parseUint2 (fb.drop 5) 8 with                          -- 39
    | (n, none) => pure n
    | (_, some e) => Dec.fail e : Dec SrLiquidLevelSensor Nat)
  Dec.upd fun e => { e with LiquidLevelSensorNumber := UInt8.ofNat n }  -- 42
  let t ← Dec.read (zeros 2)                                            -- 44-45
  Dec.upd fun e => { e with ModuleAddress := u16 t }                    -- 48
  let t ← Dec.read (zeros 4)                                            -- 50-51
  Dec.upd fun e => { e with LiquidLevelSensorData := u32 t }            -- 54

/-- `(*SrLiquidLevelSensor).Decode`, egts_sr_liquid_level_sensor.go:22-57. -/
def SrLiquidLevelSensor.decode (e : SrLiquidLevelSensor) (content : Bytes) : Out SrLiquidLevelSensor :=
  SrLiquidLevelSensor.decodeM.run e content

/-- `(*SrLiquidLevelSensor).Encode`, egts_sr_liquid_level_sensor.go:60-89. -/
def SrLiquidLevelSensor.encode (e : SrLiquidLevelSensor) : Go Bytes := do
  let f ← parseFlags ([48] ++ e.LiquidLevelSensorErrorFlag ++ e.LiquidLevelSensorValueUnit
    ++ e.RawDataFlag ++ fmtBin 3 e.LiquidLevelSensorNumber.toNat)       -- 68-70
  pure ([f] ++ le16 e.ModuleAddress ++ le32 e.LiquidLevelSensorData)    -- 74-82

/-- `SrAbsCntrData`, egts_sr_abs_cntr_data.go:12-15. -/
structure SrAbsCntrData where
  CounterNumber : UInt8 := 0
  CounterValue : UInt32 := 0
deriving DecidableEq

/-- body of `(*SrAbsCntrData).Decode`, egts_sr_abs_cntr_data.go:18-37. -/
def SrAbsCntrData.decodeM : Dec SrAbsCntrData Unit := do
  Dec.readByteTo fun e b => { e with CounterNumber := b }               -- 24
  let t ← Dec.read (zeros 3)                                            -- 28-29
  Dec.upd fun e => { e with CounterValue := u32 (t ++ [0]) }            -- 33-34

/-- `(*SrAbsCntrData).Decode`, egts_sr_abs_cntr_data.go:18-37. -/
def SrAbsCntrData.decode (e : SrAbsCntrData) (content : Bytes) : Out SrAbsCntrData :=
  SrAbsCntrData.decodeM.run e content

/-- `(*SrAbsCntrData).Encode`, egts_sr_abs_cntr_data.go:40-59. -/
def SrAbsCntrData.encode (e : SrAbsCntrData) : Go Bytes :=
  .ok ([e.CounterNumber] ++ (le32 e.CounterValue).take 3)

/-- `SrAbsAnSensData`, egts_sr_abs_an_sensors_data.go:10-13. -/
structure SrAbsAnSensData where
  SensorNumber : UInt8 := 0
  Value : UInt32 := 0
deriving DecidableEq

/-- `(*SrAbsAnSensData).Decode`, egts_sr_abs_an_sensors_data.go:16-23; `content[0]` and
`Uint32(content)` would panic on shorter input, the length guard of line 17 excludes it. -/
def SrAbsAnSensData.decode (e : SrAbsAnSensData) (content : Bytes) : Out SrAbsAnSensData :=
  if content.length < 4 then .err .badSize e                            -- 17-19
  else match content with
    | b0 :: _ :: _ :: _ :: _ =>
      .ok { e with SensorNumber := b0, Value := u32 content >>> 8 }     -- 20-21
    | _ => .panic

/-- `(*SrAbsAnSensData).Encode`, egts_sr_abs_an_sensors_data.go:26-33. -/
def SrAbsAnSensData.encode (e : SrAbsAnSensData) : Go Bytes :=
  .ok [e.SensorNumber, e.Value.toUInt8, (e.Value >>> 8).toUInt8, (e.Value >>> 16).toUInt8]

/-- `SrResultCode`, egts_sr_result_code.go:10-12. -/
structure SrResultCode where
  ResultCode : UInt8 := 0
deriving DecidableEq

/-- `(*SrResultCode).Decode`, egts_sr_result_code.go:15-26. -/
def SrResultCode.decode (e : SrResultCode) (content : Bytes) : Out SrResultCode :=
  (Dec.readByteTo fun (e : SrResultCode) b => { e with ResultCode := b }).run e content

/-- `(*SrResultCode).Encode`, egts_sr_result_code.go:29-42. -/
def SrResultCode.encode (e : SrResultCode) : Go Bytes := .ok [e.ResultCode]

end Egts
