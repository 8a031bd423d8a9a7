import Verif.Go.Basic
set_option autoImplicit false
/- Model of libs/egts/egts_sr_ad_sensors_data.go. -/
namespace Egts

/-- `SrAdSensorsData`, egts_sr_ad_sensors_data.go:13-47; fields are named by their JSON tags
(DIOEi = DigitalInputsOctetExistsi, DOUT = DigitalOutputs, ASFEi = AnalogSensorFieldExistsi,
ADIOi = AdditionalDigitalInputsOcteti, ANSi = AnalogSensori). -/
structure SrAdSensorsData where
  DIOE1 : Bytes := []
  DIOE2 : Bytes := []
  DIOE3 : Bytes := []
  DIOE4 : Bytes := []
  DIOE5 : Bytes := []
  DIOE6 : Bytes := []
  DIOE7 : Bytes := []
  DIOE8 : Bytes := []
  DOUT : UInt8 := 0
  ASFE1 : Bytes := []
  ASFE2 : Bytes := []
  ASFE3 : Bytes := []
  ASFE4 : Bytes := []
  ASFE5 : Bytes := []
  ASFE6 : Bytes := []
  ASFE7 : Bytes := []
  ASFE8 : Bytes := []
  ADIO1 : UInt8 := 0
  ADIO2 : UInt8 := 0
  ADIO3 : UInt8 := 0
  ADIO4 : UInt8 := 0
  ADIO5 : UInt8 := 0
  ADIO6 : UInt8 := 0
  ADIO7 : UInt8 := 0
  ADIO8 : UInt8 := 0
  ANS1 : UInt32 := 0
  ANS2 : UInt32 := 0
  ANS3 : UInt32 := 0
  ANS4 : UInt32 := 0
  ANS5 : UInt32 := 0
  ANS6 : UInt32 := 0
  ANS7 : UInt32 := 0
  ANS8 : UInt32 := 0
deriving DecidableEq

/-- body of `(*SrAdSensorsData).Decode`, egts_sr_ad_sensors_data.go:50-204; lines 140-202 share
one three-byte buffer. -/
def SrAdSensorsData.decodeM : Dec SrAdSensorsData Unit := do
  let flags ← Dec.readByte                                              -- 59
  let fb := fmtBin 8 flags.toNat                                        -- 62
  Dec.upd fun e => { e with                                             -- 64-71
    DIOE8 := sl fb 0 1, DIOE7 := sl fb 1 2, DIOE6 := sl fb 2 3, DIOE5 := sl fb 3 4,
    DIOE4 := sl fb 4 5, DIOE3 := sl fb 5 6, DIOE2 := sl fb 6 7, DIOE1 := sl fb 7 8 }
  Dec.readByteTo fun e b => { e with DOUT := b }                        -- 73
  let flags ← Dec.readByte                                              -- 77
  let fb := fmtBin 8 flags.toNat                                        -- 80
  Dec.upd fun e => { e with                                             -- 82-89
    ASFE8 := sl fb 0 1, ASFE7 := sl fb 1 2, ASFE6 := sl fb 2 3, ASFE5 := sl fb 3 4,
    ASFE4 := sl fb 4 5, ASFE3 := sl fb 5 6, ASFE2 := sl fb 6 7, ASFE1 := sl fb 7 8 }
  Dec.optByte (·.DIOE1) fun e b => { e with ADIO1 := b }                    -- 91-95
  Dec.optByte (·.DIOE2) fun e b => { e with ADIO2 := b }                    -- 97-101
  Dec.optByte (·.DIOE3) fun e b => { e with ADIO3 := b }                    -- 103-107
  Dec.optByte (·.DIOE4) fun e b => { e with ADIO4 := b }                    -- 109-113
  Dec.optByte (·.DIOE5) fun e b => { e with ADIO5 := b }                    -- 115-119
  Dec.optByte (·.DIOE6) fun e b => { e with ADIO6 := b }                    -- 121-125
  Dec.optByte (·.DIOE7) fun e b => { e with ADIO7 := b }                    -- 127-131
  Dec.optByte (·.DIOE8) fun e b => { e with ADIO8 := b }                    -- 133-137
  let tmp ← Dec.optRead (·.ASFE1) (zeros 3) u24 fun e v => { e with ANS1 := v }   -- 139-146
  let tmp ← Dec.optRead (·.ASFE2) tmp u24 fun e v => { e with ANS2 := v }         -- 148-154
  let tmp ← Dec.optRead (·.ASFE3) tmp u24 fun e v => { e with ANS3 := v }         -- 156-162
  let tmp ← Dec.optRead (·.ASFE4) tmp u24 fun e v => { e with ANS4 := v }         -- 164-170
  let tmp ← Dec.optRead (·.ASFE5) tmp u24 fun e v => { e with ANS5 := v }         -- 172-178
  let tmp ← Dec.optRead (·.ASFE6) tmp u24 fun e v => { e with ANS6 := v }         -- 180-186
  let tmp ← Dec.optRead (·.ASFE7) tmp u24 fun e v => { e with ANS7 := v }         -- 188-194
  let _ ← Dec.optRead (·.ASFE8) tmp u24 fun e v => { e with ANS8 := v }           -- 196-202
  pure ()

/-- `(*SrAdSensorsData).Decode`, egts_sr_ad_sensors_data.go:50-204. -/
def SrAdSensorsData.decode (e : SrAdSensorsData) (content : Bytes) : Out SrAdSensorsData :=
  SrAdSensorsData.decodeM.run e content

/-- `if flag == "1" { buf.WriteByte(v) }`. -/
def encOptByte (flag : Bytes) (v : UInt8) : Bytes := if flag == [49] then [v] else []

/-- `if flag == "1" { PutUint32(sensVal, v); buf.Write(sensVal[:3]) }`. -/
def encOpt24 (flag : Bytes) (v : UInt32) : Bytes := if flag == [49] then (le32 v).take 3 else []

/-- `(*SrAdSensorsData).Encode`, egts_sr_ad_sensors_data.go:207-360.  Note the order of the
analog flags in lines 237-244 (1 first). -/
def SrAdSensorsData.encode (e : SrAdSensorsData) : Go Bytes := do
  let f1 ← parseFlags (e.DIOE8 ++ e.DIOE7 ++ e.DIOE6 ++ e.DIOE5 ++ e.DIOE4 ++ e.DIOE3 ++ e.DIOE2 ++ e.DIOE1) -- 216-227
  let f2 ← parseFlags (e.ASFE1 ++ e.ASFE2 ++ e.ASFE3 ++ e.ASFE4 ++ e.ASFE5 ++ e.ASFE6 ++ e.ASFE7 ++ e.ASFE8) -- 237-248
  pure ([f1, e.DOUT, f2]                                                -- 229-251
    ++ encOptByte e.DIOE1 e.ADIO1 ++ encOptByte e.DIOE2 e.ADIO2         -- 253-263
    ++ encOptByte e.DIOE3 e.ADIO3 ++ encOptByte e.DIOE4 e.ADIO4         -- 265-275
    ++ encOptByte e.DIOE5 e.ADIO5 ++ encOptByte e.DIOE6 e.ADIO6         -- 277-287
    ++ encOptByte e.DIOE7 e.ADIO7 ++ encOptByte e.DIOE8 e.ADIO8         -- 289-299
    ++ encOpt24 e.ASFE1 e.ANS1 ++ encOpt24 e.ASFE2 e.ANS2               -- 301-314
    ++ encOpt24 e.ASFE3 e.ANS3 ++ encOpt24 e.ASFE4 e.ANS4               -- 316-328
    ++ encOpt24 e.ASFE5 e.ANS5 ++ encOpt24 e.ASFE6 e.ANS6               -- 330-342
    ++ encOpt24 e.ASFE7 e.ANS7 ++ encOpt24 e.ASFE8 e.ANS8)              -- 344-356

end Egts
