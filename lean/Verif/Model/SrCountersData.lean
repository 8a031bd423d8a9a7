import Verif.Model.SrAdSensorsData
set_option autoImplicit false
/- Model of libs/egts/egts_sr_counters_data.go. -/
namespace Egts

/-- `SrCountersData`, egts_sr_counters_data.go:12-29; fields named by their JSON tags
(CFEi = CounterFieldExistsi, CNi = Counteri). -/
structure SrCountersData where
  CFE1 : Bytes := []
  CFE2 : Bytes := []
  CFE3 : Bytes := []
  CFE4 : Bytes := []
  CFE5 : Bytes := []
  CFE6 : Bytes := []
  CFE7 : Bytes := []
  CFE8 : Bytes := []
  CN1 : UInt32 := 0
  CN2 : UInt32 := 0
  CN3 : UInt32 := 0
  CN4 : UInt32 := 0
  CN5 : UInt32 := 0
  CN6 : UInt32 := 0
  CN7 : UInt32 := 0
  CN8 : UInt32 := 0
deriving DecidableEq

/-- body of `(*SrCountersData).Decode`, egts_sr_counters_data.go:32-119 (one shared
three-byte buffer).  Line 68 assigns the second counter to `Counter1`. -/
def SrCountersData.decodeM : Dec SrCountersData Unit := do
  let flags ← Dec.readByte                                              -- 40
  let fb := fmtBin 8 flags.toNat                                        -- 43
  Dec.upd fun e => { e with                                             -- 45-52
    CFE8 := sl fb 0 1, CFE7 := sl fb 1 2, CFE6 := sl fb 2 3, CFE5 := sl fb 3 4,
    CFE4 := sl fb 4 5, CFE3 := sl fb 5 6, CFE2 := sl fb 6 7, CFE1 := sl fb 7 8 }
  let tmp ← Dec.optRead (·.CFE1) (zeros 3) u24 fun e v => { e with CN1 := v }     -- 54-61
  let tmp ← Dec.optRead (·.CFE2) tmp u24 fun e v => { e with CN1 := v }           -- 63-69 (sic)
  let tmp ← Dec.optRead (·.CFE3) tmp u24 fun e v => { e with CN3 := v }           -- 71-77
  let tmp ← Dec.optRead (·.CFE4) tmp u24 fun e v => { e with CN4 := v }           -- 79-85
  let tmp ← Dec.optRead (·.CFE5) tmp u24 fun e v => { e with CN5 := v }           -- 87-93
  let tmp ← Dec.optRead (·.CFE6) tmp u24 fun e v => { e with CN6 := v }           -- 95-101
  let tmp ← Dec.optRead (·.CFE7) tmp u24 fun e v => { e with CN7 := v }           -- 103-109
  let _ ← Dec.optRead (·.CFE8) tmp u24 fun e v => { e with CN8 := v }             -- 111-117
  pure ()

/-- `(*SrCountersData).Decode`, egts_sr_counters_data.go:32-119. -/
def SrCountersData.decode (e : SrCountersData) (content : Bytes) : Out SrCountersData :=
  SrCountersData.decodeM.run e content

/-- `(*SrCountersData).Encode`, egts_sr_counters_data.go:122-205. -/
def SrCountersData.encode (e : SrCountersData) : Go Bytes := do
  let f ← parseFlags (e.CFE8 ++ e.CFE7 ++ e.CFE6 ++ e.CFE5 ++ e.CFE4 ++ e.CFE3 ++ e.CFE2 ++ e.CFE1) -- 129-140
  pure ([f]
    ++ encOpt24 e.CFE1 e.CN1 ++ encOpt24 e.CFE2 e.CN2                   -- 145-158
    ++ encOpt24 e.CFE3 e.CN3 ++ encOpt24 e.CFE4 e.CN4                   -- 160-172
    ++ encOpt24 e.CFE5 e.CN5 ++ encOpt24 e.CFE6 e.CN6                   -- 174-186
    ++ encOpt24 e.CFE7 e.CN7 ++ encOpt24 e.CFE8 e.CN8)                  -- 188-200

end Egts
