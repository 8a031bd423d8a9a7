import Verif.Go.Basic
set_option autoImplicit false
/- Model of libs/egts/egts_sr_ext_pos_data.go. -/
namespace Egts

/-- `SrExtPosData`, egts_sr_ext_pos_data.go:12-23. -/
structure SrExtPosData where
  NavigationSystemFieldExists : Bytes := []
  SatellitesFieldExists : Bytes := []
  PdopFieldExists : Bytes := []
  HdopFieldExists : Bytes := []
  VdopFieldExists : Bytes := []
  VerticalDilutionOfPrecision : UInt16 := 0
  HorizontalDilutionOfPrecision : UInt16 := 0
  PositionDilutionOfPrecision : UInt16 := 0
  Satellites : UInt8 := 0
  NavigationSystem : UInt16 := 0
deriving DecidableEq

/-- body of `(*SrExtPosData).Decode`, egts_sr_ext_pos_data.go:26-81. -/
def SrExtPosData.decodeM : Dec SrExtPosData Unit := do
  let tmp := zeros 2                                                    -- 31
  let flags ← Dec.readByte                                              -- 35
  let fb := fmtBin 8 flags.toNat                                        -- 38
  Dec.upd fun e => { e with                                             -- 40-44
    NavigationSystemFieldExists := sl fb 3 4, SatellitesFieldExists := sl fb 4 5,
    PdopFieldExists := sl fb 5 6, HdopFieldExists := sl fb 6 7, VdopFieldExists := sl fb 7 8 }
  let tmp ← Dec.optRead (·.VdopFieldExists) tmp u16 fun e v => { e with VerticalDilutionOfPrecision := v }    -- 46-51
  let tmp ← Dec.optRead (·.HdopFieldExists) tmp u16 fun e v => { e with HorizontalDilutionOfPrecision := v }  -- 53-58
  let tmp ← Dec.optRead (·.PdopFieldExists) tmp u16 fun e v => { e with PositionDilutionOfPrecision := v }    -- 60-65
  Dec.optByte (·.SatellitesFieldExists) fun e b => { e with Satellites := b }  -- 67-71
  let _ ← Dec.optRead (·.NavigationSystemFieldExists) tmp u16 fun e v => { e with NavigationSystem := v }     -- 73-78
  pure ()

/-- `(*SrExtPosData).Decode`, egts_sr_ext_pos_data.go:26-81. -/
def SrExtPosData.decode (e : SrExtPosData) (content : Bytes) : Out SrExtPosData :=
  SrExtPosData.decodeM.run e content

/-- `(*SrExtPosData).Encode`, egts_sr_ext_pos_data.go:84-136. -/
def SrExtPosData.encode (e : SrExtPosData) : Go Bytes := do
  let flags ← parseFlags ([48, 48, 48] ++ e.NavigationSystemFieldExists ++ e.SatellitesFieldExists
    ++ e.PdopFieldExists ++ e.HdopFieldExists ++ e.VdopFieldExists)     -- 94-98
  pure ([flags]
    ++ (if e.VdopFieldExists == [49] then le16 e.VerticalDilutionOfPrecision else [])    -- 104-108
    ++ (if e.HdopFieldExists == [49] then le16 e.HorizontalDilutionOfPrecision else [])  -- 110-114
    ++ (if e.PdopFieldExists == [49] then le16 e.PositionDilutionOfPrecision else [])    -- 116-120
    ++ (if e.SatellitesFieldExists == [49] then [e.Satellites] else [])                  -- 122-126
    ++ (if e.NavigationSystemFieldExists == [49] then le16 e.NavigationSystem else []))  -- 128-132

end Egts
