import Verif.Go.Platform
set_option autoImplicit false
/- Model of libs/egts/egts_sr_pos_data.go. -/
namespace Egts

/-- `SrPosData`, egts_sr_pos_data.go:13-34.  `NavigationTime` is the instant in nanoseconds
relative to 2010-01-01T00:00:00Z (`time.Time` without location and monotonic clock); the
default value is Go's zero `time.Time` (0001-01-01). `SourceData` (int16, never read or
written by the code) is kept as raw 16 bits. -/
structure SrPosData where
  NavigationTime : Int := -63397900800000000000
  Latitude : F64 := 0
  Longitude : F64 := 0
  ALTE : Bytes := []
  LOHS : Bytes := []
  LAHS : Bytes := []
  MV : Bytes := []
  BB : Bytes := []
  CS : Bytes := []
  FIX : Bytes := []
  VLD : Bytes := []
  DirectionHighestBit : UInt8 := 0
  AltitudeSign : UInt8 := 0
  Speed : UInt16 := 0
  Direction : UInt8 := 0
  Odometer : UInt32 := 0
  DigitalInputs : UInt8 := 0
  Source : UInt8 := 0
  Altitude : UInt32 := 0
  SourceData : UInt16 := 0
deriving DecidableEq

/-- egts_sr_pos_data.go:52: `startDate.Add(time.Duration(v) * time.Second)`. -/
def navTimeOfRaw (v : UInt32) : Int := (v.toNat : Int) * 1000000000

/-- egts_sr_pos_data.go:60: `float64(float64(v) * 90 / 0xFFFFFFFF)`. -/
def latOfRaw (v : UInt32) : F64 := fdiv (fmul (f64OfInt v.toNat) 90) 4294967295

/-- egts_sr_pos_data.go:67: `float64(float64(v) * 180 / 0xFFFFFFFF)`. -/
def lonOfRaw (v : UInt32) : F64 := fdiv (fmul (f64OfInt v.toNat) 180) 4294967295

/-- body of `(*SrPosData).Decode`, egts_sr_pos_data.go:37-130. -/
def SrPosData.decodeM : Dec SrPosData Unit := do
  let t4 ← Dec.read (zeros 4)                                           -- 47-50
  Dec.upd fun e => { e with NavigationTime := navTimeOfRaw (u32 t4) }   -- 51-52
  let t4 ← Dec.read t4                                                  -- 55-57 (same buffer)
  Dec.upd fun e => { e with Latitude := latOfRaw (u32 t4) }             -- 59-60
  let t4 ← Dec.read t4                                                  -- 63-65 (same buffer)
  Dec.upd fun e => { e with Longitude := lonOfRaw (u32 t4) }            -- 66-67
  let flags ← Dec.readByte                                              -- 70-72
  let fb := fmtBin 8 flags.toNat                                        -- 73
  Dec.upd fun e => { e with                                             -- 74-81
    ALTE := sl fb 0 1, LOHS := sl fb 1 2, LAHS := sl fb 2 3, MV := sl fb 3 4,
    BB := sl fb 4 5, CS := sl fb 5 6, FIX := sl fb 6 7, VLD := sl fb 7 8 }
  let t2 ← Dec.read (zeros 2)                                           -- 84-87
  let spd := u16 t2                                                     -- 88
  Dec.upd fun e => { e with                                             -- 89-90
    DirectionHighestBit := ((spd >>> 15) &&& 1).toUInt8,
    AltitudeSign := ((spd >>> 14) &&& 1).toUInt8 }
  let speedBits := fmtBin 16 spd.toNat                                  -- 92
  let speed ← (match parseUint2 (speedBits.drop 2) 16 with              -- 93-95
    | (n, none) => pure n
    | (_, some e) => Dec.fail e : Dec SrPosData Nat)
  Dec.upd fun e => { e with Speed := UInt16.ofNat speed / 10 }          -- 98
  Dec.readByteTo fun e b => { e with Direction := b }                   -- 100-102
  Dec.upd fun e => { e with Direction := e.Direction ||| (e.DirectionHighestBit <<< 7) } -- 103
  let t3 ← Dec.read (zeros 3)                                           -- 105-108
  Dec.upd fun e => { e with Odometer := u32 (t3 ++ [0]) }               -- 109-110
  Dec.readByteTo fun e b => { e with DigitalInputs := b }               -- 112-114
  Dec.readByteTo fun e b => { e with Source := b }                      -- 116-118
  let e ← Dec.get
  Dec.when (e.ALTE == [49]) do                                          -- 120
    let t4 ← Dec.read (zeros 4)                                         -- 121-124
    Dec.upd fun e => { e with Altitude := u32 t4 }                      -- 125

/-- `(*SrPosData).Decode`, egts_sr_pos_data.go:37-130. -/
def SrPosData.decode (e : SrPosData) (content : Bytes) : Out SrPosData :=
  SrPosData.decodeM.run e content

/-- `time.Time.Sub` saturates to int64 nanoseconds. -/
def satDuration (d : Int) : Int :=
  if d > 9223372036854775807 then 9223372036854775807
  else if d < -9223372036854775808 then -9223372036854775808 else d

/-- `Duration.Seconds()`: `float64(d/1e9) + float64(d%1e9)/1e9`. -/
def durSeconds (d : Int) : F64 :=
  fadd (f64OfInt (d.tdiv 1000000000)) (fdiv (f64OfInt (d.tmod 1000000000)) 1000000000)

/-- egts_sr_pos_data.go:143: `uint32(e.NavigationTime.Sub(startDate).Seconds())`. -/
def rawOfNavTime [Platform] (t : Int) : UInt32 := f2u32 (durSeconds (satDuration t))

/-- egts_sr_pos_data.go:148: `uint32(e.Latitude/90*0xFFFFFFFF)`. -/
def rawOfLat [Platform] (x : F64) : UInt32 := f2u32 (fmul (fdiv x 90) 4294967295)

/-- egts_sr_pos_data.go:153: `uint32(e.Longitude/180*0xFFFFFFFF)`. -/
def rawOfLon [Platform] (x : F64) : UInt32 := f2u32 (fmul (fdiv x 180) 4294967295)

/-- egts_sr_pos_data.go:168-169: the composed speed word. -/
def SrPosData.speedWord (e : SrPosData) : UInt16 :=
  (e.Speed * (10 : UInt16) ||| (e.DirectionHighestBit.toUInt16 <<< 15)) ||| (e.AltitudeSign.toUInt16 <<< 14)

/-- `(*SrPosData).Encode`, egts_sr_pos_data.go:133-206 (writes to a bytes.Buffer never fail). -/
def SrPosData.encode [Platform] (e : SrPosData) : Go Bytes := do
  let flags ← parseFlags                                                -- 158-161
    (e.ALTE ++ e.LOHS ++ e.LAHS ++ e.MV ++ e.BB ++ e.CS ++ e.FIX ++ e.VLD)
  pure (le32 (rawOfNavTime e.NavigationTime)                            -- 143
    ++ le32 (rawOfLat e.Latitude)                                       -- 148
    ++ le32 (rawOfLon e.Longitude)                                      -- 153
    ++ [flags]                                                          -- 163
    ++ le16 e.speedWord                                                 -- 168-172
    ++ [e.Direction &&& ~~~(e.DirectionHighestBit <<< 7)]               -- 176-177
    ++ (le32 e.Odometer).take 3                                         -- 181-183
    ++ [e.DigitalInputs, e.Source]                                      -- 187-191
    ++ (if e.ALTE == [49] then (le32 e.Altitude).take 3 else []))       -- 195-201

end Egts
