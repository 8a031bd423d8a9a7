import Verif.Go.Basic
set_option autoImplicit false
/- Model of libs/egts/crc.go. -/
namespace Egts

/-- body of the inner loop of `crc8`, libs/egts/crc.go:9-13. -/
def crc8Bit (crc : UInt8) : UInt8 :=
  if crc &&& 0x80 ≠ 0 then (crc <<< 1) ^^^ 0x31 else crc <<< 1

/-- one iteration of the outer loop of `crc8`, libs/egts/crc.go:5-15 (`crc ^= b`, then 8 inner iterations). -/
def crc8Byte (crc b : UInt8) : UInt8 :=
  crc8Bit (crc8Bit (crc8Bit (crc8Bit (crc8Bit (crc8Bit (crc8Bit (crc8Bit (crc ^^^ b))))))))

/-- `crc8(data)`, libs/egts/crc.go:3-18. -/
def crc8 (data : Bytes) : UInt8 := data.foldl crc8Byte 0xFF

/-- body of the inner loop of `crc16`, libs/egts/crc.go:26-30. -/
def crc16Bit (crc : UInt16) : UInt16 :=
  if crc &&& 0x8000 ≠ 0 then (crc <<< 1) ^^^ 0x1021 else crc <<< 1

/-- one iteration of the outer loop of `crc16`, libs/egts/crc.go:22-32 (`crc ^= uint16(b) << 8`, then 8 inner iterations). -/
def crc16Byte (crc : UInt16) (b : UInt8) : UInt16 :=
  crc16Bit (crc16Bit (crc16Bit (crc16Bit (crc16Bit (crc16Bit (crc16Bit (crc16Bit
    (crc ^^^ (b.toUInt16 <<< 8)))))))))

/-- `crc16(data)`, libs/egts/crc.go:20-35. -/
def crc16 (data : Bytes) : UInt16 := data.foldl crc16Byte 0xFFFF

end Egts
