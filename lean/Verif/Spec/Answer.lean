import Verif.Spec.Wire
import Verif.Model.Crc
set_option autoImplicit false
/- Packets and the answers of the server, byte by byte. Independent of the code (CRC-8 and CRC-16 are those of C01, C02). -/
namespace Egts

/-- the packet with header bytes `hdr` (without checksum) and body `b`, with both checksums right -/
def packet (hdr b : Bytes) : Bytes := hdr ++ [crc8 hdr] ++ b ++ leBytes 2 (crc16 b).toNat

/-- the answer of the server to packet `pid`, byte by byte: header 01 00 00 0B 00, body length, the next identifier,
type 0, checksum; body: `pid`, result `code` and, if there are record numbers to confirm, one record with number 1, flags
20 (group), both services `st`, and for each number the subrecord 00 0300 number 00; checksum -/
def answerBytes (pid : Nat) (code st : UInt8) (rns : List Nat) : Bytes :=
  let records := if rns = [] then [] else leBytes 2 (6 * rns.length) ++ [1, 0, 0x20, st, st] ++
    rns.flatMap fun rn => [0, 3, 0] ++ leBytes 2 rn ++ [0]
  let body := leBytes 2 pid ++ [code] ++ records
  packet ([1, 0, 0, 11, 0] ++ leBytes 2 body.length ++ leBytes 2 (pid + 1) ++ [0]) body

end Egts
