import Verif.Spec.Wire
set_option autoImplicit false
/- The packet of packet-gen on the wire. Independent of the code. -/
namespace Egts

/-- the body of the packet, for object `oid`, raw coordinates `la` and `lo` and level `liq`: one record of 37 bytes of data with number 1, flags 13 (priority
2, event and object identifier present), object, event 3436, services 2 and 2; in it a position of 24 bytes (2021-02-20T00:30:40Z, the coordinates, flags 9B,
speed 34.0 km/h, direction 172, odometer 19.1 km, inputs 90, source 0, altitude 30 m) and a liquid level of 7 bytes (error flag set, sensor 1,
module 1) -/
def genBody (oid la lo liq : Nat) : Bytes :=
  [37, 0, 1, 0, 0x13] ++ leBytes 4 oid ++ leBytes 4 3436 ++ [2, 2] ++
  ([16, 24, 0] ++ leBytes 4 351477040 ++ leBytes 4 la ++ leBytes 4 lo ++ [0x9B] ++ leBytes 2 340 ++ [172] ++ leBytes 3 191 ++ [0x90, 0] ++ leBytes 3 30) ++
  ([27, 7, 0] ++ [0x41] ++ leBytes 2 1 ++ leBytes 4 liq)

/-- the header of the packet (without checksum), for packet identifier `pid`: version 1, key 0, priority 2, length 11, encoding 0, 52 bytes of body, type 1 -/
def genHead (pid : Nat) : Bytes := [1, 0, 2, 11, 0, 52, 0] ++ leBytes 2 pid ++ [1]

end Egts
