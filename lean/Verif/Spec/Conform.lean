import Verif.Spec.Body
import Verif.Spec.Server
import Verif.Spec.Answer
set_option autoImplicit false
/- Packets as the standard describes them, byte by byte. Independent of the code (CRC-8 and CRC-16 are those of C01, C02). -/
namespace Egts
open Frame
variable [P : Platform]

/-- `hdr` is a right header for a packet of type `t` with identifier `pid` and a body of `n` bytes: protocol version 1,
ten bytes, or 15 if the routing flag is set; header length (with checksum), body length, identifier and type in
their places. The other bytes (key, other flags, encoding, routing fields) are arbitrary. -/
structure RightHeader (hdr : Bytes) (t : UInt8) (pid n : Nat) : Prop where
  version : byteAt hdr 0 = 1
  size : hdr.length + 1 = headerSize hdr
  hl : declaredHL hdr = headerSize hdr
  fdl : declaredFDL hdr = n
  pid : word16At hdr 7 = pid
  type : byteAt hdr 9 = t

/-- `c` is a data packet as the standard describes it, with identifier `pid` and records `l`; the whole packet has less
than 65536 bytes -/
def DataPacket (c : Bytes) (pid : Nat) (l : List ServiceDataRecord) : Prop :=
  ∃ hdr b, c = packet hdr b ∧ c.length < 65536 ∧ b ≠ [] ∧ RightHeader hdr 1 pid b.length ∧ CompleteRecords b l

/-- `c` is a RESPONSE packet as the standard describes it: its own identifier `pid`, the identifier `rpid` of the answered
packet, a result, and records `l` -/
def ResponsePacket (c : Bytes) (pid rpid : Nat) (result : UInt8) (l : List ServiceDataRecord) : Prop :=
  ∃ hdr b, c = packet hdr (leBytes 2 rpid ++ [result] ++ b) ∧ c.length < 65536 ∧ rpid < 65536 ∧
    RightHeader hdr 0 pid (3 + b.length) ∧ CompleteRecords b l

/-- `b` is the body of a packet of type `t` that holds `body`: type 1, a sequence of records (`Records`); type 0, the
identifier of the answered packet, a result and, if there is anything more, a sequence of records -/
def BodyOf (t : UInt8) (b : Bytes) : Body → Prop
  | .appdata l => t = 1 ∧ Records b l
  | .response r => t = 0 ∧ ∃ b', b = leBytes 2 r.ResponsePacketID.toNat ++ [r.ProcessingResult] ++ b' ∧
      (b' = [] ∧ r.SDR = none ∨ b' ≠ [] ∧ ∃ l, r.SDR = some l ∧ Records b' l)

end Egts
