import Verif.Spec.Decode
import Verif.Spec.Fault
set_option autoImplicit false
/- Why a packet is rejected: result code and error, from the bytes alone. -/
namespace Egts
open Frame

/-- the error that reports a fault: `eof` is "the input ends", the errors about subrecords quote type, length and content -/
def errOf : Fault → Err
  | .ends => .eof
  | .size => .badSize
  | .unknown t n c => .unknownSubrecord t (UInt16.ofNat n) c
  | .accel n c => .accelNotImplemented (UInt16.ofNat n) c
  | .telematic => .proto

/-- the packet `c`, in a slice that goes on with `spare`, is rejected with this result code and this error; the reasons are in the order in which they are looked for, and
each one presupposes that those before it do not apply. `T` says which contents are telematic messages. -/
inductive Rejected (T : Bytes → Prop) (c spare : Bytes) : UInt8 → Err → Prop
  /-- incomplete header -/
  | header (h : c.length < headerSize c) : Rejected T c spare 131 .eof
  /-- wrong header checksum -/
  | headerSum (h1 : headerSize c ≤ c.length) (h2 : checkedHeader c ≤ (c ++ spare).length)
      (h3 : byteAt c (headerSize c - 1) ≠ crc8 ((c ++ spare).take (checkedHeader c))) : Rejected T c spare 137 .headerCrc
  /-- nothing after the header -/
  | empty (h : HeaderOk c spare) (hl : c.length = headerSize c) : Rejected T c spare 132 .eof
  /-- neither a data packet nor an answer -/
  | type (h : HeaderOk c spare) (hl : headerSize c < c.length) (h0 : byteAt c 9 ≠ 0) (h1 : byteAt c 9 ≠ 1) :
      Rejected T c spare 133 (.unsupportedPacketType (byteAt c 9))
  /-- the body has a fault -/
  | body {f : Fault} (h : HeaderOk c spare) (hl : headerSize c < c.length) (hf : BodyFault T (byteAt c 9) (decodedBody c) f) : Rejected T c spare 129 (errOf f)
  /-- nothing after the body -/
  | noSum (h : HeaderOk c spare) (hl : headerSize c < c.length) (hb : BodyText T (byteAt c 9) (decodedBody c)) (he : c.length ≤ headerSize c + declaredFDL c) :
      Rejected T c spare 129 .eof
  /-- wrong checksum of the body -/
  | bodySum (h : HeaderOk c spare) (hb : BodyText T (byteAt c 9) (decodedBody c)) (he : headerSize c + declaredFDL c < c.length)
      (h1 : declaredHL c ≤ checkedEnd c) (h2 : checkedEnd c ≤ (c ++ spare).length)
      (hs : sentChecksum c ≠ (crc16 (((c ++ spare).drop (declaredHL c)).take (checkedEnd c - declaredHL c))).toNat) : Rejected T c spare 137 .bodyCrc

end Egts
