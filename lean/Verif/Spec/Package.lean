import Verif.Spec.SubRecord
import Verif.Spec.Frame
import Verif.Model.Package
set_option autoImplicit false
/- Well-formed packages, and what a package looks like after a round trip. -/
namespace Egts
variable [P : Platform]

/-- number of header bytes of a package, including HCS: 11, or 16 with routing fields -/
def Package.headerBytes (p : Package) : Nat := if p.Route = [49] then 16 else 11

/-- flag strings of a package header have their widths -/
def Package.FlagsOk (p : Package) : Prop :=
  IsBit2 p.Prefix ∧ IsBit p.Route ∧ IsBit2 p.EncryptionAlg ∧ IsBit p.Compression ∧ IsBit2 p.Priority

/-- the encoded body of a package -/
def Package.HasBody (p : Package) (b : Bytes) : Prop :=
  match p.ServicesFrameData with
  | none => b = []
  | some (.appdata l) => ServiceDataSet.encode l = .ok b
  | some (.response r) => r.encode = .ok b

/-- a well-formed package: flags of their widths, header length right or left 0 to be filled in, APPDATA with at
least one record, all well-formed, or RESPONSE with a well-formed response, and a total length that fits 16 bits -/
structure Package.WellFormed (p : Package) : Prop where
  flags : p.FlagsOk
  hl : p.HeaderLength = 0 ∨ p.HeaderLength.toNat = p.headerBytes
  body : (p.PacketType = 1 ∧ ∃ l, p.ServicesFrameData = some (.appdata l) ∧ l ≠ [] ∧ ∀ e ∈ l, e.WellFormed) ∨
    (p.PacketType = 0 ∧ ∃ r, p.ServicesFrameData = some (.response r) ∧ r.WellFormed)
  fits : ∀ b, p.HasBody b → p.headerBytes + b.length < 65536

/-- the same body -/
def Body.Same : Body → Body → Prop
  | .appdata l, b' => ∃ l', b' = .appdata l' ∧ List.Forall₂ ServiceDataRecord.Same l l'
  | .response r, b' => ∃ r', b' = .response r' ∧ r.Same r'

/-- what package `p` with encoded body `b` and encoding `out` looks like after a round trip when its body has become
`body`: lengths and checksums filled in, routing fields that are not sent 0 -/
def Package.received (p : Package) (out b : Bytes) (body : Body) : Package := { p with
  HeaderLength := UInt8.ofNat p.headerBytes
  FrameDataLength := UInt16.ofNat b.length
  PeerAddress := if p.Route = [49] then p.PeerAddress else 0
  RecipientAddress := if p.Route = [49] then p.RecipientAddress else 0
  TimeToLive := if p.Route = [49] then p.TimeToLive else 0
  HeaderCheckSum := crc8 (out.take (p.headerBytes - 1))
  ServicesFrameData := some body
  ServicesFrameDataCheckSum := crc16 b }

end Egts
