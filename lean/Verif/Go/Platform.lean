import Verif.Go.Basic
import Verif.Go.Float
set_option autoImplicit false
/-
External behaviour the model is parametric in.
-/
namespace Egts

/-- Everything the code delegates to something that is not in the repository and is not
described by the Go language/standard library specification.  All theorems hold for every
instance unless they state a hypothesis about it. -/
class Platform where
  /-- contents of a protobuf `StorageRecord` (libs/egts/egts_sr_egtsplus_data.go:193-239). -/
  PBMsg : Type
  /-- `StorageRecord{}`. -/
  pbEmpty : PBMsg
  /-- `proto.Unmarshal(content, m)`: on success the new message (Unmarshal resets `m` first);
  on failure the message is unspecified. -/
  pbUnmarshal : Bytes → Option PBMsg
  /-- `proto.Marshal(m)`. -/
  pbMarshal : PBMsg → Option Bytes
  /-- Go spec, "Conversions": float to integer conversion whose truncated value does not fit
  `uint32` is implementation-dependent. -/
  f2u32OutOfRange : F64 → UInt32

/-- `uint32(x)` for a float64 `x`. -/
def f2u32 [P : Platform] (x : F64) : UInt32 :=
  let t := ratTrunc x
  if 0 ≤ t ∧ t < 4294967296 then UInt32.ofNat t.toNat else P.f2u32OutOfRange x

end Egts
