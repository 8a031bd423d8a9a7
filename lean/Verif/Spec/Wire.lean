import Verif.Go.Basic
set_option autoImplicit false
/- Vocabulary of the specifications: independent of the model of the code. -/
namespace Egts

/-- a one-bit flag string: `"0"` or `"1"` -/
def IsBit (s : Bytes) : Prop := s = [48] ∨ s = [49]

/-- a two-bit flag string -/
def IsBit2 (s : Bytes) : Prop := ∃ a b, IsBit a ∧ IsBit b ∧ s = a ++ b

/-- numeric value of a one-bit flag string -/
def bitv (s : Bytes) : Nat := if s = [49] then 1 else 0

/-- the `k` low-order bytes of `n`, least significant first -/
def leBytes : Nat → Nat → Bytes
  | 0, _ => []
  | k + 1, n => UInt8.ofNat (n % 256) :: leBytes k (n / 256)

/-- value of a little-endian byte string -/
def leValue : Bytes → Nat
  | [] => 0
  | b :: bs => b.toNat + 256 * leValue bs

end Egts
