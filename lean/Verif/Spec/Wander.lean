import Verif.Spec.Pos
import Verif.Model.SrPosData
set_option autoImplicit false
/- Positions that are passed on again and again. -/
namespace Egts
variable [P : Platform]

/-- the position `b` arrives as `c` after it has been decoded and encoded again by a chain of `n` programs -/
inductive Relayed (b : Bytes) : Nat → Bytes → Prop
  | sent : Relayed b 0 b
  | on {n : Nat} {m c : Bytes} {e : SrPosData} (before : Relayed b n m) (read : SrPosData.decode {} m = .ok e) (written : e.encode = .ok c) :
    Relayed b (n + 1) c

end Egts
