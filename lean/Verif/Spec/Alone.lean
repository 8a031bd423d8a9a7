import Verif.Spec.Stream
set_option autoImplicit false
/- What the outcome of a connection depends on. Independent of the code. -/
namespace Egts
open Frame
variable [P : Platform]

/-- an action without the time at which the record was received -/
def Effect.timeless : Effect → Effect
  | .write b => .write b
  | .save r => .save { r with ReceivedDt := [] }

end Egts
