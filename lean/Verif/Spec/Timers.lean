import Verif.Model.Timers
import Verif.Spec.Stream
set_option autoImplicit false
/- When the packets of a client are taken up, and how many timers run. -/
namespace Egts

/-- number of timers that are armed at the moment `T` -/
def runningAt (T : Int) (l : List Armed) : Nat := (l.filter fun x => decide (x.1 ≤ T ∧ T < x.2)).length

/-- the moments at which packets that arrive at the moments `ts` are taken up, if the server is ready at `ready` and is busy for `delay k`
with packet `k`: when it has arrived and the server is ready -/
def takenUp (delay : Nat → Nat) : Nat → Int → List Int → List Int
  | _, _, [] => []
  | k, ready, t :: ts => max ready t :: takenUp delay (k + 1) (max ready t + delay k) ts

/-- the moment at which all of them have been processed -/
def doneAt (delay : Nat → Nat) : Nat → Int → List Int → Int
  | _, ready, [] => ready
  | k, ready, t :: ts => doneAt delay (k + 1) (max ready t + delay k) ts

end Egts
