import Verif.Spec.Gate
import Verif.Spec.Frame
set_option autoImplicit false
/- A device that sends a packet until it is confirmed, seen over any number of runs of the process: what a confirmation is, what it means that a storage keeps
what it is given, and what happens from one run of the process to the next. Independent of the handler. -/
namespace Egts
open Frame

/-- the packet `b` confirms the packet with identifier `pid`: it is a RESPONSE (type 0) with an unrouted header of eleven bytes, and its body starts with
`pid` and the result 0 (EGTS_PC_OK) -/
def Confirms (b : Bytes) (pid : Nat) : Prop := byteAt b 9 = 0 ∧ byteAt b 3 = 11 ∧ word16At b 11 = pid ∧ byteAt b 13 = 0

instance (b : Bytes) (pid : Nat) : Decidable (Confirms b pid) := inferInstanceAs (Decidable (_ ∧ _))

/-- the storage `s` keeps what it accepts: afterwards the outside world has the record, and no later call of any of the storages `ss` takes it away -/
structure KeepsAll {W : Type} (ss : List (Saver W)) (s : Saver W) (has : NavRecord → W → Prop) : Prop where
  kept : ∀ r w, (s.save r w).1 = .ok → has r (s.save r w).2
  stays : ∀ t ∈ ss, ∀ r r' w, has r w → has r (t.save r' w).2

variable [P : Platform]

/-- one run of the process: what its environment decides, and its history from the start of the process to the moment when it is killed (or dies): any
list of events, so any point of any execution -/
structure Life where
  envs : Nat → Env
  evs : List Event

/-- the state of the process at the end of a run that starts when the outside world is `w` -/
def Life.gate {W : Type} (ss : List (Saver W)) (w : W) (x : Life) : Gate W := Gate.run ss x.envs w x.evs

/-- the outside world after the runs `lives`: each run finds what the run before it has left; everything else is lost -/
def worldAfter {W : Type} (ss : List (Saver W)) (w : W) (lives : List Life) : W := lives.foldl (fun w x => (x.gate ss w).world) w

end Egts
