import Verif.Model.Gate
import Verif.Spec.Server
set_option autoImplicit false
/- What is observed of the process, per connection. -/
namespace Egts
variable [P : Platform]

/-- the action that was performed, whatever its outcome -/
def Done.effect : Done → Effect
  | .wrote b => .write b
  | .saved r => .save r
  | .saveFailed r => .save r

/-- everything done for connection `i`, in order -/
def Gate.doneFor {W : Type} (g : Gate W) (i : Nat) : List Done := (g.log.filter (·.1 == i)).map (·.2)

/-- the actions performed for connection `i`, in order: what was sent to it and the records given to the storages -/
def Gate.did {W : Type} (g : Gate W) (i : Nat) : List Effect := (g.doneFor i).map Done.effect

/-- the handler has nothing to do: letting it run changes nothing -/
def Settled {W : Type} (ss : List (Saver W)) (env : Env) (c : Conn W) : Prop := ∀ w, c.run ss env w = (c, [], w, false)

/-- the state of the handler as seen from outside -/
def Conn.state {W : Type} (c : Conn W) : End :=
  match c.phase with
  | .ended e => e
  | _ => .waiting

/-- what the events `evs` bring for connection `i`: the bytes sent until the peer closes or resets it, and whether it does
(`silent`: not yet) -/
def streamTo (i : Nat) : List Event → Bytes × Tail
  | [] => ([], .silent)
  | .deliver j b :: evs => if j = i then (b ++ (streamTo i evs).1, (streamTo i evs).2) else streamTo i evs
  | .finish j t :: evs => if j = i ∧ t ≠ .silent then ([], t) else streamTo i evs
  | .accept :: evs => streamTo i evs
  | .stop :: evs => streamTo i evs
  | .step _ :: evs => streamTo i evs

end Egts
