import Verif.Model.Server
set_option autoImplicit false
/- Model of the calls of conn.Write in cli/receiver/server/server.go for a client that stops reading. -/
namespace Egts
variable [P : Platform]

/-- how a handler ends, or that it is blocked in conn.Write (server.go:133, 304, 309) -/
inductive EndW where
  | ended (e : End)
  | blockedInWrite
deriving DecidableEq

/-- the actions of a handler, in program order, towards a client for which only `room` more bytes can be written (the bytes the client will
still read plus the buffers of the operating systems). `conn.Write` (server.go:133, 304, 309) returns if all its bytes can be written;
otherwise it does not return: no write deadline is ever set and connTimer (server.go:79, 87, 111) is looked at only after the end of the
stream. Nothing after it is executed. A write that does not return is not listed. (A write to a connection that was reset returns an error, which is
ignored; that is the case of enough room.) -/
def withRoom : Nat → List Effect → List Effect × Bool
  | _, [] => ([], false)
  | r, .save x :: es => (.save x :: (withRoom r es).1, (withRoom r es).2)
  | r, .write b :: es => if b.length ≤ r then (.write b :: (withRoom (r - b.length) es).1, (withRoom (r - b.length) es).2) else ([], true)

/-- `handleConn`, server.go:55-317, towards such a client. The actions do not depend on the results of the writes, which are ignored. -/
def handleConnW (env : Env) (hasStore : Bool) (tail : Tail) (room : Nat) (chunks : List Bytes) : List Effect × EndW :=
  let (es, e) := handleConn env hasStore tail chunks
  let (es', blocked) := withRoom room es
  (es', if blocked then .blockedInWrite else .ended e)

end Egts
