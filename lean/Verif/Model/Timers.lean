import Verif.Model.Timer
set_option autoImplicit false
/- The timers of a connection: server.go:79, 87. No timer is ever stopped: with the Go of the Dockerfile (1.18; up to 1.22) a timer stays in the
runtime until it fires, also when nobody can receive from its channel any more. A timer that has fired is not held by the runtime; `Reset`
arms it again. -/
namespace Egts

/-- from when until when a timer is armed -/
abbrev Armed := Int × Int

/-- the timer of one iteration that begins at `t0`: armed at once (79), and again when the header of a packet is complete (87);
server.go:79-87 -/
def armedBy (ttl : Int) (tail : TimedTail) (t0 : Int) (chunks : List (Int × Bytes)) : List Armed :=
  match readFullAt tail t0 10 [] chunks with                            -- 82-83
  | .full th _ _ => [(t0, min th (t0 + ttl)), (th, th + ttl)]           -- 79, 87
  | _ => [(t0, t0 + ttl)]                                               -- 79

variable [P : Platform]

/-- the stretches of time during which a timer of the connection is armed. The reads and the rest of the loop are as in `connLoopAt` (server.go:72-316). -/
def connTimers (ttl : Int) (delay : Nat → Nat) (env : Env) (tail : TimedTail) :
    Nat → Int → Nat → LoopVars → List (Int × Bytes) → List Armed
  | 0, _, _, _, _ => []
  | fuel + 1, t0, k, v, chunks =>
    armedBy ttl tail t0 chunks ++
    (match recvPacketAt ttl tail t0 chunks with
      | .stop _ _ => []
      | .packet t c rest =>
        match handlePacket (env.now k) (env.spare k) v.reset c with
        | .done _ v => connTimers ttl delay env tail fuel (t + delay k) (k + 1) v rest
        | _ => [])

/-- the timers of a connection that is accepted at `start` (server.go:55-317) -/
def handleTimers (ttl : Int) (delay : Nat → Nat) (env : Env) (tail : TimedTail) (start : Int) (chunks : List (Int × Bytes)) : List Armed :=
  connTimers ttl delay env tail ((chunks.map (·.2)).flatten.length + 1) start 0 {} chunks

end Egts
