import Verif.Model.Server
set_option autoImplicit false
/- The connection handler with time: server.go:72-117 again, now with the moments at which bytes arrive and with `connTimer`.
Times are nanoseconds since some origin. The rest of the handler is as in Model/Server.lean. -/
namespace Egts
variable [P : Platform]

/-- when and how the peer ends the connection (server.go:83, 103) -/
inductive TimedTail where
  | eof (t : Int)
  | error (t : Int)
  | silent

/-- forget the time (server.go:83, 103) -/
def TimedTail.tail : TimedTail → Tail
  | .eof _ => .eof
  | .error _ => .error
  | .silent => .silent

/-- result of `io.ReadFull` and the moment it returns (server.go:83, 103) -/
inductive TimedRead where
  | full (t : Int) (b : Bytes) (rest : List (Int × Bytes))
  | eof (t : Int)
  | failed (t : Int)
  | blocked

/-- `io.ReadFull` called at `now`: every byte string of the connection becomes readable at its arrival time (server.go:83, 103) -/
def readFullAt (tail : TimedTail) : Int → Nat → Bytes → List (Int × Bytes) → TimedRead
  | now, 0, acc, chunks => .full now acc chunks
  | now, _ + 1, acc, [] =>
    match tail with
    | .eof t => if acc = [] then .eof (max now t) else .failed (max now t)
    | .error t => .failed (max now t)
    | .silent => .blocked
  | now, n + 1, acc, (t, ch) :: rest =>
    if n + 1 < ch.length then .full (max now t) (acc ++ ch.take (n + 1)) ((t, ch.drop (n + 1)) :: rest)
    else readFullAt tail (max now t) (n + 1 - ch.length) (acc ++ ch) rest

/-- result of lines 79-117: a packet and the moment it is complete, or the end of the handler and its moment (`none`: it
waits). -/
inductive TimedRecv where
  | packet (t : Int) (c : Bytes) (rest : List (Int × Bytes))
  | stop (e : End) (t : Option Int)

/-- reading one packet in an iteration that begins at `t0`, server.go:79-117. -/
def recvPacketAt (ttl : Int) (tail : TimedTail) (t0 : Int) (chunks : List (Int × Bytes)) : TimedRecv :=
  let timer := t0 + ttl                                                 -- 79: connTimer fires at this moment
  match readFullAt tail t0 10 [] chunks with                            -- 82-83
  | .eof t => .stop .closedByTimer (some (max t timer))                 -- 110-113: <-connTimer.C
  | .failed t => .stop .closed (some t)                                 -- 114-116
  | .blocked => .stop .waiting none
  | .full t hdr rest =>                                                 -- 87: the timer is reset, nobody waits for it any more
    if hdr.getD 0 0 ≠ 1 then .stop .closed (some t)                     -- 90-93
    else
      match readFullAt tail t (restLen hdr).toNat [] rest with          -- 102-103
      | .full t buf rest => .packet t (hdr ++ buf) rest                 -- 109
      | .blocked => .stop .waiting none
      | .eof t => .stop .closed (some t)                                -- 104-105
      | .failed t => .stop .closed (some t)

/-- how a handler ends, in time (server.go:79-117) -/
structure TimedEnd where
  e : End
  /-- when the handler began to wait for the packet that did not come -/
  since : Int
  /-- when the connection was closed (`none`: never) -/
  closed : Option Int

/-- the loop of `handleConn` with time; `delay k` is the time the processing of packet `k` takes (server.go:72-316) -/
def connLoopAt (ttl : Int) (delay : Nat → Nat) (env : Env) (tail : TimedTail) :
    Nat → Int → Nat → LoopVars → List (Int × Bytes) → List Effect × TimedEnd
  | 0, t0, _, _, _ => ([], ⟨.diverged, t0, none⟩)
  | fuel + 1, t0, k, v, chunks =>
    match recvPacketAt ttl tail t0 chunks with
    | .stop e t => ([], ⟨e, t0, t⟩)
    | .packet t c rest =>
      match handlePacket (env.now k) (env.spare k) v.reset c with
      | .panic => ([], ⟨.crashed, t0, none⟩)
      | .diverge => ([], ⟨.diverged, t0, none⟩)
      | .done l v =>
        let (l', e) := connLoopAt ttl delay env tail fuel (t + delay k) (k + 1) v rest
        (l ++ l', e)

/-- `handleConn` with time; the connection is accepted at `start` (server.go:55-317) -/
def handleConnAt (ttl : Int) (delay : Nat → Nat) (env : Env) (tail : TimedTail) (start : Int) (chunks : List (Int × Bytes)) :
    List Effect × TimedEnd :=
  connLoopAt ttl delay env tail ((chunks.map (·.2)).flatten.length + 1) start 0 {} chunks

end Egts
