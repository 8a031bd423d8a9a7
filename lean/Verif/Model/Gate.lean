import Verif.Model.Storage
set_option autoImplicit false
/- Model of the whole process: `Run` and `Stop` (cli/receiver/server/server.go:27-53) and any number of connection handlers
(goroutines, server.go:42) that share the storages. Between two steps of one goroutine the scheduler may run any other one.
The unit of interleaving is one call of a storage, one `conn.Write`, or reading and decoding one packet (which touches no
shared state). Not modelled: a `conn.Write` that blocks (a peer that does not read), and calls of one driver that overlap in time
(the drivers serialise them). -/
namespace Egts
variable [P : Platform]

/-- where a handler is in its loop (server.go:72-316). -/
inductive Phase (W : Type) where
  /-- about to read the next packet (line 74) -/
  | idle
  /-- the actions of the current packet that are still to be done (lines 133, 293-309) -/
  | acting (todo : List Effect)
  /-- inside `s.store.Save` (line 294): the storages not yet asked, and the actions to be done afterwards -/
  | saving (r : NavRecord) (left : List (Saver W)) (todo : List Effect)
  /-- the handler has returned -/
  | ended (e : End)

/-- a connection and its handler (the local state of cli/receiver/server/server.go:55-317) -/
structure Conn (W : Type) where
  /-- everything that has arrived so far (not a variable of the program: the history of the connection) -/
  received : Bytes := []
  /-- the part of it that has not been read yet -/
  unread : Bytes := []
  /-- `silent`: the peer has not closed its side yet -/
  tail : Tail := .silent
  /-- the variables of the handler that survive an iteration, server.go:58-64 -/
  vars : LoopVars := {}
  /-- number of packets read -/
  count : Nat := 0
  phase : Phase W := .idle

/-- the process (cli/receiver/server/server.go:19-53 and the goroutines started in line 42) -/
structure Gate (W : Type) where
  conns : List (Conn W) := []
  /-- everything done so far, with the number of the connection it was done for -/
  log : List (Nat × Done) := []
  /-- state of everything outside: the databases and queues -/
  world : W
  /-- the process has died of a panic -/
  crashed : Bool := false
  /-- the listener has been closed by `Stop` -/
  stopped : Bool := false
  /-- `Run` has not returned (it has no way to: neither branch of lines 38-43 leaves the loop) -/
  running : Bool := true
  /-- number of times the loop of `Run` has logged an error (line 40) -/
  acceptErrors : Nat := 0

/-- what can happen next (cli/receiver/server/server.go:38, 47-53, 83, 103) -/
inductive Event where
  /-- `Accept` returns (line 38) -/
  | accept
  /-- somebody calls `Stop` (lines 47-53) -/
  | stop
  /-- bytes arrive on connection `i` -/
  | deliver (i : Nat) (b : Bytes)
  /-- connection `i` is closed (`eof`) or reset (`error`) by the peer -/
  | finish (i : Nat) (t : Tail)
  /-- the scheduler lets handler `i` do one step -/
  | step (i : Nat)

/-- one step of a handler; `ss` are the registered storages, `env` what the run-time environment decides for the packets of
this connection. Result: the connection, what was done, the outside world, and whether the process died (cli/receiver/server/server.go:72-316) -/
def Conn.run {W : Type} (ss : List (Saver W)) (env : Env) (c : Conn W) (w : W) : Conn W × List Done × W × Bool :=
  match c.phase with
  | .ended _ => (c, [], w, false)
  | .idle =>
    match recvPacket c.tail [c.unread] with                             -- 79-117
    | .stop .waiting => (c, [], w, false)
    | .stop e => ({ c with phase := .ended e }, [], w, false)
    | .packet p rest =>
      match handlePacket (env.now c.count) (env.spare c.count) c.vars.reset p with -- 119-314
      | .panic => (c, [], w, true)
      | .diverge => ({ c with phase := .ended .diverged }, [], w, false)
      | .done l v => ({ c with unread := rest.flatten, vars := v, count := c.count + 1, phase := .acting l }, [], w, false)
  | .acting [] => ({ c with phase := .idle }, [], w, false)
  | .acting (.write b :: l) => ({ c with phase := .acting l }, [.wrote b], w, false) -- 133, 304, 309
  | .acting (.save r :: l) => ({ c with phase := .saving r ss l }, [], w, false) -- 294, store.go:49
  | .saving r [] l => ({ c with phase := .acting l }, [.saved r], w, false) -- store.go:54
  | .saving r (s :: left) l =>                                          -- store.go:50
    match s.save r w with
    | (.ok, w) => ({ c with phase := .saving r left l }, [], w, false)
    | (.err _, w) => ({ c with phase := .acting l }, [.saveFailed r], w, false) -- store.go:51, server.go:295
    | (.panic, w) => (c, [], w, true)

/-- the connection can still take data from the network: the handler has not closed it and the peer has not either (cli/receiver/server/server.go:56, 83) -/
def Conn.open {W : Type} (c : Conn W) : Bool :=
  match c.phase, c.tail with
  | .ended _, _ => false
  | _, .silent => true
  | _, _ => false

/-- one event. After a panic nothing happens any more (cli/receiver/server/server.go:37-53) -/
def Gate.next {W : Type} (ss : List (Saver W)) (envs : Nat → Env) (g : Gate W) (ev : Event) : Gate W :=
  if g.crashed then g
  else match ev with
    | .accept =>
      if g.stopped then { g with                                        -- Accept on a closed listener fails
        acceptErrors := g.acceptErrors + 1                              -- 39-40
        running := true }                                               -- and on with the loop
      else { g with conns := g.conns ++ [{}] }                          -- 42
    | .stop => { g with stopped := true }                               -- 49
    | .deliver i b =>
      match g.conns[i]? with
      | none => g
      | some c => if c.open then { g with conns := g.conns.set i { c with received := c.received ++ b, unread := c.unread ++ b } } else g
    | .finish i t =>
      match g.conns[i]? with
      | none => g
      | some c => if c.open then { g with conns := g.conns.set i { c with tail := t } } else g
    | .step i =>
      match g.conns[i]? with
      | none => g
      | some c =>
        let (c, done, w, died) := c.run ss (envs i) g.world
        { g with conns := g.conns.set i c, log := g.log ++ done.map (fun d => (i, d)), world := w, crashed := died }

/-- a history of the process, from its start (cli/receiver/server/server.go:27-53) -/
def Gate.run {W : Type} (ss : List (Saver W)) (envs : Nat → Env) (w : W) (evs : List Event) : Gate W :=
  evs.foldl (Gate.next ss envs) { world := w }

end Egts
