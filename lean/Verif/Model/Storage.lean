import Verif.Model.Server
set_option autoImplicit false
/- Model of cli/receiver/storage/store.go, storage/default.go, storage/store/*/connector.go and of the part of
cli/receiver/main.go that sets the storages up.

The drivers (amqp, pq, nats, nsq, tarantool, redis clients) are not modelled: all external state is a value of an
arbitrary type `W`, and a driver call is an arbitrary function on it. -/
namespace Egts

/-- errors of the storage layer (cli/receiver/storage/store.go:14-15 and the errors of the connectors) -/
inductive StoreErr where
  | invalidStorage                                                      -- store.go:14
  | unknownStorage                                                      -- store.go:15
  | nilConfig                                                           -- e.g. redis/connector.go:33
  | nilMessage                                                          -- e.g. redis/connector.go:67
  | marshal                                                             -- e.g. redis/connector.go:72
  | noServer                                                            -- redis/connector.go:39
  | badDb                                                               -- redis/connector.go:49
  | noQueue                                                             -- redis/connector.go:60
  | badNumber                                                           -- tarantool_queue/connector.go:42, 46, 50
  | backend (e : Nat)                                                   -- error `e` reported by a driver
deriving DecidableEq

/-- outcome of a call that returns an `error` (the results of store.go:25, 31) -/
inductive Ret where
  | ok                                                                  -- nil
  | err (e : StoreErr)
  | panic
deriving DecidableEq

/-- the six kinds of store.go:66-77 and the log storage of default.go. -/
inductive Kind where
  | rabbitmq | postgresql | nats | nsq | tarantool | redis | log
deriving DecidableEq

/-- a call of a driver: `none` is success (the libraries called by cli/receiver/storage/store/*/connector.go) -/
abbrev Driver (W : Type) := Bytes → W → Option Nat × W

/-- `Save` of the seven storages. `msg = none` is a nil message, `some none` a message whose `ToBytes` fails; `publish`
is the driver call (amqp Publish, sql Exec, nats Publish, nsq Publish, queue Put, redis Publish; `LogConnector` only
writes a log line, which cannot fail).
rabbitmq/connector.go:48-70, postgresql/connector.go:49-64, nats/connector.go:48-62, nsq/connector.go:44-58,
tarantool_queue/connector.go:69-84, redis/connector.go:65-80, default.go:14-22. Not modelled: the nil message check is
missing in LogConnector (json marshals a nil interface as `null`). -/
def connectorSave {W : Type} (kind : Kind) (publish : Driver W) (msg : Option (Option Bytes)) (w : W) : Ret × W :=
  match kind with
  | .log =>
    match msg with
    | some none => (.err .marshal, w)                                   -- default.go:16-18
    | _ => (.ok, w)                                                     -- 20-21
  | kind =>
    match msg with
    | none => (.err .nilMessage, w)                                     -- `if msg == nil`
    | some none => (.err .marshal, w)                                   -- `msg.ToBytes()` failed
    | some (some b) =>
      match publish b w with
      | (none, w) => (.ok, w)                                           -- return nil
      | (some e, w) => if kind = .redis then (.panic, w)                -- redis/connector.go:75-77
        else (.err (.backend e), w)

/-- a registered storage: what `Save` does with a record (store.go:23-26) -/
structure Saver (W : Type) where
  save : NavRecord → W → Ret × W

/-- `(*Repository).Save` on the registered storages, store.go:48-55. -/
def repoSave {W : Type} : List (Saver W) → NavRecord → W → Ret × W
  | [], _, w => (.ok, w)                                                -- 56
  | s :: ss, m, w =>                                                    -- 51
    match s.save m w with                                               -- 52
    | (.ok, w) => repoSave ss m w
    | (r, w) => (r, w)                                                  -- 53

/-- a configuration section: `map[string]string`; the first entry with a key counts (cli/receiver/config/config.go:20, store.go:31) -/
abbrev Params := List (Bytes × Bytes)

/-- `cfg[key]` (as in cli/receiver/storage/store/*/connector.go) -/
def Params.get (p : Params) (key : Bytes) : Option Bytes := (p.find? (·.1 = key)).map (·.2)

/-- the text of a Lean string literal as bytes (only used for ASCII) (notation of the model, for the string literals of /repo; no lines of its own) -/
def asc (s : String) : Bytes := s.toList.map fun c => UInt8.ofNat c.toNat

/-- `strconv.Atoi`: optional sign and at least one decimal digit, value in the range of int64 (Atoi does not accept
underscores or prefixes). -/
def atoi (s : Bytes) : Option Int :=
  let (neg, ds) := match s with
    | 45 :: r => (true, r)
    | 43 :: r => (false, r)
    | r => (false, r)
  if ds = [] ∨ !ds.all (fun c => 48 ≤ c && c ≤ 57) then none
  else
    let n : Int := ds.foldl (fun a c => 10 * a + ((c.toNat : Int) - 48)) 0
    let n := if neg then -n else n
    if -9223372036854775808 ≤ n ∧ n ≤ 9223372036854775807 then some n else none

/-- result of `(*redis.Connector).Init`: the client options and the queue (cli/receiver/storage/store/redis/connector.go:28-63) -/
structure RedisClient where
  addr : Bytes
  password : Bytes
  db : Int
  queue : Bytes
deriving DecidableEq

/-- `(*Connector).Init` of redis, redis/connector.go:28-63 (`redis.NewClient` only stores its options). The second
`if !ok` (line 43) tests the `ok` of line 37. -/
def redisInit (cfg : Option Params) : Except StoreErr RedisClient :=
  match cfg with
  | none => .error .nilConfig                                           -- 32-34
  | some p =>
    match p.get (asc "server") with                                     -- 37
    | none => .error .noServer                                          -- 38-40
    | some addr =>
      let ok := true
      let configDb := (p.get (asc "db")).getD []                        -- 42: the zero value if the key is missing
      let configDb := if !ok then asc "0" else configDb                 -- 43-45
      match atoi configDb with                                          -- 47
      | none => .error .badDb                                           -- 48-50
      | some db =>
        let password := (p.get (asc "password")).getD []                -- 54
        match p.get (asc "queue") with                                  -- 58
        | none => .error .noQueue                                       -- 59-61
        | some queue => .ok ⟨addr, password, db, queue⟩

/-- the drivers: what connecting with the given parameters does (`amqp.Dial` + `Channel`, `sql.Open` + `Ping`,
`nats.Connect`, `nsq.NewProducer`, `tarantool.Connect`), and publishing afterwards (cli/receiver/storage/store/*/connector.go, Init (rabbitmq 27-46, postgresql 29-47, nats 23-46, nsq 25-42, tarantool_queue 32-67, redis 28-63)) -/
structure Drivers (W : Type) where
  connect : Kind → Params → W → Option Nat × W
  publish : Kind → Params → Driver W
  /-- `(*NavRecord).ToBytes`: json.Marshal, packet.go:20-22 -/
  toBytes : NavRecord → Option Bytes

/-- `Init` of the six storages. rabbitmq/connector.go:27-46, postgresql/connector.go:29-47, nats/connector.go:23-46,
nsq/connector.go:25-42, tarantool_queue/connector.go:32-67, redis/connector.go:28-63. A nil parameter map
(a YAML section without entries) is `none`. -/
def connectorInit {W : Type} (D : Drivers W) (kind : Kind) (cfg : Option Params) (w : W) : Ret × W :=
  match cfg with
  | none => (.err .nilConfig, w)
  | some p =>
    match kind with
    | .log => (.ok, w)                                                  -- default.go:10-12
    | .redis =>
      match redisInit (some p) with
      | .ok _ => (.ok, w)
      | .error e => (.err e, w)
    | .tarantool =>
      match atoi ((p.get (asc "max_recons")).getD []), atoi ((p.get (asc "timeout")).getD []),
          atoi ((p.get (asc "reconnect")).getD []) with                 -- 40-51
      | some _, some _, some _ =>
        match D.connect .tarantool p w with                             -- 60
        | (none, w) => (.ok, w)
        | (some e, w) => (.err (.backend e), w)
      | _, _, _ => (.err .badNumber, w)
    | kind =>
      match D.connect kind p w with
      | (none, w) => (.ok, w)
      | (some e, w) => (.err (.backend e), w)

/-- the switch of store.go:65-80. -/
def kindOf (name : Bytes) : Option Kind :=
  if name = asc "rabbitmq" then some .rabbitmq
  else if name = asc "postgresql" then some .postgresql
  else if name = asc "nats" then some .nats
  else if name = asc "nsq" then some .nsq
  else if name = asc "tarantool_queue" then some .tarantool
  else if name = asc "redis" then some .redis
  else none

/-- a registered storage as data: its kind and parameters (store.go:38-45) -/
abbrev Registered := Kind × Params

/-- loop of `(*Repository).LoadStorages`, store.go:64-87, on the entries of the map in iteration order; `reg` is
`r.storages`. -/
def loadLoop {W : Type} (D : Drivers W) : List (Bytes × Option Params) → List Registered → W → (Ret × List Registered) × W
  | [], reg, w => ((.ok, reg), w)                                       -- 92
  | (name, params) :: rest, reg, w =>
    match kindOf name with
    | none => ((.err .unknownStorage, reg), w)                          -- 81
    | some kind =>
      match connectorInit D kind params w with                          -- 84
      | (.ok, w) => loadLoop D rest (reg ++ [(kind, params.getD [])]) w -- 88
      | (r, w) => ((r, reg), w)                                         -- 85

/-- `(*Repository).LoadStorages`, store.go:58-89 (`entries`: the map in the order in which Go happens to iterate over
it). -/
def loadStorages {W : Type} (D : Drivers W) (entries : List (Bytes × Option Params)) (reg : List Registered) (w : W) :
    (Ret × List Registered) × W :=
  if entries.length = 0 then ((.err .invalidStorage, reg), w)           -- 61-63
  else loadLoop D entries reg w

/-- the storages main.go works with: lines 29-42; on an error of LoadStorages a LogConnector is added to whatever was
registered before the error. -/
def mainStorages {W : Type} (D : Drivers W) (entries : List (Bytes × Option Params)) (w : W) : List Registered × W :=
  match loadStorages D entries [] w with                                -- 29-30
  | ((.ok, reg), w) => (reg, w)
  | ((_, reg), w) => (reg ++ [(.log, [])], w)                           -- 33-40

/-- the `Save` method of a registered storage (cli/receiver/storage/store/*/connector.go, Save (rabbitmq 48-70, postgresql 49-64, nats 48-62, nsq 44-58, tarantool_queue 69-84, redis 65-80)) -/
def Drivers.saver {W : Type} (D : Drivers W) (r : Registered) : Saver W where
  save m w := connectorSave r.1 (D.publish r.1 r.2) (some (D.toBytes m)) w

/-- what happened to an action of a connection handler (server.go:133, 294-296, 304, 309) -/
inductive Done where
  | wrote (b : Bytes)                                                   -- conn.Write was called
  | saved (r : NavRecord)                                               -- Repository.Save returned nil
  | saveFailed (r : NavRecord)                                          -- it returned an error (only logged, server.go:294-296)

/-- perform the actions of a handler one after the other with the storages `ss`; stops at a panic of a storage. The
result of `Save` has no influence on the following actions (server.go:293-297), the error of `conn.Write` is ignored
(server.go:304, 309). -/
def perform {W : Type} (ss : List (Saver W)) : List Effect → W → (List Done × Bool) × W
  | [], w => (([], false), w)
  | .write b :: l, w =>
    let ((d, p), w) := perform ss l w
    ((.wrote b :: d, p), w)
  | .save r :: l, w =>
    match repoSave ss r w with
    | (.ok, w) =>
      let ((d, p), w) := perform ss l w
      ((.saved r :: d, p), w)
    | (.err _, w) =>
      let ((d, p), w) := perform ss l w
      ((.saveFailed r :: d, p), w)
    | (.panic, w) => (([], true), w)

end Egts
