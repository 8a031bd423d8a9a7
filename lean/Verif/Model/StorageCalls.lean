import Verif.Model.Storage
set_option autoImplicit false
/- Model of what the storages of cli/receiver/storage/store/*/connector.go hand to their client libraries: the
connection parameters of `Init` and the message of `Save`, as functions of the configuration section. The client libraries
and the servers behind them are an arbitrary `Net`. -/
namespace Egts

/-- `c.config[key]`: the empty string if the key is missing (as in cli/receiver/storage/store/*/connector.go) -/
def Params.str (p : Params) (key : String) : Bytes := (p.get (asc key)).getD []

/-- `fmt.Sprintf("dbname=%s host=%s port=%s user=%s password=%s sslmode=%s", …)`, postgresql/connector.go:37-38. -/
def pgDsn (p : Params) : Bytes :=
  asc "dbname=" ++ p.str "database" ++ asc " host=" ++ p.str "host" ++ asc " port=" ++ p.str "port" ++
  asc " user=" ++ p.str "user" ++ asc " password=" ++ p.str "password" ++ asc " sslmode=" ++ p.str "sslmode"

/-- `fmt.Sprintf("INSERT INTO %s (point) VALUES ($1)", …)`, postgresql/connector.go:59. -/
def pgInsert (p : Params) : Bytes := asc "INSERT INTO " ++ p.str "table" ++ asc " (point) VALUES ($1)"

/-- `fmt.Sprintf("amqp://%s:%s@%s:%s/", …)`, rabbitmq/connector.go:36. -/
def amqpUrl (p : Params) : Bytes :=
  asc "amqp://" ++ p.str "user" ++ asc ":" ++ p.str "password" ++ asc "@" ++ p.str "host" ++ asc ":" ++ p.str "port" ++ asc "/"

/-- what a storage hands to its client library when it connects (cli/receiver/storage/store/*/connector.go, Init (rabbitmq 27-46, postgresql 29-47, nats 23-46, nsq 25-42, tarantool_queue 32-67, redis 28-63)) -/
inductive Dial where
  | amqp (url : Bytes)                                                  -- rabbitmq/connector.go:37
  | pg (dsn : Bytes)                                                    -- postgresql/connector.go:39
  /-- servers, client name, user and password if given: nats/connector.go:32-42 -/
  | nats (servers name : Bytes) (userInfo : Option (Bytes × Bytes))
  | nsq (addr : Bytes)                                                  -- nsq/connector.go:38
  /-- address, timeout and reconnect interval in nanoseconds, bound on reconnects, user, password:
  tarantool_queue/connector.go:38, 52-60 -/
  | tarantool (addr : Bytes) (timeout reconnect : Int64) (maxReconnects : UInt64) (user pass : Bytes)
deriving DecidableEq

/-- user and password of nats/connector.go:34-38: only if both keys are present. -/
def natsUserInfo (p : Params) : Option (Bytes × Bytes) :=
  match p.get (asc "user"), p.get (asc "password") with
  | some u, some w => some (u, w)
  | _, _ => none

/-- the connection parameters of `Init`; `none` where `Init` does not connect (redis, log) or fails before it connects
(tarantool_queue/connector.go:40-51). The numbers of tarantool go through `time.Duration(n) * time.Second` (int64
arithmetic) and `uint(n)`. -/
def dialOf (kind : Kind) (p : Params) : Option Dial :=
  match kind with
  | .rabbitmq => some (.amqp (amqpUrl p))
  | .postgresql => some (.pg (pgDsn p))
  | .nats => some (.nats (p.str "servers") (asc "EGTS handler, topic: " ++ p.str "topic") (natsUserInfo p))
  | .nsq => some (.nsq (p.str "server"))
  | .tarantool =>
    match atoi (p.str "max_recons"), atoi (p.str "timeout"), atoi (p.str "reconnect") with
    | some m, some t, some r =>
      some (.tarantool (p.str "host" ++ [58] ++ p.str "port") (Int64.ofInt t * 1000000000) (Int64.ofInt r * 1000000000)
        (Int64.ofInt m).toUInt64 (p.str "user") (p.str "password"))
    | _, _, _ => none
  | .redis => none
  | .log => none

/-- what a storage hands to its client library for one message (cli/receiver/storage/store/*/connector.go, Save (rabbitmq 48-70, postgresql 49-64, nats 48-62, nsq 44-58, tarantool_queue 69-84, redis 65-80)) -/
inductive Call where
  /-- exchange, routing key, content type, body: rabbitmq/connector.go:58-66 -/
  | amqp (exchange key contentType body : Bytes)
  /-- query and its argument: postgresql/connector.go:59-60 -/
  | pg (query arg : Bytes)
  | nats (subject data : Bytes)                                         -- nats/connector.go:58
  | nsq (topic body : Bytes)                                            -- nsq/connector.go:54
  | tarantool (tube data : Bytes)                                       -- tarantool_queue/connector.go:64, 79
  | redis (channel message : Bytes)                                     -- redis/connector.go:58, 75
deriving DecidableEq

/-- the library call of `Save` for the message bytes `b`; the log storage calls none (cli/receiver/storage/store/*/connector.go, Save (rabbitmq 48-70, postgresql 49-64, nats 48-62, nsq 44-58, tarantool_queue 69-84, redis 65-80)) -/
def callOf (kind : Kind) (p : Params) (b : Bytes) : Option Call :=
  match kind with
  | .rabbitmq => some (.amqp (p.str "exchange") (p.str "key") (asc "text/plain") b)
  | .postgresql => some (.pg (pgInsert p) b)
  | .nats => some (.nats (p.str "topic") b)
  | .nsq => some (.nsq (p.str "topic") b)
  | .tarantool => some (.tarantool (p.str "queue") b)
  | .redis => some (.redis (p.str "queue") b)
  | .log => none

/-- the client libraries together with everything behind them (the libraries called by cli/receiver/storage/store/*/connector.go) -/
structure Net (W : Type) where
  dial : Dial → W → Option Nat × W
  call : Call → W → Option Nat × W

/-- the client libraries as the storages use them. `amqp.Dial` followed by `Channel`, and `sql.Open` followed by `Ping`,
count as one step (cli/receiver/storage/store/*/connector.go: Init (rabbitmq 27-46, postgresql 29-47, nats 23-46, nsq 25-42, tarantool_queue 32-67, redis 28-63)) -/
def Net.drivers {W : Type} (N : Net W) (toBytes : NavRecord → Option Bytes) : Drivers W where
  connect kind p w :=
    match dialOf kind p with
    | some d => N.dial d w
    | none => (none, w)
  publish kind p b w :=
    match callOf kind p b with
    | some c => N.call c w
    | none => (none, w)
  toBytes := toBytes

end Egts
