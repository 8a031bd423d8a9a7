import Verif.Model.Config
import Verif.Model.StorageCalls
set_option autoImplicit false
/- Model of cli/receiver/main.go: from the command line to the running server. -/
namespace Egts

/-- why the process ends with status 1 (`log.Fatalf`) -/
inductive ExitCause where
  | noPath                                                              -- main.go:16-18
  | badFile                                                             -- main.go:20-23
  | listen                                                              -- server.go:30-33
deriving DecidableEq

/-- what the server works with once it runs: main.go:25, 42 -/
structure Serving where
  level : LogLevel
  addr : Bytes
  ttl : Int64
  stores : List Registered

/-- outcome of `main` (cli/receiver/main.go:11-44) -/
inductive Startup where
  | exits (c : ExitCause)
  | serves (s : Serving)

/-- `main`, cli/receiver/main.go:11-44, up to the first `Accept` (server.go:30-36). `read` is `config.New` without
`yaml.Unmarshal`'s filling of the structure (`Settings.ofYaml`): the parsed file; `order` is the order in which Go happens to
iterate over the map of the storages; `listen` tells whether `net.Listen` succeeds. `store.Init` of the log storage cannot fail
(default.go:10-12). Not modelled: the environment of `flag.Parse`. -/
def receiverMain {W : Type} (read : Bytes → Option (List (Bytes × YamlValue)))
    (order : List (Bytes × Option Params) → List (Bytes × Option Params)) (D : Drivers W) (listen : Bytes → Bool)
    (path : Bytes) (w : W) : Startup × W :=
  if path = [] then (.exits .noPath, w)                                 -- 16-18
  else match (read path).bind Settings.ofYaml with                      -- 20
    | none => (.exits .badFile, w)                                      -- 21-23
    | some cfg =>
      let (stores, w) := mainStorages D (order cfg.Store) w             -- 27-40
      if listen cfg.GetListenAddress then                               -- server.go:30
        (.serves ⟨cfg.GetLogLevel, cfg.GetListenAddress, cfg.GetEmptyConnTTL, stores⟩, w) -- 25, 42
      else (.exits .listen, w)                                          -- server.go:31-33

end Egts
