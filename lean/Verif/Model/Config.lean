import Verif.Model.Storage
set_option autoImplicit false
/- Model of cli/receiver/config/config.go. -/
namespace Egts

/-- levels of logrus, in its numbering (level.go of sirupsen/logrus: PanicLevel = 0 ... TraceLevel = 6); a message is
printed iff its level is at most the configured one. -/
inductive LogLevel where
  | panic | fatal | error | warn | info | debug | trace
deriving DecidableEq

/-- the numbers of the levels of logrus, cli/receiver/config/config.go:30-50 -/
def LogLevel.num : LogLevel → Nat
  | .panic => 0 | .fatal => 1 | .error => 2 | .warn => 3 | .info => 4 | .debug => 5 | .trace => 6

/-- `Settings`, config.go:15-21. `ConnTTl` is an `int` (64 bits on the supported platforms). -/
structure Settings where
  Host : Bytes := []
  Port : Bytes := []
  ConnTTl : Int64 := 0
  LogLevel : Bytes := []
  Store : List (Bytes × Option Params) := []

/-- `GetEmptyConnTTL`, config.go:23-25: nanoseconds, in int64 arithmetic. -/
def Settings.GetEmptyConnTTL (s : Settings) : Int64 := s.ConnTTl * 1000000000

/-- `GetListenAddress`, config.go:26-28. -/
def Settings.GetListenAddress (s : Settings) : Bytes := s.Host ++ [58] ++ s.Port

/-- `GetLogLevel`, config.go:30-50. -/
def Settings.GetLogLevel (s : Settings) : Egts.LogLevel :=
  if s.LogLevel = asc "DEBUG" then .debug                               -- 34-36
  else if s.LogLevel = asc "INFO" then .info                            -- 37-39
  else if s.LogLevel = asc "WARN" then .warn                            -- 40-42
  else if s.LogLevel = asc "ERROR" then .error                          -- 43-45
  else .info                                                            -- 46-47

/-- a value of the top level of the YAML file: a text, a number, or a section (cli/receiver/config/config.go:15-21, 58) -/
inductive YamlValue where
  | str (b : Bytes)
  | num (n : Int64)
  | sec (s : List (Bytes × Option Params))

/-- `New`, config.go:52-60, on the parsed file: a list of keys with their values (`yaml.Unmarshal` without its parser: each
field takes the value of the key named in its tag, lines 16-20, other keys are ignored; only values of the right kind are
modelled, `none` otherwise). -/
def Settings.ofYaml (doc : List (Bytes × YamlValue)) : Option Settings :=
  doc.foldlM (init := {}) fun s (k, v) =>
    if k = asc "host" then match v with
      | .str b => some { s with Host := b }
      | _ => none
    else if k = asc "port" then match v with
      | .str b => some { s with Port := b }
      | _ => none
    else if k = asc "conn_ttl" then match v with
      | .num n => some { s with ConnTTl := n }
      | _ => none
    else if k = asc "log_level" then match v with
      | .str b => some { s with LogLevel := b }
      | _ => none
    else if k = asc "storage" then match v with
      | .sec l => some { s with Store := l }
      | _ => none
    else some s

end Egts
