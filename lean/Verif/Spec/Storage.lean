import Verif.Model.Storage
set_option autoImplicit false
/- Specifications for the storage layer, independent of its loops. -/
namespace Egts

/-- all storages of the list accept the record, one after the other; the external world goes from `w` to `w'` -/
inductive AllAccept {W : Type} (m : NavRecord) : List (Saver W) → W → W → Prop
  | nil (w : W) : AllAccept m [] w w
  | cons {s : Saver W} {ss : List (Saver W)} {w w1 w2 : W} (h : s.save m w = (.ok, w1)) (t : AllAccept m ss w1 w2) :
      AllAccept m (s :: ss) w w2

/-- the sections of the configuration that configure a storage, and the storage each of them starts (README.md, "storage") -/
def storageNames : List (Bytes × Kind) := [(asc "rabbitmq", .rabbitmq), (asc "postgresql", .postgresql), (asc "nats", .nats),
  (asc "nsq", .nsq), (asc "tarantool_queue", .tarantool), (asc "redis", .redis)]

/-- all configured storages are known and initialised successfully, one after the other; `kinds` are their kinds -/
inductive AllInit {W : Type} (D : Drivers W) : List (Bytes × Option Params) → List Registered → W → W → Prop
  | nil (w : W) : AllInit D [] [] w w
  | cons {name : Bytes} {params : Params} {kind : Kind} {rest : List (Bytes × Option Params)} {regs : List Registered}
      {w w1 w2 : W} (hk : (name, kind) ∈ storageNames) (h : connectorInit D kind (some params) w = (.ok, w1))
      (t : AllInit D rest regs w1 w2) : AllInit D ((name, some params) :: rest) ((kind, params) :: regs) w w2

/-- names of the storages that can be configured -/
def knownNames : List Bytes := storageNames.map (·.1)

end Egts
