import Verif.Spec.Gate
set_option autoImplicit false
/- Several storages side by side: what each of them has accepted, in order, when many connections are served at the same time. Independent of the handler. -/
namespace Egts

/-- everything the storages have accepted so far, in order: number of the storage, record -/
abbrev Book := List (Nat × NavRecord)

/-- storage number `k`. What it answers may depend on anything that happened before (`ans`, any function); what it accepts is written down. -/
def bookSaver (ans : Nat → Book → NavRecord → Ret) (k : Nat) : Saver Book :=
  ⟨fun r w => (ans k w r, if ans k w r = .ok then w ++ [(k, r)] else w)⟩

/-- `n` storages, in the order in which they are configured -/
def bookSavers (ans : Nat → Book → NavRecord → Ret) (n : Nat) : List (Saver Book) := (List.range n).map (bookSaver ans)

/-- what storage `k` has accepted, in order -/
def held (k : Nat) (w : Book) : List NavRecord := (w.filter (·.1 == k)).map (·.2)

/-- the list `m` is made by merging the lists `f 0`, `f 1`, ..., each of which keeps its order -/
def MergeOf (f : Nat → List NavRecord) (m : List NavRecord) : Prop :=
  ∃ t : List (Nat × NavRecord), t.map (·.2) = m ∧ ∀ i, (t.filter (·.1 == i)).map (·.2) = f i

variable [P : Platform]

/-- the records of connection `i` that `Save` has reported as saved, in order -/
def Gate.savedFor {W : Type} (g : Gate W) (i : Nat) : List NavRecord := (g.doneFor i).filterMap fun
  | .saved r => some r
  | _ => none

/-- the records of connection `i` that have been given to `Save`, in order, with the one that is being saved at the moment -/
def Gate.givenFor {W : Type} (g : Gate W) (i : Nat) : List NavRecord :=
  (savesOf (g.did i)) ++ match g.conns[i]? with
    | some c => match c.phase with
      | .saving r _ _ => [r]
      | _ => []
    | none => []

/-- what a server that has only connection `i` would save with the bytes that have arrived on it -/
def Gate.dueFor {W : Type} (g : Gate W) (envs : Nat → Env) (i : Nat) : List NavRecord :=
  match g.conns[i]? with
  | some c => savesOf (handleConn (envs i) true c.tail [c.received]).1
  | none => []

/-- no handler has anything left to do -/
def Gate.AtRest {W : Type} (g : Gate W) (ss : List (Saver W)) (envs : Nat → Env) : Prop :=
  g.crashed = false ∧ ∀ i c, g.conns[i]? = some c → Settled ss (envs i) c

end Egts
