import Verif.Spec.Stream
import Verif.Model.Log
set_option autoImplicit false
/- What an operator sees in the log. -/
namespace Egts
open Frame
variable [P : Platform]

omit P in
/-- why a connection has ended, if it has: ten bytes that are not EGTS; the peer has gone away, between two packets or in the middle of one; an error -/
def endNote (tail : Tail) (rest : Bytes) : List LogMsg :=
  if 10 ≤ rest.length ∧ byteAt rest 0 ≠ 1 then [.notEgts]
  else match tail with
    | .silent => []
    | .error => if rest.length < 10 then [.readFailed] else [.bodyFailed]
    | .eof => if rest = [] then [.timedOut] else if rest.length < 10 then [.readFailed] else [.bodyFailed]

/-- the records of an accepted packet that are looked at: all of them, or those up to the first one that holds a record response -/
def lookedAt : List ServiceDataRecord → List ServiceDataRecord
  | [] => []
  | r :: l => if (r.RecordDataSet.filterMap (·.SubrecordData)).any (·.isResponse) then [r] else r :: lookedAt l

/-- the storage has refused a record -/
def refusal : Ret → List LogMsg
  | .err e => [.saveFailed e]
  | _ => []

/-- the log at level INFO of the packets `cs`, the first of them being the `k`-th of the connection: a rejected packet is reported with the error; of an
accepted data packet the service of each record is reported, then the failure to store it, if it holds positions. -/
def infoLog {W : Type} (ss : List (Saver W)) (env : Env) : Nat → List Bytes → W → List LogMsg
  | _, [], _ => []
  | k, c :: cs, w =>
    match Package.decode {} c (env.spare k) with
    | .ret _ (some e) _ => .decodeFailed e :: infoLog ss env (k + 1) cs w
    | .ret _ none p =>
      match p.ServicesFrameData with
      | some (.appdata l) =>
        (lookedAt l).map (fun r => .service r.SourceServiceType) ++
          if (subsOf l).any (·.isResponse) ∨ (positions (subsOf l)).isEmpty then infoLog ss env (k + 1) cs w
          else
            let (ret, w') := repoSave ss (exportOf (env.now k) p.PacketIdentifier l) w
            refusal ret ++ infoLog ss env (k + 1) cs w'
      | _ => infoLog ss env (k + 1) cs w
    | _ => []

/-- the log at level WARN: only the rejected packets and the refused records -/
def warnLog {W : Type} (ss : List (Saver W)) (env : Env) : Nat → List Bytes → W → List LogMsg
  | _, [], _ => []
  | k, c :: cs, w =>
    match Package.decode {} c (env.spare k) with
    | .ret _ (some e) _ => .decodeFailed e :: warnLog ss env (k + 1) cs w
    | .ret _ none p =>
      match p.ServicesFrameData with
      | some (.appdata l) =>
        if (subsOf l).any (·.isResponse) ∨ (positions (subsOf l)).isEmpty then warnLog ss env (k + 1) cs w
        else
          let (ret, w') := repoSave ss (exportOf (env.now k) p.PacketIdentifier l) w
          refusal ret ++ warnLog ss env (k + 1) cs w'
      | _ => warnLog ss env (k + 1) cs w
    | _ => []

end Egts
