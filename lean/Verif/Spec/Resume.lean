import Verif.Spec.Batch
import Verif.Model.Server
set_option autoImplicit false
/- Packets that are sent over more than one connection. -/
namespace Egts
variable [P : Platform]

/-- the places in the records of the packets, in order, as they are stored -/
def placesIn (ls : List (List ServiceDataRecord)) : List LocState := (positions (subsOf ls.flatten)).map locOf

/-- A device sends the packets `cs` with the records `ls` over any number of connections, and the places `stored` are stored.  Either the packets come
through on one connection (`last`), or the server gets a beginning of them before the connection breaks, the device has seen a beginning of the
answers, and continues with the `k`-th packet, before which all records are confirmed (`broken`).  If `full`, it has seen all confirmations each time
and continues behind the last confirmed packet. -/
inductive Continued (full : Bool) : List Bytes → List (List ServiceDataRecord) → List LocState → Prop
  | last (env : Env) (tail : Tail) (chunks cs : List Bytes) (ls : List (List ServiceDataRecord)) (all : chunks.flatten = cs.flatten) :
    Continued full cs ls (placesStored (handleConn env true tail chunks).1)
  | broken (env : Env) (tail : Tail) (chunks cs : List Bytes) (ls : List (List ServiceDataRecord)) (stored : List LocState)
    (some : chunks.flatten <+: cs.flatten) (seen : List UInt16) (answers : seen <+: (writesOf (handleConn env true tail chunks).1).flatMap confirmedBy)
    (k : Nat) (exists_k : k ≤ cs.length) (confirmed : (ls.take k).flatten.map (·.RecordNumber) <+: seen)
    (fully : full = true → (ls.take k).flatten.map (·.RecordNumber) = (writesOf (handleConn env true tail chunks).1).flatMap confirmedBy)
    (next : Continued full (cs.drop k) (ls.drop k) stored) : Continued full cs ls (placesStored (handleConn env true tail chunks).1 ++ stored)

end Egts
