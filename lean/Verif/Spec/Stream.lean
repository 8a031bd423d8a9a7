import Verif.Spec.Server
import Verif.Lemmas.Serve
set_option autoImplicit false
/- What the server does with an arbitrary stream of bytes, packet by packet. -/
namespace Egts
open Frame
variable [P : Platform]

/-- one packet, as the server cuts it out of the stream: version 1, and the announced length of the frame, computed modulo
65536 and never below ten. Every complete frame of 10 to 65535 bytes (`Framed`) is one (`framed_taken`). -/
structure Taken (c : Bytes) : Prop where
  version : byteAt c 0 = 1
  size : c.length = 10 + (frameLen c + 65526) % 65536

instance (c : Bytes) : Decidable (Taken c) :=
  decidable_of_iff (byteAt c 0 = 1 ∧ c.length = 10 + (frameLen c + 65526) % 65536) ⟨fun ⟨a, b⟩ => ⟨a, b⟩, fun ⟨a, b⟩ => ⟨a, b⟩⟩

/-- bytes that are not the beginning of a packet, or of which the end of the packet is missing -/
def Incomplete (s : Bytes) : Prop :=
  s.length < 10 ∨ byteAt s 0 ≠ 1 ∨ s.length < 10 + (frameLen s + 65526) % 65536

instance (s : Bytes) : Decidable (Incomplete s) := inferInstanceAs (Decidable (_ ∨ _ ∨ _))

/-- `s` is the sequence of the packets `cs`, followed by `rest` which is not a packet -/
structure CutInto (s : Bytes) (cs : List Bytes) (rest : Bytes) : Prop where
  all : s = cs.flatten ++ rest
  taken : ∀ c ∈ cs, Taken c
  incomplete : Incomplete rest

/-- how a connection ends that does not crash: ten bytes that do not start with 1 close it; otherwise a silent client is waited
for, an error closes, and so does the end of the stream (after the timer, if it comes between two packets) -/
def lastEnd (tail : Tail) (rest : Bytes) : End :=
  if 10 ≤ rest.length ∧ byteAt rest 0 ≠ 1 then .closed
  else match tail with
    | .silent => .waiting
    | .error => .closed
    | .eof => if rest = [] then .closedByTimer else .closed

/-- the answer to one packet, as a function of what Decode says about it (`none`: crash).
Rejected: one answer with the code. Data without record responses: the record is saved if there is a position, the packet is acknowledged,
and a login is followed by an authorisation result. Anything else: nothing. -/
def react (now spare c : Bytes) : Option (List Effect) :=
  match Package.decode {} c spare with
  | .ret code (some _) _ => some [.write (answerBytes (word16At c 7) code 0 [])]
  | .ret _ none p =>
    match p.ServicesFrameData with
    | some (.appdata l) =>
      if (subsOf l).any (·.isResponse) then some []
      else some (
        (if (positions (subsOf l)).isEmpty then [] else [.save (exportOf now p.PacketIdentifier l)]) ++
        [.write (ackBytes p.PacketIdentifier l)] ++
        (if (subsOf l).any (·.isLogin) then [.write (resultPacket p.PacketIdentifier 0)] else []))
    | _ => some []
  | _ => none

/-- the answers to the packets `cs`, one after the other, up to the first crash -/
def reactAll (env : Env) (tail : Tail) (rest : Bytes) : Nat → List Bytes → List Effect × End
  | _, [] => ([], lastEnd tail rest)
  | k, c :: cs =>
    match react (env.now k) (env.spare k) c with
    | none => ([], .crashed)
    | some l => (l ++ (reactAll env tail rest (k + 1) cs).1, (reactAll env tail rest (k + 1) cs).2)

end Egts
