import Verif.Props.Log
import Verif.Props.Attribute
set_option autoImplicit false
/- C119: cases, and what the log does not tell. -/
namespace Egts
open Frame
variable [P : Platform]

/-- a storage that takes everything, and counts -/
def goodSaver : Saver Nat := { save := fun _ n => (.ok, n + 1) }
/-- a storage that refuses everything -/
def badSaver : Saver Nat := { save := fun _ n => (.err (.backend 7), n) }

omit P in
theorem good_ok (r : NavRecord) (w : Nat) : (repoSave [goodSaver] r w).1 = .ok := rfl
omit P in
theorem bad_no_panic (r : NavRecord) (w : Nat) : (repoSave [badSaver] r w).1 ≠ .panic := by
  show Ret.err (StoreErr.backend 7) ≠ .panic
  simp

/-- a header with a wrong checksum -/
def badPacket : Bytes := [1, 2, 0, 11, 0, 0, 0, 5, 0, 1, 200]

/-- a stream of three packets: two records that are refused by the storage, a header with a wrong checksum, a packet without position; then text -/
def logStream : List Bytes := [exPacket, badPacket ++ liquidPacket, [71, 69, 84, 32, 47, 32, 72, 84, 84, 80]]

omit P in
theorem logStream_cut : CutInto logStream.flatten [exPacket, badPacket, liquidPacket] [71, 69, 84, 32, 47, 32, 72, 84, 84, 80] :=
  ⟨by decide +kernel, by decide +kernel, by decide +kernel⟩

def quietEnv : Env := ⟨fun _ => [], fun _ => []⟩

set_option maxRecDepth 1000000 in
example : printedAt .info (logOf [badSaver] (handleConnActs quietEnv true .eof logStream) 0) =
    [.opened, .service 2, .service 2, .saveFailed (.backend 7), .decodeFailed .headerCrc, .service 2, .notEgts] := by kernel_rfl

set_option maxRecDepth 1000000 in
example : printedAt .error (logOf [badSaver] (handleConnActs quietEnv true .eof logStream) 0) =
    [.saveFailed (.backend 7), .decodeFailed .headerCrc] := by kernel_rfl

set_option maxRecDepth 1000000 in
/-- the log of a peer that sends one complete packet and half of the next one -/
example : printedAt .warn (logOf [goodSaver] (handleConnActs quietEnv true .eof [exPacket, exPacket.take 40]) 0) = [.bodyFailed] := by kernel_rfl

/-- C119 is false of the code in its last part, that data which is acknowledged but not stored is reported: `liquidPacket` is acknowledged, its liquid level is
not stored, and the log shows neither an error nor a warning. -/
theorem loss_unreported (env : Env) (w : Nat) : ∃ p l ack, Package.decode {} liquidPacket (env.spare 0) = .ret 0 none p ∧
    p.ServicesFrameData = some (.appdata l) ∧ ack ∈ writesOf (handleConn env true .silent [liquidPacket]).1 ∧
    Answers ack p.PacketIdentifier 0 (l.map (·.RecordNumber)) ∧ ¬ ReadingsKept l (savesOf (handleConn env true .silent [liquidPacket]).1) ∧
    printedAt .warn (logOf [goodSaver] (handleConnActs env true .silent [liquidPacket]) w) = [] := by
  obtain ⟨p, l, ack, h1, h2, h3, h4, h5⟩ := readings_counterexample env
  refine ⟨p, l, ack, h1, h2, h3, h4, h5, ?_⟩
  have hs : ∀ spare, Package.decode {} liquidPacket spare = Package.decode {} liquidPacket [] := fun spare => by
    have := trailing_ignored_partial {} liquidPacket [] [] spare (by decide) (by decide) (by decide)
    rwa [List.append_nil] at this
  exact log_quiet [goodSaver] good_ok env .silent [liquidPacket] [liquidPacket] [] w
    ⟨by simp, by simpa using framed_taken liquidPacket_framed, .inl (by decide)⟩
    (fun c hc spare => by
      obtain rfl := List.mem_singleton.mp hc
      exact ⟨p, ((hs spare).trans (hs _).symm).trans h1⟩)

end Egts
