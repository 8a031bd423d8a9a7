import Verif.Spec.ConnString
set_option autoImplicit false
/- What an address handed to `net.Listen("tcp", …)` means: `net.SplitHostPort` of the Go standard library (net/ipsock.go), which
documents the forms host:port, [host]:port. -/
namespace Egts.Net
open Egts.Uri (cut cutLast)

/-- `net.SplitHostPort`: host and port, or an error (with which `net.Listen` fails) -/
def splitHostPort (a : Bytes) : Option (Bytes × Bytes) :=
  match a with
  | 91 :: s =>                                                          -- [
    match cut 93 s with                                                 -- up to the first ]
    | none => none                                                      -- missing ']' in address
    | some (host, rest) =>
      match rest with
      | 58 :: port =>                                                   -- :
        if 58 ∈ port then none                                          -- too many colons in address
        else if 91 ∈ host ∨ 91 ∈ port ∨ 93 ∈ port then none             -- unexpected '[' or ']' in address
        else some (host, port)
      | _ => none                                                       -- missing port in address
  | a =>
    match cutLast 58 a with                                             -- at the last colon
    | none => none                                                      -- missing port in address
    | some (host, port) =>
      if 58 ∈ host then none                                            -- too many colons in address
      else if 91 ∈ host ∨ 93 ∈ host ∨ 91 ∈ port ∨ 93 ∈ port then none   -- unexpected '[' or ']' in address
      else some (host, port)

end Egts.Net
