import Verif.Model.JsonText
set_option autoImplicit false
/- Model of `json.MarshalIndent(msg, "", "    ")`, cli/receiver/storage/default.go:15: the compact text, then `appendIndent` of
encoding/json (indent.go). -/
namespace Egts

/-- where the scanner of `appendIndent` is: outside of a string, in a string, after a backslash in a string (Go library, as called by cli/receiver/storage/default.go:15) -/
inductive ScanAt where
  | out | str | esc
deriving DecidableEq

/-- `appendNewline` with the empty prefix and the indent of default.go:15 -/
def newline (depth : Nat) : Bytes := 10 :: List.replicate (4 * depth) 32

/-- the loop of `appendIndent`; `need` is `needIndent`. The scanner is reduced to the recognition of strings, which is all that
matters for the texts that `json.Marshal` makes (Go library, as called by cli/receiver/storage/default.go:15) -/
def indentLoop : ScanAt → Bool → Nat → Bytes → Bytes
  | _, _, _, [] => []
  | .str, n, d, c :: s => c :: indentLoop (if c = 34 then .out else if c = 92 then .esc else .str) n d s
  | .esc, n, d, c :: s => c :: indentLoop .str n d s
  | .out, n, d, c :: s =>
    if c = 0x20 ∨ c = 0x09 ∨ c = 0x0A ∨ c = 0x0D then indentLoop .out n d s
    else if c = 125 ∨ c = 93 then
      if n then c :: indentLoop .out false d s else newline (d - 1) ++ c :: indentLoop .out false (d - 1) s
    else
      let d' := if n then d + 1 else d
      (if n then newline d' else []) ++
        (if c = 123 ∨ c = 91 then c :: indentLoop .out true d' s
         else if c = 44 then c :: (newline d' ++ indentLoop .out false d' s)
         else if c = 58 then c :: 32 :: indentLoop .out false d' s
         else c :: indentLoop (if c = 34 then .str else .out) false d' s)

/-- `json.MarshalIndent`, of the compact text (Go library, as called by cli/receiver/storage/default.go:15) -/
def indentText (t : Bytes) : Bytes := indentLoop .out false 0 t

/-- what `LogConnector.Save` (default.go:14-22) writes as the field `packet` of its log line -/
def NavRecord.logText (F : JsonFmt) (r : NavRecord) : Bytes := indentText (r.text F)

end Egts
