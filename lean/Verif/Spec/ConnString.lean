import Verif.Go.Basic
set_option autoImplicit false
/- How the client libraries read the connection texts that the storages build. These are specifications of formats defined
elsewhere, not models of code of the repository:
* `Pq.parse`: the keyword/value connection strings of libpq (PostgreSQL documentation, 34.1.1.1), as read by lib/pq v1.1.1
  (conn.go, parseOpts), restricted to ASCII white space;
* `Uri.parse`: the authority part of a URI (RFC 3986, section 3.2, net/url.Parse), as read by streadway/amqp (uri.go). -/
namespace Egts

/-- ASCII white space -/
def isSpace (c : UInt8) : Bool := c = 32 || (9 ≤ c && c ≤ 13)

namespace Pq

/-- where the reader stands; `k` is the keyword, `v` the value read so far -/
inductive St where
  | skip                                    -- between two settings
  | key (k : Bytes)
  | eq (k : Bytes)                          -- keyword finished, '=' expected
  | val0 (k : Bytes)                        -- after '='
  | val (k v : Bytes)
  | esc (k v : Bytes)                       -- after a backslash
  | quoted (k v : Bytes)
  | qesc (k v : Bytes)

/-- read the rest of the text; `none` is a syntax error. The settings come in the order of the text. -/
def go : St → Bytes → Option (List (Bytes × Bytes))
  | .skip, [] => some []
  | .skip, c :: s => if isSpace c then go .skip s else if c = 61 then go (.val0 []) s else go (.key [c]) s
  | .key _, [] => none
  | .key k, c :: s => if c = 61 then go (.val0 k) s else if isSpace c then go (.eq k) s else go (.key (k ++ [c])) s
  | .eq _, [] => none
  | .eq k, c :: s => if isSpace c then go (.eq k) s else if c = 61 then go (.val0 k) s else none
  | .val0 k, [] => some [(k, [])]
  | .val0 k, c :: s =>
    if isSpace c then go (.val0 k) s
    else if c = 39 then go (.quoted k []) s
    else if c = 92 then go (.esc k []) s
    else go (.val k [c]) s
  | .val k v, [] => some [(k, v)]
  | .val k v, c :: s =>
    if isSpace c then (go .skip s).map ((k, v) :: ·)
    else if c = 92 then go (.esc k v) s
    else go (.val k (v ++ [c])) s
  | .esc _ _, [] => none
  | .esc k v, c :: s => go (.val k (v ++ [c])) s
  | .quoted _ _, [] => none
  | .quoted k v, c :: s =>
    if c = 39 then (go .skip s).map ((k, v) :: ·)
    else if c = 92 then go (.qesc k v) s
    else go (.quoted k (v ++ [c])) s
  | .qesc _ _, [] => none
  | .qesc k v, c :: s => go (.quoted k (v ++ [c])) s

/-- the settings of a connection string -/
def parse (s : Bytes) : Option (List (Bytes × Bytes)) := go .skip s

/-- the value in force for a keyword: a later setting overrides an earlier one -/
def setting (l : List (Bytes × Bytes)) (k : Bytes) : Option Bytes := (l.reverse.find? (·.1 = k)).map (·.2)

/-- a value that needs no quoting: not empty, no white space, quote or backslash -/
def Plain (v : Bytes) : Prop := v ≠ [] ∧ ∀ c ∈ v, isSpace c = false ∧ c ≠ 39 ∧ c ≠ 92 ∧ c < 128

/-- a value that stands for itself: not empty, no white space, no backslash, and not beginning with a quote (weaker than
`Plain`) -/
def Fine (v : Bytes) : Prop := v ≠ [] ∧ v.head? ≠ some 39 ∧ ∀ c ∈ v, isSpace c = false ∧ c ≠ 92

end Pq

namespace Uri

/-- user, password, host and port of a URI -/
structure Authority where
  user : Bytes
  password : Option Bytes
  host : Bytes
  port : Bytes
deriving DecidableEq

def isAlnum (c : UInt8) : Bool := (48 ≤ c && c ≤ 57) || (65 ≤ c && c ≤ 90) || (97 ≤ c && c ≤ 122)
def isDigit (c : UInt8) : Bool := 48 ≤ c && c ≤ 57

/-- characters that may occur in the user information: letters, digits, `-._:~!$&'()*+,;=%@` -/
def userinfoChar (c : UInt8) : Bool :=
  isAlnum c || [45, 46, 95, 58, 126, 33, 36, 38, 39, 40, 41, 42, 43, 44, 59, 61, 37, 64].contains c

/-- value of a hexadecimal digit -/
def hex (c : UInt8) : Option UInt8 :=
  if 48 ≤ c && c ≤ 57 then some (c - 48)
  else if 65 ≤ c && c ≤ 70 then some (c - 55)
  else if 97 ≤ c && c ≤ 102 then some (c - 87)
  else none

/-- percent decoding; `none` for an incomplete escape -/
def unescape : Bytes → Option Bytes
  | [] => some []
  | 37 :: a :: b :: s =>
    match hex a, hex b with
    | some x, some y => (unescape s).map ((x * 16 + y) :: ·)
    | _, _ => none
  | 37 :: _ => none
  | c :: s => (unescape s).map (c :: ·)

/-- everything before and after the first `c` -/
def cut (c : UInt8) : Bytes → Option (Bytes × Bytes)
  | [] => none
  | x :: s => if x = c then some ([], s) else (cut c s).map fun (a, b) => (x :: a, b)

/-- everything before and after the last `c` -/
def cutLast (c : UInt8) (s : Bytes) : Option (Bytes × Bytes) :=
  (cut c s.reverse).map fun (a, b) => (b.reverse, a.reverse)

/-- the text up to the end of the authority: `/`, `?` or `#` -/
def authorityText (s : Bytes) : Bytes := s.takeWhile fun c => !(c = 47 || c = 63 || c = 35)

/-- host and port: the port is what follows the last colon, and consists of digits -/
def hostPort (s : Bytes) : Option (Bytes × Bytes) :=
  match cutLast 58 s with
  | none => some (s, [])
  | some (h, p) => if p.all isDigit then some (h, p) else none

/-- read what follows `amqp://`. No white space or control characters are allowed. -/
def parse (s : Bytes) : Option Authority :=
  if s.any (fun c => c ≤ 32 || c = 127) then none
  else
    let a := authorityText s
    match cutLast 64 a with
    | none => (hostPort a).map fun (h, p) => ⟨[], none, h, p⟩
    | some (info, hp) =>
      if !info.all userinfoChar then none
      else match hostPort hp with
        | none => none
        | some (h, p) =>
          match cut 58 info with
          | none => (unescape info).map fun u => ⟨u, none, h, p⟩
          | some (u, w) =>
            match unescape u, unescape w with
            | some u, some w => some ⟨u, some w, h, p⟩
            | _, _ => none

/-- a user name or password that stands for itself: letters, digits and `-._~!$&'()*+,;=` -/
def PlainInfo (v : Bytes) : Prop := ∀ c ∈ v, isAlnum c = true ∨ c ∈ ([45, 46, 95, 126, 33, 36, 38, 39, 40, 41, 42, 43, 44, 59, 61] : Bytes)

/-- a host name: letters, digits, dots and hyphens -/
def HostName (v : Bytes) : Prop := ∀ c ∈ v, isAlnum c = true ∨ c = 46 ∨ c = 45

/-- a port number -/
def PortNumber (v : Bytes) : Prop := ∀ c ∈ v, isDigit c = true

end Uri
end Egts
