import Verif.Model.Config
set_option autoImplicit false
/- Specification: configuration files in the form of README.md:75-84 and configs/receiver.yaml, a subset of YAML 1.1. Lines `key: value`,
sections by indentation, comments and empty lines anywhere; values in quotation marks, in apostrophes, or plain. What these lines mean is
fixed by YAML and by the rules of gopkg.in/yaml.v2 for fields of the types of `Settings` (cli/receiver/config/config.go:15-21): a text field
takes the text of the scalar, quoted or not (if it is not null), an int field a plain decimal integer. Deliberately narrow: everything that YAML
reads differently in some context (tabs, escapes, plain texts with spaces, null, leading zeros, anchors, tags, ...) is left out. -/
namespace Egts.Yaml

/-- the text of a comment: tabs, printable ASCII, and the Cyrillic letters U+0400-U+04FF in UTF-8 -/
inductive Comment : Bytes → Prop
  | nil : Comment []
  | ascii (b : UInt8) (c : Bytes) : b = 9 ∨ 32 ≤ b ∧ b ≤ 126 → Comment c → Comment (b :: c)
  | cyrillic (a b : UInt8) (c : Bytes) : 0xD0 ≤ a ∧ a ≤ 0xD3 → 0x80 ≤ b ∧ b ≤ 0xBF → Comment c → Comment (a :: b :: c)

/-- nothing to the end of the line, or spaces and a comment -/
inductive Rest : Bytes → Prop
  | blank (n : Nat) : Rest (List.replicate n 32)
  | comment (n : Nat) (c : Bytes) : Comment c → Rest (List.replicate (n + 1) 32 ++ 35 :: c)

/-- an empty line, or one that holds only a comment -/
inductive Empty : Bytes → Prop
  | blank (n : Nat) : Empty (List.replicate n 32)
  | comment (n : Nat) (c : Bytes) : Comment c → Empty (List.replicate n 32 ++ 35 :: c)

def letterOrDigit (b : UInt8) : Bool := (48 ≤ b && b ≤ 57) || (65 ≤ b && b ≤ 90) || (97 ≤ b && b ≤ 122)

/-- bytes of plain texts: letters, digits and _ - . / : @ + -/
def plainByte (b : UInt8) : Bool := letterOrDigit b || b == 95 || b == 45 || b == 46 || b == 47 || b == 58 || b == 64 || b == 43

/-- bytes of keys: letters, digits and _ -/
def keyByte (b : UInt8) : Bool := letterOrDigit b || b == 95

/-- texts that YAML reads as null when they are plain -/
def nulls : List Bytes := [asc "null", asc "Null", asc "NULL"]

/-- plain texts: begin with a letter or a digit, do not end with a colon, are not null -/
def Plain (v : Bytes) : Prop :=
  (∃ a r, v = a :: r ∧ letterOrDigit a = true) ∧ v.all plainByte = true ∧ v.getLast? ≠ some 58 ∧ v ∉ nulls

/-- keys: letters, digits and _, beginning with a letter or a digit, not null -/
def Key (k : Bytes) : Prop := (∃ a r, k = a :: r ∧ letterOrDigit a = true) ∧ k.all keyByte = true ∧ k ∉ nulls

/-- a scalar as it is written, its text, and whether it is plain -/
inductive Scalar : Bytes → Bytes → Bool → Prop
  /-- in quotation marks: printable ASCII except the quotation mark and the backslash -/
  | quoted (v : Bytes) : (∀ b ∈ v, 32 ≤ b ∧ b ≤ 126 ∧ b ≠ 34 ∧ b ≠ 92) → Scalar (34 :: (v ++ [34])) v false
  /-- in apostrophes: printable ASCII except the apostrophe -/
  | apostrophes (v : Bytes) : (∀ b ∈ v, 32 ≤ b ∧ b ≤ 126 ∧ b ≠ 39) → Scalar (39 :: (v ++ [39])) v false
  | plain (v : Bytes) : Plain v → Scalar v v true

/-- what a line says: its indentation, the key, and the value if there is one on the line (its text, and whether it is plain) -/
abbrev Item := Nat × Bytes × Option (Bytes × Bool)

inductive Line : Bytes → Item → Prop
  | section (n : Nat) (k r : Bytes) : Key k → Rest r → Line (List.replicate n 32 ++ k ++ 58 :: r) (n, k, none)
  | value (n m : Nat) (k w v : Bytes) (p : Bool) (r : Bytes) : Key k → Scalar w v p → Rest r →
      Line (List.replicate n 32 ++ k ++ 58 :: (List.replicate (m + 1) 32 ++ w ++ r)) (n, k, some (v, p))

/-- the lines of a text, ended by LF or CR LF; the last one may have no end -/
inductive Lines : Bytes → List Bytes → Prop
  | nil : Lines [] []
  | last (l : Bytes) : l ≠ [] → 10 ∉ l → 13 ∉ l → Lines l [l]
  | lf (l t : Bytes) (ls : List Bytes) : 10 ∉ l → 13 ∉ l → Lines t ls → Lines (l ++ 10 :: t) (l :: ls)
  | crlf (l t : Bytes) (ls : List Bytes) : 10 ∉ l → 13 ∉ l → Lines t ls → Lines (l ++ 13 :: 10 :: t) (l :: ls)

/-- the lines that say something -/
inductive Items : List Bytes → List Item → Prop
  | nil : Items [] []
  | empty (l : Bytes) (ls : List Bytes) (is : List Item) : Empty l → Items ls is → Items (l :: ls) is
  | line (l : Bytes) (i : Item) (ls : List Bytes) (is : List Item) : Line l i → Items ls is → Items (l :: ls) (i :: is)

/-- the options of a storage: `n` is their indentation -/
inductive Options (n : Nat) : List Item → Params → Prop
  | nil : Options n [] []
  | cons (k v : Bytes) (p : Bool) (is : List Item) (l : Params) : Options n is l → Options n ((n, k, some (v, p)) :: is) ((k, v) :: l)

/-- the storages: `n` is their indentation; each has at least one option, further to the right -/
inductive Stores (n : Nat) : List Item → List (Bytes × Option Params) → Prop
  | nil : Stores n [] []
  | cons (k : Bytes) (m : Nat) (os is : List Item) (p : Params) (l : List (Bytes × Option Params)) :
      n < m → Options m os p → p ≠ [] → (p.map (·.1)).Nodup → Stores n is l →
      Stores n ((n, k, none) :: (os ++ is)) ((k, some p) :: l)

/-- decimal integers without leading zeros, and their value -/
def Decimal (v : Bytes) (n : Nat) : Prop :=
  v ≠ [] ∧ (∀ b ∈ v, 48 ≤ b ∧ b ≤ 57) ∧ (v.head? = some 48 → v = [48]) ∧ v.foldl (fun a b => 10 * a + (b.toNat - 48)) 0 = n

/-- the whole document; texts for all keys but conn_ttl and storage -/
inductive Doc : List Item → List (Bytes × YamlValue) → Prop
  | nil : Doc [] []
  | text (k v : Bytes) (p : Bool) (is : List Item) (d : List (Bytes × YamlValue)) :
      k ≠ asc "conn_ttl" → k ≠ asc "storage" → Doc is d → Doc ((0, k, some (v, p)) :: is) ((k, .str v) :: d)
  | ttl (v : Bytes) (n : Nat) (is : List Item) (d : List (Bytes × YamlValue)) :
      Decimal v n → n < 9223372036854775808 → Doc is d → Doc ((0, asc "conn_ttl", some (v, true)) :: is) ((asc "conn_ttl", .num (Int64.ofNat n)) :: d)
  | storage (n : Nat) (ss is : List Item) (l : List (Bytes × Option Params)) (d : List (Bytes × YamlValue)) :
      0 < n → Stores n ss l → (l.map (·.1)).Nodup → Doc is d → Doc ((0, asc "storage", none) :: (ss ++ is)) ((asc "storage", .sec l) :: d)

/-- a configuration file and what it says. A section `storage:` without storages is empty. -/
def File (text : Bytes) (doc : List (Bytes × YamlValue)) : Prop :=
  ∃ ls is, Lines text ls ∧ Items ls is ∧ Doc is doc ∧ (doc.map (·.1)).Nodup

/-- a reader of YAML that reads these files as they are meant -/
def Conforms (yaml : Bytes → Option (List (Bytes × YamlValue))) : Prop := ∀ text doc, File text doc → yaml text = some doc

end Egts.Yaml
