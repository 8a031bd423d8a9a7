import Verif.Model.Json
set_option autoImplicit false
/- A reader of JSON texts (RFC 8259), written against the RFC and independent of the writer. It works on bytes; that a text is
UTF-8 is a separate requirement (RFC 8259, 8.1). Numbers are read exactly, as rational numbers. -/
namespace Egts.JsonP

/-- RFC 8259, 2: ws -/
def ws : Bytes → Bytes
  | [] => []
  | c :: s => if c = 0x20 ∨ c = 0x09 ∨ c = 0x0A ∨ c = 0x0D then ws s else c :: s

def isDigit (c : UInt8) : Bool := 48 ≤ c.toNat && c.toNat ≤ 57

/-- the digits at the start of a text, as values, and the rest -/
def getDigits : Bytes → List Nat × Bytes
  | [] => ([], [])
  | c :: s => if isDigit c then ((c.toNat - 48) :: (getDigits s).1, (getDigits s).2) else ([], c :: s)

/-- the number with these decimal digits -/
def value (l : List Nat) : Nat := l.foldl (fun n d => 10 * n + d) 0

/-- RFC 8259, 6: int = zero / (digit1-9 *DIGIT) -/
def getInt (b : Bytes) : Option (Nat × Bytes) :=
  match getDigits b with
  | ([], _) => none
  | (0 :: _ :: _, _) => none
  | (l, r) => some (value l, r)

/-- RFC 8259, 6: frac = decimal-point 1*DIGIT, optional: its value -/
def getFrac (b : Bytes) : Option (Rat × Bytes) :=
  match b with
  | 46 :: s =>
    match getDigits s with
    | ([], _) => none
    | (l, r) => some ((value l : Rat) / 10 ^ l.length, r)
  | _ => some (0, b)

/-- [ minus / plus ] of an exponent: is it negative, and the rest -/
def expSign : Bytes → Bool × Bytes
  | 43 :: s => (false, s)
  | 45 :: s => (true, s)
  | s => (false, s)

/-- sign and digits of an exponent: its power of ten -/
def getPower (b : Bytes) : Option (Rat × Bytes) :=
  match getDigits (expSign b).2 with
  | ([], _) => none
  | (l, r) => some (if (expSign b).1 then 1 / 10 ^ value l else 10 ^ value l, r)

/-- RFC 8259, 6: exp = e [ minus / plus ] 1*DIGIT, optional: the power of ten -/
def getExp (b : Bytes) : Option (Rat × Bytes) :=
  match b with
  | 101 :: s => getPower s
  | 69 :: s => getPower s
  | _ => some (1, b)

/-- int, frac and exp -/
def getUnsigned (b : Bytes) : Option (Rat × Bytes) :=
  match getInt b with
  | none => none
  | some (n, r) =>
    match getFrac r with
    | none => none
    | some (q, r) =>
      match getExp r with
      | none => none
      | some (e, r) => some (((n : Rat) + q) * e, r)

/-- RFC 8259, 6: number = [ minus ] int [ frac ] [ exp ] -/
def getNumber (b : Bytes) : Option (Rat × Bytes) :=
  match b with
  | 45 :: s => (getUnsigned s).map fun (q, r) => (-q, r)
  | _ => getUnsigned b

def hexVal (c : UInt8) : Option Nat :=
  if 48 ≤ c.toNat ∧ c.toNat ≤ 57 then some (c.toNat - 48)
  else if 97 ≤ c.toNat ∧ c.toNat ≤ 102 then some (c.toNat - 87)
  else if 65 ≤ c.toNat ∧ c.toNat ≤ 70 then some (c.toNat - 55)
  else none

/-- four hexadecimal digits -/
def hex4 (a b c d : UInt8) : Option Nat :=
  match hexVal a, hexVal b, hexVal c, hexVal d with
  | some a, some b, some c, some d => some (4096 * a + 256 * b + 16 * c + d)
  | _, _, _, _ => none

/-- a character in UTF-8 -/
def utf8 (n : Nat) : Bytes := String.utf8EncodeChar (Char.ofNat n)

/-- RFC 8259, 7: the characters of a string after the opening quotation mark, and what follows the closing one.
(Escaped surrogate pairs, \ud83d\ude00, stand for one character; a lone surrogate is refused.) -/
def getChars : Nat → Bytes → Option (Bytes × Bytes)
  | 0, _ => none
  | f + 1, b =>
    let put (x : Bytes) (s : Bytes) : Option (Bytes × Bytes) := (getChars f s).map fun (t, r) => (x ++ t, r)
    match b with
    | [] => none
    | 34 :: s => some ([], s)
    | 92 :: 34 :: s => put [34] s
    | 92 :: 92 :: s => put [92] s
    | 92 :: 47 :: s => put [47] s
    | 92 :: 98 :: s => put [8] s
    | 92 :: 102 :: s => put [12] s
    | 92 :: 110 :: s => put [10] s
    | 92 :: 114 :: s => put [13] s
    | 92 :: 116 :: s => put [9] s
    | 92 :: 117 :: a :: b :: c :: d :: s =>
      match hex4 a b c d with
      | none => none
      | some n =>
        if n < 0xD800 ∨ 0xDFFF < n then put (utf8 n) s
        else if n < 0xDC00 then
          match s with
          | 92 :: 117 :: a :: b :: c :: d :: s =>
            match hex4 a b c d with
            | none => none
            | some m =>
              if 0xDC00 ≤ m ∧ m ≤ 0xDFFF then put (utf8 (0x10000 + 1024 * (n - 0xD800) + (m - 0xDC00))) s else none
          | _ => none
        else none
    | 92 :: _ => none
    | c :: s => if c.toNat < 32 then none else put [c] s

def getString (b : Bytes) : Option (Bytes × Bytes) :=
  match b with
  | 34 :: s => getChars (s.length + 1) s
  | _ => none

mutual
/-- RFC 8259, 3: value -/
def getValue : Nat → Bytes → Option (Json × Bytes)
  | 0, _ => none
  | f + 1, b =>
    match ws b with
    | 110 :: 117 :: 108 :: 108 :: s => some (.null, s)
    | 116 :: 114 :: 117 :: 101 :: s => some (.bool true, s)
    | 102 :: 97 :: 108 :: 115 :: 101 :: s => some (.bool false, s)
    | 34 :: s => (getString (34 :: s)).map fun (t, r) => (.str t, r)
    | 91 :: s =>
      match ws s with
      | 93 :: r => some (.arr [], r)
      | _ => (getElems f s).map fun (l, r) => (.arr l, r)
    | 123 :: s =>
      match ws s with
      | 125 :: r => some (.obj [], r)
      | _ => (getMembers f s).map fun (l, r) => (.obj l, r)
    | s => (getNumber s).map fun (q, r) => (.num q, r)
/-- RFC 8259, 5: the values of an array up to its end -/
def getElems : Nat → Bytes → Option (List Json × Bytes)
  | 0, _ => none
  | f + 1, b =>
    match getValue f b with
    | none => none
    | some (v, r) =>
      match ws r with
      | 93 :: r => some ([v], r)
      | 44 :: r => (getElems f r).map fun (l, r) => (v :: l, r)
      | _ => none
/-- RFC 8259, 4: the members of an object up to its end -/
def getMembers : Nat → Bytes → Option (List (Bytes × Json) × Bytes)
  | 0, _ => none
  | f + 1, b =>
    match getString (ws b) with
    | none => none
    | some (k, r) =>
      match ws r with
      | 58 :: r =>
        match getValue f r with
        | none => none
        | some (v, r) =>
          match ws r with
          | 125 :: r => some ([(k, v)], r)
          | 44 :: r => (getMembers f r).map fun (l, r) => ((k, v) :: l, r)
          | _ => none
      | _ => none
end

/-- RFC 8259, 2: JSON-text = ws value ws -/
def parse (b : Bytes) : Option Json :=
  match getValue (b.length + 1) b with
  | some (j, r) => if ws r = [] then some j else none
  | none => none

end Egts.JsonP
