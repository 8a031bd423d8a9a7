import Verif.Go.Basic
set_option autoImplicit false
/- Flags given as texts of binary digits. Independent of the code. -/
namespace Egts

/-- the value of a text of binary digits, most significant first -/
def binValue : Bytes → Nat
  | [] => 0
  | c :: cs => (if c = 49 then 2 ^ cs.length else 0) + binValue cs

/-- the texts of the flags, put together, are the binary digits of a number of at most 8 bits -/
def FlagText (fs : List Bytes) : Prop :=
  fs.flatten ≠ [] ∧ (∀ f ∈ fs, ∀ c ∈ f, c = 48 ∨ c = 49) ∧ binValue fs.flatten ≤ 255

/-- the lowest `w` bits of a number as digits, most significant first -/
def bitsOf (w n : Nat) : Bytes := (List.range w).map fun k => if n.testBit (w - 1 - k) then 49 else 48

/-- the bytes `r` written for flags `fs`, which belong at offset `i`: nothing is written unless the flags spell a byte; the byte
written is the one they spell; if they have eight digits in total, its bits are exactly these digits -/
structure FlagsWritten (r : Go Bytes) (i : Nat) (fs : List Bytes) : Prop where
  refused : ¬ FlagText fs → ∀ out, r ≠ .ok out
  value : ∀ out, r = .ok out → ∃ b : UInt8, out[i]? = some b ∧ b.toNat = binValue fs.flatten
  exact : ∀ out, r = .ok out → fs.flatten.length = 8 → ∃ b : UInt8, out[i]? = some b ∧ fs.flatten = bitsOf 8 b.toNat

end Egts
