import Verif.Lemmas.Basic
import Verif.Spec.Wire
set_option autoImplicit false
namespace Egts

theorem isBit_iff {s : Bytes} : IsBit s ↔ ∃ b, s = bitS b := by
  constructor
  · rintro (h | h)
    · exact ⟨false, h⟩
    · exact ⟨true, h⟩
  · rintro ⟨b, rfl⟩; cases b <;> simp [IsBit, bitS, dig]

theorem isBit_bitS (b : Bool) : IsBit (bitS b) := isBit_iff.mpr ⟨b, rfl⟩

@[simp] theorem bitv_bitS (b : Bool) : bitv (bitS b) = b.toNat := by cases b <;> rfl

theorem le16_eq (x : UInt16) : le16 x = leBytes 2 x.toNat := by
  simp only [le16, leBytes]
  congr 1
  · apply UInt8.toNat_inj.mp; simp
  · congr 1
    apply UInt8.toNat_inj.mp; simp

theorem le32_eq (x : UInt32) : le32 x = leBytes 4 x.toNat := by
  simp only [le32, leBytes]
  congr 1
  · apply UInt8.toNat_inj.mp; simp
  congr 1
  · apply UInt8.toNat_inj.mp; simp
  congr 1
  · apply UInt8.toNat_inj.mp; simp; omega
  congr 1
  · apply UInt8.toNat_inj.mp; simp; omega

theorem le32_take3 (x : UInt32) : (le32 x).take 3 = leBytes 3 x.toNat := by
  rw [le32_eq]; simp [leBytes]

theorem leBytes_len (k n : Nat) : (leBytes k n).length = k := by
  induction k generalizing n with
  | zero => rfl
  | succ k ih => simp [leBytes, ih]

end Egts
