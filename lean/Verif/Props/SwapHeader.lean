import Verif.Model.Crc
import Verif.Lemmas.KernelRfl
set_option autoImplicit false
/- C141: the CRC-8 is linear over XOR; which exchanges of neighbouring bytes it misses. -/
namespace Egts
theorem u8_all {f : UInt8 → Bool} (h : (List.range 256).all (fun n => f (UInt8.ofNat n)) = true) (a : UInt8) : f a = true := by
  have := List.all_eq_true.mp h a.toNat (List.mem_range.mpr a.toNat_lt)
  simpa using this
theorem top_bit (a : UInt8) : a &&& 0x80 = 0 ∨ a &&& 0x80 = 0x80 := by
  have := u8_all (f := fun a => a &&& 0x80 == 0 || a &&& 0x80 == 0x80) (by kernel_rfl) a
  simpa using this
theorem crc8Bit_xor (a b : UInt8) : crc8Bit (a ^^^ b) = crc8Bit a ^^^ crc8Bit b := by
  have hx : (a ^^^ b) &&& 0x80 = (a &&& 0x80) ^^^ (b &&& 0x80) := by
    apply UInt8.toNat_inj.mp
    simp only [UInt8.toNat_and, UInt8.toNat_xor]
    exact Nat.and_xor_distrib_right
  have hs : (a ^^^ b) <<< 1 = (a <<< 1) ^^^ (b <<< 1) := UInt8.shiftLeft_xor ..
  unfold crc8Bit
  rw [hx, hs]
  generalize a <<< 1 = x
  generalize b <<< 1 = y
  have e : x ^^^ 49 ^^^ y = x ^^^ y ^^^ 49 := by rw [UInt8.xor_assoc, UInt8.xor_comm 49, ← UInt8.xor_assoc]
  rcases top_bit a with h1 | h1 <;> rcases top_bit b with h2 | h2 <;> rw [h1, h2]
  · simp
  · simp [UInt8.xor_assoc]
  · simpa using e.symm
  · have : (128 : UInt8) ^^^ 128 = 0 := by decide
    rw [this]
    have h3 : x ^^^ 49 ^^^ (y ^^^ 49) = x ^^^ y := by
      rw [UInt8.xor_assoc, UInt8.xor_comm y, ← UInt8.xor_assoc 49, UInt8.xor_self, UInt8.zero_xor]
    simpa using h3.symm
/-- one byte of the header checksum, as a map of the register -/
def crc8T (z : UInt8) : UInt8 := crc8Byte z 0
theorem crc8Byte_T (c b : UInt8) : crc8Byte c b = crc8T (c ^^^ b) := by simp [crc8T, crc8Byte]
theorem crc8T_xor (a b : UInt8) : crc8T (a ^^^ b) = crc8T a ^^^ crc8T b := by
  simp only [crc8T, crc8Byte, UInt8.xor_zero, crc8Bit_xor]
theorem crc8T_zero (d : UInt8) (h : crc8T d = 0) : d = 0 := by
  have := u8_all (f := fun a => crc8T a != 0 || a == 0) (by kernel_rfl) d
  rw [h] at this
  simpa using this
theorem crc8T_fix (d : UInt8) (h : crc8T d = d) : d = 0 ∨ d = 0xEF := by
  have := u8_all (f := fun a => crc8T a != a || a == 0 || a == 0xEF) (by kernel_rfl) d
  rw [h] at this
  simpa using this
theorem xor_cancel {a b c : UInt8} (h : a ^^^ b = a ^^^ c) : b = c := by
  have := congrArg (a ^^^ ·) h
  simpa [← UInt8.xor_assoc] using this
theorem xor_zero_eq {a b : UInt8} (h : a ^^^ b = 0) : a = b := by
  have := congrArg (· ^^^ b) h
  simpa [UInt8.xor_assoc] using this
theorem crc8T_inj {a b : UInt8} (h : crc8T a = crc8T b) : a = b := by
  apply xor_zero_eq
  apply crc8T_zero
  rw [crc8T_xor, h, UInt8.xor_self]
theorem fold_inj (y : Bytes) {s t : UInt8} (h : y.foldl crc8Byte s = y.foldl crc8Byte t) : s = t := by
  induction y generalizing s t with
  | nil => exact h
  | cons b y ih =>
    have := ih h
    rw [crc8Byte_T, crc8Byte_T] at this
    have := crc8T_inj this
    rw [UInt8.xor_comm s, UInt8.xor_comm t] at this
    exact xor_cancel this
/-- two neighbouring bytes exchanged: the header checksum stays the same exactly if they are equal or differ by EF -/
theorem crc8_swap_iff (x y : Bytes) (u v : UInt8) : crc8 (x ++ u :: v :: y) = crc8 (x ++ v :: u :: y) ↔ u = v ∨ u ^^^ v = 0xEF := by
  have fix : crc8T 0xEF = 0xEF := by decide
  have alg : ∀ s : UInt8, crc8Byte (crc8Byte s u) v = crc8Byte (crc8Byte s v) u ↔ crc8T (u ^^^ v) = u ^^^ v := by
    intro s
    simp only [crc8Byte_T]
    constructor
    · intro h
      have h1 := crc8T_inj h
      rw [crc8T_xor, crc8T_xor, UInt8.xor_assoc, UInt8.xor_assoc] at h1
      have h2 := xor_cancel h1
      rw [crc8T_xor]
      have h3 := congrArg (fun z => z ^^^ v ^^^ crc8T v) h2
      have l : crc8T u ^^^ v ^^^ v ^^^ crc8T v = crc8T u ^^^ crc8T v := by rw [UInt8.xor_assoc (crc8T u), UInt8.xor_self, UInt8.xor_zero]
      have r : crc8T v ^^^ u ^^^ v ^^^ crc8T v = u ^^^ v := by
        rw [UInt8.xor_assoc (crc8T v), UInt8.xor_comm (crc8T v), UInt8.xor_assoc, UInt8.xor_self, UInt8.xor_zero]
      rw [l, r] at h3
      exact h3
    · intro h
      congr 1
      rw [crc8T_xor, crc8T_xor, UInt8.xor_assoc, UInt8.xor_assoc]
      congr 1
      rw [crc8T_xor] at h
      have h3 := congrArg (fun z => z ^^^ crc8T v ^^^ v) h
      have l : crc8T u ^^^ crc8T v ^^^ crc8T v ^^^ v = crc8T u ^^^ v := by rw [UInt8.xor_assoc (crc8T u), UInt8.xor_self, UInt8.xor_zero]
      have r : u ^^^ v ^^^ crc8T v ^^^ v = crc8T v ^^^ u := by
        rw [UInt8.xor_assoc u, UInt8.xor_comm v, UInt8.xor_assoc u, UInt8.xor_assoc (crc8T v), UInt8.xor_self, UInt8.xor_zero, UInt8.xor_comm]
      rw [l, r] at h3
      exact h3
  unfold crc8
  simp only [List.foldl_append, List.foldl_cons]
  constructor
  · intro h
    rcases crc8T_fix _ ((alg _).mp (fold_inj y h)) with h | h
    · exact .inl (xor_zero_eq h)
    · exact .inr h
  · rintro (rfl | h)
    · rfl
    · rw [(alg _).mpr (by rw [h, fix])]
end Egts
