import Verif.Lemmas.CrcOrder
set_option autoImplicit false
/- C01, C02, C03: the two checksums. -/
namespace Egts
open Polynomial

/-- C01: the header checksum of every byte string, read as a polynomial, is the remainder of
(message · x⁸ with the first 8 bits complemented) modulo x⁸+x⁵+x⁴+1.  Complementing the first eight
bits is adding `(1+x+…+x⁷)·x^(8n)` where `n` is the number of bytes. -/
theorem crc8_is_crc (data : Bytes) :
    wordPoly 8 (crc8 data).toNat =
      (msgPoly data * X ^ 8 + onesPoly 8 * X ^ (8 * data.length)) %ₘ gen8 := by
  obtain ⟨q, hq⟩ := crc8_poly data
  have hdeg : (wordPoly 8 (crc8 data).toNat).degree < gen8.degree := by
    rw [gen8_degree]; exact wordPoly_degree _ _
  refine ((div_modByMonic_unique q _ gen8_monic ⟨?_, hdeg⟩).2).symm
  rw [hq]; ring

/-- C02: the body checksum of every byte string is the remainder of (message · x¹⁶ with the first 16
bits complemented) modulo x¹⁶+x¹²+x⁵+1 (CRC-16/CCITT-FALSE). -/
theorem crc16_is_crc (data : Bytes) :
    wordPoly 16 (crc16 data).toNat =
      (msgPoly data * X ^ 16 + onesPoly 16 * X ^ (8 * data.length)) %ₘ gen16 := by
  obtain ⟨q, hq⟩ := crc16_poly data
  have hdeg : (wordPoly 16 (crc16 data).toNat).degree < gen16.degree := by
    rw [gen16_degree]; exact wordPoly_degree _ _
  refine ((div_modByMonic_unique q _ gen16_monic ⟨?_, hdeg⟩).2).symm
  rw [hq]; ring

/-- a checksum value is determined by its polynomial, so C01/C02 determine the functions -/
theorem wordPoly_injective {w a b : Nat} (ha : a < 2 ^ w) (hb : b < 2 ^ w)
    (h : wordPoly w a = wordPoly w b) : a = b := wordPoly_ne_of_lt ha hb h

/-- C03 (body): two different byte strings of equal length that differ only inside a window of 16
consecutive bits have different body checksums. -/
theorem crc16_detects_burst (a b : Bytes) (hlen : a.length = b.length) (hne : a ≠ b) (k : Nat)
    (hwin : ∀ i, msgBit a i ≠ msgBit b i → k ≤ i ∧ i < k + 16) : crc16 a ≠ crc16 b :=
  fun h => hne (burst_core gen16_degree coprime_gen16_X hlen k hwin (dvd_of_crc16_eq hlen h))

/-- C03 (header): likewise for windows of 8 bits and the header checksum. -/
theorem crc8_detects_burst (a b : Bytes) (hlen : a.length = b.length) (hne : a ≠ b) (k : Nat)
    (hwin : ∀ i, msgBit a i ≠ msgBit b i → k ≤ i ∧ i < k + 8) : crc8 a ≠ crc8 b :=
  fun h => hne (burst_core gen8_degree coprime_gen8_X hlen k hwin (dvd_of_crc8_eq hlen h))

/-- the bits of two strings that differ in one byte differ only inside that byte -/
theorem msgBit_one_byte (x y : Bytes) (u v : UInt8) (i : Nat)
    (h : msgBit (x ++ u :: y) i ≠ msgBit (x ++ v :: y) i) : 8 * x.length ≤ i ∧ i < 8 * x.length + 8 := by
  by_contra hc
  apply h
  unfold msgBit
  rw [List.getD_eq_getElem?_getD, List.getD_eq_getElem?_getD]
  by_cases h1 : i / 8 < x.length
  · rw [List.getElem?_append_left h1, List.getElem?_append_left h1]
  · rw [List.getElem?_append_right (by omega), List.getElem?_append_right (by omega)]
    have h2 : i / 8 - x.length = (i / 8 - x.length - 1) + 1 := by omega
    rw [h2, List.getElem?_cons_succ, List.getElem?_cons_succ]

/-- corollary used for packets: changing one byte changes both checksums. -/
theorem crc8_one_byte (x y : Bytes) {u v : UInt8} (h : u ≠ v) : crc8 (x ++ u :: y) ≠ crc8 (x ++ v :: y) :=
  crc8_detects_burst _ _ (by simp) (by simpa using h) (8 * x.length) fun i hi => msgBit_one_byte x y u v i hi

theorem crc16_one_byte (x y : Bytes) {u v : UInt8} (h : u ≠ v) : crc16 (x ++ u :: y) ≠ crc16 (x ++ v :: y) :=
  crc16_detects_burst _ _ (by simp) (by simpa using h) (8 * x.length) fun i hi => by
    have := msgBit_one_byte x y u v i hi; omega

/-- number of bit positions in which two byte strings of length `a.length` differ -/
def bitErrors (a b : Bytes) : Nat := ((List.range (8 * a.length)).filter fun i => msgBit a i != msgBit b i).length

theorem eval_one_diff (a b : Bytes) (hlen : a.length = b.length) :
    (msgPoly a + msgPoly b).eval 1 = (bitErrors a b : ZMod 2) := by
  have h : ∀ n, (∑ i ∈ Finset.range n, (bitZ (msgBit a i) + bitZ (msgBit b i))) =
      ((((List.range n).filter fun i => msgBit a i != msgBit b i).length : Nat) : ZMod 2) := by
    intro n
    induction n with
    | zero => simp
    | succ n ih =>
      rw [Finset.sum_range_succ, ih, List.range_succ, List.filter_append, List.length_append]
      push_cast
      congr 1
      cases h1 : msgBit a n <;> cases h2 : msgBit b n <;> simp [h1, h2] <;> decide
  unfold bitErrors
  rw [← h, Finset.sum_add_distrib]
  simp only [msgPoly, eval_add, eval_finset_sum, eval_mul, eval_C, eval_pow, eval_X, one_pow, mul_one, hlen]

/-- C58 (body): two byte strings of equal length that differ in an odd number of bits have
different body checksums. -/
theorem crc16_detects_odd (a b : Bytes) (hlen : a.length = b.length) (hodd : bitErrors a b % 2 = 1) :
    crc16 a ≠ crc16 b := by
  intro h
  obtain ⟨q, hq⟩ := dvd_of_crc16_eq hlen h
  have := congrArg (eval 1) hq
  rw [eval_mul, eval_mul, eval_one_diff a b hlen] at this
  have hg : eval 1 gen16 = 0 := by simp [gen16]; decide
  rw [hg, zero_mul, eval_pow, eval_X, one_pow, one_mul] at this
  rw [ZMod.natCast_eq_zero_iff] at this
  omega

/-- C58 (header): likewise for the header checksum. -/
theorem crc8_detects_odd (a b : Bytes) (hlen : a.length = b.length) (hodd : bitErrors a b % 2 = 1) :
    crc8 a ≠ crc8 b := by
  intro h
  obtain ⟨q, hq⟩ := dvd_of_crc8_eq hlen h
  have := congrArg (eval 1) hq
  rw [eval_mul, eval_mul, eval_one_diff a b hlen] at this
  have hg : eval 1 gen8 = 0 := by simp [gen8]; decide
  rw [hg, zero_mul, eval_pow, eval_X, one_pow, one_mul] at this
  rw [ZMod.natCast_eq_zero_iff] at this
  omega

/-- the difference polynomial of strings that differ in exactly the bits `i < j` -/
theorem two_bit_core {g : GF2Poly} {s : Nat} (hc : IsCoprime g (X : GF2Poly)) {a b : Bytes}
    (hlen : a.length = b.length) {i j : Nat} (hij : i < j) (hj : j < 8 * a.length)
    (hdiff : ∀ t, t < 8 * a.length → (msgBit a t ≠ msgBit b t ↔ t = i ∨ t = j))
    (hdvd : g ∣ X ^ s * (msgPoly a + msgPoly b)) : g ∣ X ^ (j - i) + 1 := by
  have hD : msgPoly a + msgPoly b = X ^ (8 * a.length - 1 - j) * (X ^ (j - i) + 1) := by
    ext t
    rw [coeff_add, coeff_msgPoly, coeff_msgPoly, ← hlen, mul_add, ← pow_add, mul_one, coeff_add,
      coeff_X_pow, coeff_X_pow]
    by_cases ht : t < 8 * a.length
    · rw [if_pos ht, if_pos ht]
      have := hdiff (8 * a.length - 1 - t) (by omega)
      by_cases hd : msgBit a (8 * a.length - 1 - t) = msgBit b (8 * a.length - 1 - t)
      · rw [hd, bitZ_self]
        have : ¬ (8 * a.length - 1 - t = i ∨ 8 * a.length - 1 - t = j) := fun h => (this.mpr h) hd
        rw [if_neg (by omega), if_neg (by omega), add_zero]
      · have h1 : bitZ (msgBit a (8 * a.length - 1 - t)) + bitZ (msgBit b (8 * a.length - 1 - t)) = 1 := by
          revert hd
          cases msgBit a (8 * a.length - 1 - t) <;> cases msgBit b (8 * a.length - 1 - t) <;> decide
        rw [h1]
        rcases this.mp hd with h | h
        · rw [if_pos (by omega), if_neg (by omega), add_zero]
        · rw [if_neg (by omega), if_pos (by omega), zero_add]
    · rw [if_neg ht, if_neg ht, if_neg (by omega), if_neg (by omega)]
  rw [hD] at hdvd
  have h1 : g ∣ X ^ (s + (8 * a.length - 1 - j)) * (X ^ (j - i) + 1) := by
    rw [pow_add, mul_assoc]; exact hdvd
  exact (hc.pow_right).dvd_of_dvd_mul_left h1

/-- C59 (body): two byte strings of equal length that differ in exactly two bits less than 32767
bits apart (any two bits of a body of up to 4095 bytes) have different body checksums. -/
theorem crc16_detects_double (a b : Bytes) (hlen : a.length = b.length) (i j : Nat) (hij : i < j)
    (hj : j < 8 * a.length) (hd : j - i < 32767)
    (hdiff : ∀ t, t < 8 * a.length → (msgBit a t ≠ msgBit b t ↔ t = i ∨ t = j)) : crc16 a ≠ crc16 b := by
  intro h
  exact not_dvd_pow_add_one (w := 16) (by decide) gen16_degree step16_poly (j - i)
    (order16 _ (by omega) hd) (two_bit_core coprime_gen16_X hlen hij hj hdiff (dvd_of_crc16_eq hlen h))

/-- C59 (header): two bits less than 127 bits apart (any two bits of a header, which has at most 15
bytes before its checksum), header checksum. -/
theorem crc8_detects_double (a b : Bytes) (hlen : a.length = b.length) (i j : Nat) (hij : i < j)
    (hj : j < 8 * a.length) (hd : j - i < 127)
    (hdiff : ∀ t, t < 8 * a.length → (msgBit a t ≠ msgBit b t ↔ t = i ∨ t = j)) : crc8 a ≠ crc8 b := by
  intro h
  exact not_dvd_pow_add_one (w := 8) (by decide) gen8_degree step8_poly (j - i)
    (order8 _ (by omega) hd) (two_bit_core coprime_gen8_X hlen hij hj hdiff (dvd_of_crc8_eq hlen h))

/-- the hypotheses of C58/C59 are met, e.g. by these strings (test). -/
example : bitErrors [0x10, 0x07] [0, 0] % 2 = 0 ∧ bitErrors [0x10, 0x03] [0, 0] % 2 = 1 ∧
    ∀ t, t < 8 * ([0x10, 0x02] : Bytes).length → (msgBit [0x10, 0x02] t ≠ msgBit [0, 0] t ↔ t = 3 ∨ t = 14) := by
  decide

/-- test vectors: CRC-8 0xF7 and CRC-16/CCITT-FALSE 0x29B1 of "123456789" (libs/egts/crc_test.go:5-17). -/
example : crc8 [49, 50, 51, 52, 53, 54, 55, 56, 57] = 0xF7 := by decide +kernel
example : crc16 [49, 50, 51, 52, 53, 54, 55, 56, 57] = 0x29B1 := by decide +kernel
/-- the hypotheses of C03 are met by a two-byte burst that straddles byte boundaries (test). -/
example : ([0, 1, 128, 0] : Bytes).length = ([0, 0, 0, 0] : Bytes).length ∧
    (∀ i, i < 32 → msgBit [0, 1, 128, 0] i ≠ msgBit [0, 0, 0, 0] i → 15 ≤ i ∧ i < 15 + 16) := by decide

end Egts
