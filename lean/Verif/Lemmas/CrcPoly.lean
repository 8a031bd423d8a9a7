import Verif.Spec.CrcSpec
import Verif.Model.Crc
import Mathlib.Algebra.Field.ZMod
import Mathlib.RingTheory.Coprime.Lemmas
import Mathlib.Tactic.Ring
import Mathlib.Tactic.LinearCombination
import Mathlib.Tactic.ComputeDegree
import Mathlib.Tactic.IntervalCases
import Mathlib.Algebra.CharP.Two
set_option autoImplicit false
/- The CRC registers as polynomials over GF(2). -/
namespace Egts
open Polynomial

theorem coeff_wordPoly (w n i : Nat) :
    (wordPoly w n).coeff i = if i < w then bitZ (n.testBit i) else 0 := by
  simp only [wordPoly, finsetSum_coeff, coeff_C_mul, coeff_X_pow]
  simp

theorem bitZ_xor (a b : Bool) : bitZ (a ^^ b) = bitZ a + bitZ b := by
  cases a <;> cases b <;> decide

theorem wordPoly_xor (w a b : Nat) : wordPoly w (a ^^^ b) = wordPoly w a + wordPoly w b := by
  ext i
  simp only [coeff_wordPoly, coeff_add, Nat.testBit_xor, bitZ_xor]
  split <;> simp

theorem wordPoly_ne_of_lt {w a b : Nat} (ha : a < 2 ^ w) (hb : b < 2 ^ w) (h : wordPoly w a = wordPoly w b) :
    a = b := by
  apply Nat.eq_of_testBit_eq
  intro i
  by_cases hi : i < w
  · have := congrArg (fun p => p.coeff i) h
    simp only [coeff_wordPoly, hi, if_true] at this
    revert this
    cases a.testBit i <;> cases b.testBit i <;> decide
  · have h2 : 2 ^ w ≤ 2 ^ i := Nat.pow_le_pow_right (by decide) (by omega)
    rw [Nat.testBit_lt_two_pow (by omega), Nat.testBit_lt_two_pow (by omega)]

theorem wordPoly_degree (w n : Nat) : (wordPoly w n).degree < w := by
  rw [degree_lt_iff_coeff_zero]
  intro m hm
  rw [coeff_wordPoly, if_neg (by omega)]

/-- shifting left by one multiplies by `X`, except for the bit shifted out -/
theorem wordPoly_shift (w n : Nat) (hw : 0 < w) :
    wordPoly w (2 * n % 2 ^ w) + C (bitZ (n.testBit (w - 1))) * X ^ w = X * wordPoly w n := by
  ext i
  rw [coeff_add, coeff_wordPoly, coeff_C_mul, coeff_X_pow]
  cases i with
  | zero =>
    have : ¬ (0 = w) := by omega
    simp [this, hw, Nat.testBit_mod_two_pow, bitZ]
  | succ i =>
    rw [coeff_X_mul, coeff_wordPoly, Nat.testBit_mod_two_pow]
    have : (2 * n).testBit (i + 1) = n.testBit i := by
      rw [Nat.testBit_succ]; simp
    by_cases h1 : i + 1 < w
    · have h2 : ¬ (i + 1 = w) := by omega
      have h3 : i < w := by omega
      simp [h1, h2, h3, this]
    · by_cases h2 : i + 1 = w
      · have h3 : i < w := by omega
        have h4 : w - 1 = i := by omega
        simp [h1, h2, h3, h4]
      · have h3 : ¬ i < w := by omega
        simp [h1, h2, h3]

theorem wordPoly_gen8 : wordPoly 8 0x31 + X ^ 8 = gen8 := by
  simp [wordPoly, Finset.sum_range_succ, bitZ, gen8, Nat.testBit, Nat.shiftRight_eq_div_pow]
  ring

theorem wordPoly_gen16 : wordPoly 16 0x1021 + X ^ 16 = gen16 := by
  simp [wordPoly, Finset.sum_range_succ, bitZ, gen16, Nat.testBit, Nat.shiftRight_eq_div_pow]
  ring

theorem wordPoly_ones8 : wordPoly 8 0xFF = onesPoly 8 := by
  simp [wordPoly, onesPoly, Finset.sum_range_succ, bitZ, Nat.testBit, Nat.shiftRight_eq_div_pow]

theorem wordPoly_ones16 : wordPoly 16 0xFFFF = onesPoly 16 := by
  simp [wordPoly, onesPoly, Finset.sum_range_succ, bitZ, Nat.testBit, Nat.shiftRight_eq_div_pow]

theorem gf2_add_self (p : GF2Poly) : p + p = 0 := CharTwo.add_self_eq_zero p

theorem and80 (c : UInt8) : (c &&& 0x80 ≠ 0) ↔ c.toNat.testBit 7 = true := by
  have : ∀ n : Fin 256, (UInt8.ofNat n.val &&& 0x80 ≠ 0) ↔ (UInt8.ofNat n.val).toNat.testBit 7 = true := by
    decide +kernel
  simpa using this ⟨c.toNat, c.toNat_lt⟩

theorem and8000 (c : UInt16) : (c &&& 0x8000 ≠ 0) ↔ c.toNat.testBit 15 = true := by
  have h : (c &&& 0x8000).toNat = c.toNat &&& 2 ^ 15 := by rw [UInt16.toNat_and]; rfl
  have h15 : (c &&& 0x8000).toNat.testBit 15 = c.toNat.testBit 15 := by
    rw [h, Nat.testBit_and, Nat.testBit_two_pow_self, Bool.and_true]
  rw [← h15]
  constructor
  · intro hne
    by_contra hb
    apply hne
    rw [← UInt16.toNat_inj]
    apply Nat.eq_of_testBit_eq
    intro i
    by_cases hi : i = 15
    · subst hi; simpa using hb
    · rw [h, Nat.testBit_and, Nat.testBit_two_pow_of_ne (Ne.symm hi)]; simp
  · intro hb h0
    rw [h0] at hb
    simp at hb

/-- one shift step of the header checksum multiplies by `X` modulo the generator -/
theorem crc8Bit_poly (c : UInt8) : ∃ q : GF2Poly,
    X * wordPoly 8 c.toNat = q * gen8 + wordPoly 8 (crc8Bit c).toNat := by
  have hs : (c <<< 1).toNat = 2 * c.toNat % 2 ^ 8 := by
    simp [UInt8.toNat_shiftLeft, Nat.shiftLeft_eq]; omega
  have h := wordPoly_shift 8 c.toNat (by decide)
  refine ⟨C (bitZ (c.toNat.testBit 7)), ?_⟩
  rw [← h]
  unfold crc8Bit
  by_cases hb : c.toNat.testBit 7 = true
  · rw [if_pos ((and80 c).mpr hb), UInt8.toNat_xor, wordPoly_xor, hs]
    have : (0x31 : UInt8).toNat = 0x31 := rfl
    rw [this, ← wordPoly_gen8, hb]
    simp only [bitZ, if_true, map_one, one_mul]
    linear_combination -(gf2_add_self (wordPoly 8 49))
  · rw [if_neg (fun hh => hb ((and80 c).mp hh)), hs]
    simp only [Bool.not_eq_true] at hb
    simp [hb, bitZ]

theorem crc16Bit_poly (c : UInt16) : ∃ q : GF2Poly,
    X * wordPoly 16 c.toNat = q * gen16 + wordPoly 16 (crc16Bit c).toNat := by
  have hs : (c <<< 1).toNat = 2 * c.toNat % 2 ^ 16 := by
    simp [UInt16.toNat_shiftLeft, Nat.shiftLeft_eq]; omega
  have h := wordPoly_shift 16 c.toNat (by decide)
  refine ⟨C (bitZ (c.toNat.testBit 15)), ?_⟩
  rw [← h]
  unfold crc16Bit
  by_cases hb : c.toNat.testBit 15 = true
  · rw [if_pos ((and8000 c).mpr hb), UInt16.toNat_xor, wordPoly_xor, hs]
    have : (0x1021 : UInt16).toNat = 0x1021 := rfl
    rw [this, ← wordPoly_gen16, hb]
    simp only [bitZ, if_true, map_one, one_mul]
    linear_combination -(gf2_add_self (wordPoly 16 0x1021))
  · rw [if_neg (fun hh => hb ((and8000 c).mp hh)), hs]
    simp only [Bool.not_eq_true] at hb
    simp [hb, bitZ]

theorem crc8Byte_poly (c b : UInt8) : ∃ q : GF2Poly,
    X ^ 8 * (wordPoly 8 c.toNat + wordPoly 8 b.toNat) = q * gen8 + wordPoly 8 (crc8Byte c b).toNat := by
  unfold crc8Byte
  rw [← wordPoly_xor, ← UInt8.toNat_xor]
  generalize c ^^^ b = x0
  obtain ⟨q1, h1⟩ := crc8Bit_poly x0
  obtain ⟨q2, h2⟩ := crc8Bit_poly (crc8Bit x0)
  obtain ⟨q3, h3⟩ := crc8Bit_poly (crc8Bit (crc8Bit x0))
  obtain ⟨q4, h4⟩ := crc8Bit_poly (crc8Bit (crc8Bit (crc8Bit x0)))
  obtain ⟨q5, h5⟩ := crc8Bit_poly (crc8Bit (crc8Bit (crc8Bit (crc8Bit x0))))
  obtain ⟨q6, h6⟩ := crc8Bit_poly (crc8Bit (crc8Bit (crc8Bit (crc8Bit (crc8Bit x0)))))
  obtain ⟨q7, h7⟩ := crc8Bit_poly (crc8Bit (crc8Bit (crc8Bit (crc8Bit (crc8Bit (crc8Bit x0))))))
  obtain ⟨q8, h8⟩ := crc8Bit_poly (crc8Bit (crc8Bit (crc8Bit (crc8Bit (crc8Bit (crc8Bit (crc8Bit x0)))))))
  refine ⟨X ^ 7 * q1 + X ^ 6 * q2 + X ^ 5 * q3 + X ^ 4 * q4 + X ^ 3 * q5 + X ^ 2 * q6 + X * q7 + q8, ?_⟩
  linear_combination X ^ 7 * h1 + X ^ 6 * h2 + X ^ 5 * h3 + X ^ 4 * h4 + X ^ 3 * h5 + X ^ 2 * h6 + X * h7 + h8

theorem wordPoly_byte_shl (b : UInt8) :
    wordPoly 16 (b.toUInt16 <<< 8).toNat = X ^ 8 * wordPoly 8 b.toNat := by
  have hb := b.toNat_lt
  have hs : (b.toUInt16 <<< 8).toNat = b.toNat * 2 ^ 8 := by
    simp [UInt16.toNat_shiftLeft, Nat.shiftLeft_eq]; omega
  rw [hs]
  ext i
  rw [coeff_X_pow_mul', coeff_wordPoly, coeff_wordPoly, Nat.testBit_mul_two_pow]
  by_cases h8 : 8 ≤ i
  · by_cases h16 : i < 16
    · have : i - 8 < 8 := by omega
      simp [h8, h16, this]
    · have : ¬ (i - 8 < 8) := by omega
      simp [h8, h16, this]
  · simp [h8, bitZ]

theorem crc16Byte_poly (c : UInt16) (b : UInt8) : ∃ q : GF2Poly,
    X ^ 8 * (wordPoly 16 c.toNat + X ^ 8 * wordPoly 8 b.toNat)
      = q * gen16 + wordPoly 16 (crc16Byte c b).toNat := by
  unfold crc16Byte
  rw [← wordPoly_byte_shl, ← wordPoly_xor, ← UInt16.toNat_xor]
  generalize c ^^^ (b.toUInt16 <<< 8) = x0
  obtain ⟨q1, h1⟩ := crc16Bit_poly x0
  obtain ⟨q2, h2⟩ := crc16Bit_poly (crc16Bit x0)
  obtain ⟨q3, h3⟩ := crc16Bit_poly (crc16Bit (crc16Bit x0))
  obtain ⟨q4, h4⟩ := crc16Bit_poly (crc16Bit (crc16Bit (crc16Bit x0)))
  obtain ⟨q5, h5⟩ := crc16Bit_poly (crc16Bit (crc16Bit (crc16Bit (crc16Bit x0))))
  obtain ⟨q6, h6⟩ := crc16Bit_poly (crc16Bit (crc16Bit (crc16Bit (crc16Bit (crc16Bit x0)))))
  obtain ⟨q7, h7⟩ := crc16Bit_poly (crc16Bit (crc16Bit (crc16Bit (crc16Bit (crc16Bit (crc16Bit x0))))))
  obtain ⟨q8, h8⟩ := crc16Bit_poly (crc16Bit (crc16Bit (crc16Bit (crc16Bit (crc16Bit (crc16Bit (crc16Bit x0)))))))
  refine ⟨X ^ 7 * q1 + X ^ 6 * q2 + X ^ 5 * q3 + X ^ 4 * q4 + X ^ 3 * q5 + X ^ 2 * q6 + X * q7 + q8, ?_⟩
  linear_combination X ^ 7 * h1 + X ^ 6 * h2 + X ^ 5 * h3 + X ^ 4 * h4 + X ^ 3 * h5 + X ^ 2 * h6 + X * h7 + h8

/-! ### the message polynomial -/

theorem coeff_msgPoly (d : Bytes) (j : Nat) : (msgPoly d).coeff j =
    if j < 8 * d.length then bitZ (msgBit d (8 * d.length - 1 - j)) else 0 := by
  simp only [msgPoly, finsetSum_coeff, coeff_C_mul, coeff_X_pow]
  by_cases hj : j < 8 * d.length
  · rw [if_pos hj, Finset.sum_eq_single (8 * d.length - 1 - j)]
    · have : j = 8 * d.length - 1 - (8 * d.length - 1 - j) := by omega
      rw [if_pos this, mul_one]
    · intro i hi hne
      have hi := Finset.mem_range.mp hi
      rw [if_neg (by omega), mul_zero]
    · intro h
      exact absurd (Finset.mem_range.mpr (by omega)) h
  · rw [if_neg hj]
    apply Finset.sum_eq_zero
    intro i hi
    have hi := Finset.mem_range.mp hi
    rw [if_neg (by omega), mul_zero]

theorem msgPoly_snoc (d : Bytes) (b : UInt8) :
    msgPoly (d ++ [b]) = X ^ 8 * msgPoly d + wordPoly 8 b.toNat := by
  ext j
  rw [coeff_add, coeff_X_pow_mul', coeff_wordPoly, coeff_msgPoly, coeff_msgPoly]
  simp only [List.length_append, List.length_cons, List.length_nil]
  by_cases h8 : 8 ≤ j
  · rw [if_pos h8, if_neg (show ¬ j < 8 by omega), add_zero]
    by_cases hj : j < 8 * (d.length + (0 + 1))
    · rw [if_pos hj, if_pos (show j - 8 < 8 * d.length by omega)]
      congr 1
      have e1 : 8 * (d.length + (0 + 1)) - 1 - j = 8 * d.length - 1 - (j - 8) := by omega
      rw [e1]
      unfold msgBit
      rw [List.getD_eq_getElem?_getD, List.getD_eq_getElem?_getD, List.getElem?_append_left (by omega)]
    · rw [if_neg hj, if_neg (by omega)]
  · rw [if_neg h8, if_pos (show j < 8 by omega), if_pos (by omega), zero_add]
    congr 1
    unfold msgBit
    rw [List.getD_eq_getElem?_getD, List.getElem?_append_right (by omega)]
    have e1 : (8 * (d.length + (0 + 1)) - 1 - j) / 8 - d.length = 0 := by omega
    have e2 : 7 - (8 * (d.length + (0 + 1)) - 1 - j) % 8 = j := by omega
    rw [e1, e2]
    simp

theorem crc8_snoc (d : Bytes) (b : UInt8) : crc8 (d ++ [b]) = crc8Byte (crc8 d) b := by
  simp [crc8, List.foldl_append]
theorem crc16_snoc (d : Bytes) (b : UInt8) : crc16 (d ++ [b]) = crc16Byte (crc16 d) b := by
  simp [crc16, List.foldl_append]

theorem crc8_poly (d : Bytes) : ∃ q : GF2Poly,
    msgPoly d * X ^ 8 + onesPoly 8 * X ^ (8 * d.length) = q * gen8 + wordPoly 8 (crc8 d).toNat := by
  induction d using List.reverseRecOn with
  | nil => exact ⟨0, by simp [msgPoly, crc8, ← wordPoly_ones8]⟩
  | append_singleton d b ih =>
    obtain ⟨q, hq⟩ := ih
    obtain ⟨q', hq'⟩ := crc8Byte_poly (crc8 d) b
    rw [crc8_snoc, msgPoly_snoc]
    refine ⟨X ^ 8 * q + q', ?_⟩
    have : 8 * (d ++ [b]).length = 8 * d.length + 8 := by simp; omega
    rw [this, pow_add]
    linear_combination X ^ 8 * hq + hq'

theorem crc16_poly (d : Bytes) : ∃ q : GF2Poly,
    msgPoly d * X ^ 16 + onesPoly 16 * X ^ (8 * d.length) = q * gen16 + wordPoly 16 (crc16 d).toNat := by
  induction d using List.reverseRecOn with
  | nil => exact ⟨0, by simp [msgPoly, crc16, ← wordPoly_ones16]⟩
  | append_singleton d b ih =>
    obtain ⟨q, hq⟩ := ih
    obtain ⟨q', hq'⟩ := crc16Byte_poly (crc16 d) b
    rw [crc16_snoc, msgPoly_snoc]
    refine ⟨X ^ 8 * q + q', ?_⟩
    have : 8 * (d ++ [b]).length = 8 * d.length + 8 := by simp; omega
    rw [this, pow_add]
    linear_combination X ^ 8 * hq + hq'

theorem gen8_monic : gen8.Monic := by unfold gen8; monicity!
theorem gen16_monic : gen16.Monic := by unfold gen16; monicity!
theorem gen8_degree : gen8.degree = 8 := by unfold gen8; compute_degree!
theorem gen16_degree : gen16.degree = 16 := by unfold gen16; compute_degree!


/-! ### consequences of equal checksums -/

theorem dvd_of_crc8_eq {a b : Bytes} (hl : a.length = b.length) (h : crc8 a = crc8 b) :
    gen8 ∣ X ^ 8 * (msgPoly a + msgPoly b) := by
  obtain ⟨q, hq⟩ := crc8_poly a
  obtain ⟨q', hq'⟩ := crc8_poly b
  rw [hl] at hq
  rw [h] at hq
  refine ⟨q + q', ?_⟩
  have h1 := gf2_add_self (onesPoly 8 * X ^ (8 * b.length))
  have h2 := gf2_add_self (wordPoly 8 (crc8 b).toNat)
  linear_combination hq + hq' - h1 + h2

theorem dvd_of_crc16_eq {a b : Bytes} (hl : a.length = b.length) (h : crc16 a = crc16 b) :
    gen16 ∣ X ^ 16 * (msgPoly a + msgPoly b) := by
  obtain ⟨q, hq⟩ := crc16_poly a
  obtain ⟨q', hq'⟩ := crc16_poly b
  rw [hl] at hq
  rw [h] at hq
  refine ⟨q + q', ?_⟩
  have h1 := gf2_add_self (onesPoly 16 * X ^ (8 * b.length))
  have h2 := gf2_add_self (wordPoly 16 (crc16 b).toNat)
  linear_combination hq + hq' - h1 + h2

theorem coprime_gen8_X : IsCoprime gen8 (X : GF2Poly) :=
  ⟨1, -(X ^ 7 + X ^ 4 + X ^ 3), by unfold gen8; ring⟩
theorem coprime_gen16_X : IsCoprime gen16 (X : GF2Poly) :=
  ⟨1, -(X ^ 15 + X ^ 11 + X ^ 4), by unfold gen16; ring⟩

theorem bitZ_inj {a b : Bool} (h : bitZ a + bitZ b = 0) : a = b := by
  revert h; cases a <;> cases b <;> decide

theorem bitZ_self (a : Bool) : bitZ a + bitZ a = 0 := by cases a <;> decide

/-- equal message bits mean equal messages -/
theorem eq_of_msgBit {a b : Bytes} (hl : a.length = b.length) (h : ∀ i, i < 8 * a.length → msgBit a i = msgBit b i) :
    a = b := by
  apply List.ext_getElem hl
  intro n h1 h2
  apply UInt8.toNat_inj.mp
  apply Nat.eq_of_testBit_eq
  intro j
  by_cases hj : j < 8
  · have := h (8 * n + (7 - j)) (by omega)
    unfold msgBit at this
    have e1 : (8 * n + (7 - j)) / 8 = n := by omega
    have e2 : 7 - (8 * n + (7 - j)) % 8 = j := by omega
    rw [e1, e2] at this
    rw [List.getD_eq_getElem?_getD, List.getD_eq_getElem?_getD, List.getElem?_eq_getElem h1,
      List.getElem?_eq_getElem h2] at this
    exact this
  · have h2 : 2 ^ 8 ≤ 2 ^ j := Nat.pow_le_pow_right (by decide) (by omega)
    have := a[n].toNat_lt
    have := b[n].toNat_lt
    rw [Nat.testBit_lt_two_pow (by omega), Nat.testBit_lt_two_pow (by omega)]

theorem eq_of_msgPoly {a b : Bytes} (hl : a.length = b.length) (h : msgPoly a + msgPoly b = 0) : a = b := by
  apply eq_of_msgBit hl
  intro i hi
  have := congrArg (fun p => p.coeff (8 * a.length - 1 - i)) h
  simp only [coeff_add, coeff_msgPoly, ← hl, coeff_zero] at this
  rw [if_pos (by omega), if_pos (by omega)] at this
  have e : 8 * a.length - 1 - (8 * a.length - 1 - i) = i := by omega
  rw [e] at this
  exact bitZ_inj this

/-- if two equally long messages differ only inside a window of `w` bits, a generator of degree `w`
that is coprime to `X` does not divide a shift of the difference -/
theorem burst_core {g : GF2Poly} {w s : Nat} (hd : g.degree = w) (hc : IsCoprime g (X : GF2Poly))
    {a b : Bytes} (hl : a.length = b.length) (k : Nat)
    (hw : ∀ i, msgBit a i ≠ msgBit b i → k ≤ i ∧ i < k + w)
    (hdvd : g ∣ X ^ s * (msgPoly a + msgPoly b)) : a = b := by
  apply eq_of_msgPoly hl
  set m := 8 * a.length - k - w with hm
  set B : GF2Poly := ∑ i ∈ Finset.range w, C ((msgPoly a + msgPoly b).coeff (m + i)) * X ^ i with hB
  have hcoeffB : ∀ i, B.coeff i = if i < w then (msgPoly a + msgPoly b).coeff (m + i) else 0 := by
    intro i
    simp only [hB, finsetSum_coeff, coeff_C_mul, coeff_X_pow]
    simp
  have hD : msgPoly a + msgPoly b = X ^ m * B := by
    ext j
    rw [coeff_X_pow_mul', hcoeffB]
    by_cases hz : (msgPoly a + msgPoly b).coeff j = 0
    · rw [hz]
      split
      · split
        · have e : m + (j - m) = j := by omega
          rw [e, hz]
        · rfl
      · rfl
    · have hz' := hz
      rw [coeff_add, coeff_msgPoly, coeff_msgPoly, ← hl] at hz'
      by_cases hj : j < 8 * a.length
      · rw [if_pos hj, if_pos hj] at hz'
        have hne : msgBit a (8 * a.length - 1 - j) ≠ msgBit b (8 * a.length - 1 - j) := by
          intro he
          rw [he] at hz'
          exact hz' (bitZ_self _)
        have := hw _ hne
        rw [if_pos (by omega), if_pos (by omega)]
        have e : m + (j - m) = j := by omega
        rw [e]
      · rw [if_neg hj, if_neg hj] at hz'
        simp at hz'
  have hdB : g ∣ B := by
    rw [hD] at hdvd
    have h1 : g ∣ X ^ (s + m) * B := by rw [pow_add, mul_assoc]; exact hdvd
    exact (hc.pow_right).dvd_of_dvd_mul_left h1
  have hB0 : B = 0 := by
    refine eq_zero_of_dvd_of_degree_lt hdB ?_
    rw [hd, degree_lt_iff_coeff_zero]
    intro i hi
    rw [hcoeffB, if_neg (by omega)]
  rw [hD, hB0, mul_zero]

end Egts
