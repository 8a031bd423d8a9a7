import Verif.Lemmas.CrcPoly
/- Multiplicative order of X modulo the generators: needed for two-bit errors. -/
set_option autoImplicit false
namespace Egts
open Polynomial

def step16 (n : Nat) : Nat := if n < 32768 then 2 * n else (2 * n) ^^^ 0x11021
def step8 (n : Nat) : Nat := if n < 128 then 2 * n else (2 * n) ^^^ 0x131

/-- `2^k` steps from `s`; `none` if 1 is met after at least one step -/
def orbit (f : Nat → Nat) : Nat → Nat → Option Nat
  | 0, s => if f s = 1 then none else some (f s)
  | k + 1, s => (orbit f k s).bind (orbit f k)

/-- `orbit` for a list of exponents, one after the other -/
def orbits (f : Nat → Nat) : List Nat → Nat → Option Nat
  | [], s => some s
  | k :: ks, s => (orbit f k s).bind (orbits f ks)

theorem orbit_spec (f : Nat → Nat) : ∀ k s t, orbit f k s = some t →
    t = f^[2 ^ k] s ∧ ∀ d, 0 < d → d ≤ 2 ^ k → f^[d] s ≠ 1 := by
  intro k
  induction k with
  | zero =>
    intro s t h
    unfold orbit at h
    split at h
    · cases h
    · rename_i h1
      cases h
      refine ⟨rfl, fun d h0 hd => ?_⟩
      have : d = 1 := by simp at hd; omega
      subst this
      exact h1
  | succ k ih =>
    intro s t h
    unfold orbit at h
    cases h1 : orbit f k s with
    | none => simp [h1] at h
    | some u =>
      rw [h1] at h
      simp only [Option.bind_some] at h
      obtain ⟨e1, n1⟩ := ih s u h1
      obtain ⟨e2, n2⟩ := ih u t h
      have hp : 2 ^ (k + 1) = 2 ^ k + 2 ^ k := by rw [pow_succ]; ring
      refine ⟨by rw [e2, e1, ← Function.iterate_add_apply, hp], fun d h0 hd => ?_⟩
      by_cases hk : d ≤ 2 ^ k
      · exact n1 d h0 hk
      · have := n2 (d - 2 ^ k) (by omega) (by omega)
        rw [e1, ← Function.iterate_add_apply] at this
        have e : d - 2 ^ k + 2 ^ k = d := by omega
        rwa [e] at this

theorem orbits_spec (f : Nat → Nat) : ∀ ks s t, orbits f ks s = some t →
    t = f^[(ks.map (2 ^ ·)).sum] s ∧ ∀ d, 0 < d → d ≤ (ks.map (2 ^ ·)).sum → f^[d] s ≠ 1 := by
  intro ks
  induction ks with
  | nil =>
    intro s t h
    cases h
    exact ⟨rfl, fun d h0 hd => by simp at hd; omega⟩
  | cons k ks ih =>
    intro s t h
    unfold orbits at h
    cases h1 : orbit f k s with
    | none => simp [h1] at h
    | some u =>
      rw [h1] at h
      simp only [Option.bind_some] at h
      obtain ⟨e1, n1⟩ := orbit_spec f k s u h1
      obtain ⟨e2, n2⟩ := ih u t h
      simp only [List.map_cons, List.sum_cons]
      refine ⟨by rw [e2, e1, ← Function.iterate_add_apply, Nat.add_comm], fun d h0 hd => ?_⟩
      by_cases hk : d ≤ 2 ^ k
      · exact n1 d h0 hk
      · have := n2 (d - 2 ^ k) (by omega) (by omega)
        rw [e1, ← Function.iterate_add_apply] at this
        have e : d - 2 ^ k + 2 ^ k = d := by omega
        rwa [e] at this

theorem orbits16 : (orbits step16 [14, 13, 12, 11, 10, 9, 8, 7, 6, 5, 4, 3, 2, 1] 1).isSome = true := by
  decide +kernel

theorem orbits8 : (orbits step8 [6, 5, 4, 3, 2, 1] 1).isSome = true := by decide +kernel

theorem order16 (d : Nat) (h0 : 0 < d) (hd : d < 32767) : step16^[d] 1 ≠ 1 := by
  obtain ⟨t, ht⟩ := Option.isSome_iff_exists.mp orbits16
  exact (orbits_spec _ _ _ _ ht).2 d h0 (by simp; omega)

theorem order8 (d : Nat) (h0 : 0 < d) (hd : d < 127) : step8^[d] 1 ≠ 1 := by
  obtain ⟨t, ht⟩ := Option.isSome_iff_exists.mp orbits8
  exact (orbits_spec _ _ _ _ ht).2 d h0 (by simp; omega)

theorem testBit_top {w n : Nat} (h : n < 2 ^ (w + 1)) : n.testBit w = decide (2 ^ w ≤ n) := by
  by_cases hh : 2 ^ w ≤ n
  · rw [Nat.testBit_of_two_pow_le_and_two_pow_add_one_gt hh h]; simp [hh]
  · rw [Nat.testBit_lt_two_pow (by omega)]; simp [hh]

theorem step16_poly (n : Nat) (h : n < 65536) : step16 n < 65536 ∧ ∃ q : GF2Poly,
    X * wordPoly 16 n = q * gen16 + wordPoly 16 (step16 n) := by
  have ht := testBit_top (w := 15) (n := n) (by simpa using h)
  have hs := wordPoly_shift 16 n (by decide)
  unfold step16
  by_cases hh : n < 32768
  · rw [if_pos hh]
    refine ⟨by omega, 0, ?_⟩
    rw [← hs, show 16 - 1 = 15 from rfl, ht, Nat.mod_eq_of_lt (by omega)]
    simp [bitZ, hh]
  · rw [if_neg hh]
    have h1 : (2 * n) ^^^ 0x11021 = (2 * n % 2 ^ 16) ^^^ 0x1021 := by
      have : 2 * n = 2 * n % 2 ^ 16 ^^^ 2 ^ 16 := by
        apply Nat.eq_of_testBit_eq
        intro i
        rw [Nat.testBit_xor, Nat.testBit_mod_two_pow, Nat.testBit_two_pow]
        by_cases hi : i < 16
        · have : ¬ (16 = i) := by omega
          simp [hi, this]
        · by_cases h16 : 16 = i
          · subst h16
            rw [testBit_top (by omega)]
            simp; omega
          · have h17 : 2 ^ 17 ≤ 2 ^ i := Nat.pow_le_pow_right (by decide) (by omega)
            rw [Nat.testBit_lt_two_pow (by omega)]
            simp [hi, h16]
      conv => lhs; rw [this]
      rw [Nat.xor_assoc]
      rfl
    rw [h1]
    refine ⟨Nat.xor_lt_two_pow (Nat.mod_lt _ (by decide)) (by decide), 1, ?_⟩
    rw [← hs, show 16 - 1 = 15 from rfl, ht, wordPoly_xor, ← wordPoly_gen16]
    have : decide (2 ^ 15 ≤ n) = true := by simp; omega
    rw [this]
    simp only [bitZ, if_true, map_one, one_mul]
    linear_combination -(gf2_add_self (wordPoly 16 0x1021))

theorem step8_poly (n : Nat) (h : n < 256) : step8 n < 256 ∧ ∃ q : GF2Poly,
    X * wordPoly 8 n = q * gen8 + wordPoly 8 (step8 n) := by
  have hc := crc8Bit_poly (UInt8.ofNat n)
  have he : ∀ n : Fin 256, (crc8Bit (UInt8.ofNat n.val)).toNat = step8 n.val := by decide +kernel
  have := he ⟨n, h⟩
  simp only at this
  refine ⟨by rw [← this]; exact UInt8.toNat_lt _, ?_⟩
  rw [this] at hc
  simpa [Nat.mod_eq_of_lt h] using hc

theorem iter_poly {w : Nat} {g : GF2Poly} {f : Nat → Nat}
    (hf : ∀ n, n < 2 ^ w → f n < 2 ^ w ∧ ∃ q : GF2Poly, X * wordPoly w n = q * g + wordPoly w (f n)) (s : Nat) (hs : s < 2 ^ w) :
    ∀ d, f^[d] s < 2 ^ w ∧ ∃ q : GF2Poly, X ^ d * wordPoly w s = q * g + wordPoly w (f^[d] s) := by
  intro d
  induction d with
  | zero => exact ⟨hs, 0, by simp⟩
  | succ d ih =>
    obtain ⟨h1, q, hq⟩ := ih
    obtain ⟨h2, q', hq'⟩ := hf _ h1
    rw [Function.iterate_succ_apply']
    refine ⟨h2, X * q + q', ?_⟩
    rw [pow_succ]
    linear_combination X * hq + hq'

/-- the generator of degree `w` does not divide `X^d + 1` when the orbit of 1 does not return after `d` steps -/
theorem not_dvd_pow_add_one {w : Nat} (hw : 0 < w) {g : GF2Poly} (hg : g.degree = w) {f : Nat → Nat}
    (hf : ∀ n, n < 2 ^ w → f n < 2 ^ w ∧ ∃ q : GF2Poly, X * wordPoly w n = q * g + wordPoly w (f n))
    (d : Nat) (hd : f^[d] 1 ≠ 1) : ¬ g ∣ X ^ d + 1 := by
  intro hdvd
  have h1 : (1 : Nat) < 2 ^ w := Nat.one_lt_two_pow (by omega)
  have hone : wordPoly w 1 = 1 := by
    ext i
    rw [coeff_wordPoly, coeff_one]
    by_cases hi : i = 0
    · subst hi; simp [hw, bitZ]
    · have : (1 : Nat).testBit i = false := by
        rw [Bool.eq_false_iff]
        intro hh
        exact hi (Nat.testBit_one_eq_true_iff_self_eq_zero.mp hh)
      simp [hi, this, bitZ]
  obtain ⟨hlt, q, hq⟩ := iter_poly hf 1 h1 d
  rw [hone, mul_one] at hq
  have : g ∣ wordPoly w (f^[d] 1 ^^^ 1) := by
    rw [wordPoly_xor, hone]
    obtain ⟨r, hr⟩ := hdvd
    refine ⟨r - q, ?_⟩
    linear_combination hr - hq
  have h0 := eq_zero_of_dvd_of_degree_lt this (by rw [hg]; exact wordPoly_degree _ _)
  have hz : wordPoly w 0 = 0 := by simp [wordPoly, bitZ]
  have := wordPoly_ne_of_lt (Nat.xor_lt_two_pow hlt h1) (Nat.two_pow_pos w) (h0.trans hz.symm)
  apply hd
  have := congrArg (· ^^^ 1) this
  simpa [Nat.xor_assoc] using this

end Egts
