import Verif.Go.Float
import Mathlib.Data.Rat.Floor
import Mathlib.Algebra.Order.Floor.Ring
import Mathlib.Tactic.Linarith
import Mathlib.Tactic.Ring
import Mathlib.Tactic.FieldSimp
import Mathlib.Tactic.Positivity
import Mathlib.Tactic.NormNum
set_option autoImplicit false
/- The rounding function of the float64 model: error bound, monotonicity, exactness on small integers. -/
namespace Egts

theorem pow2_eq (e : Int) : pow2 e = (2 : ℚ) ^ e := by
  cases e with
  | ofNat n => simp [pow2]
  | negSucc n => simp [pow2, zpow_negSucc]

theorem pow2_pos (e : Int) : 0 < pow2 e := by rw [pow2_eq]; exact zpow_pos (by norm_num) e

theorem pow2_succ (e : Int) : pow2 (e + 1) = 2 * pow2 e := by
  rw [pow2_eq, pow2_eq, zpow_add_one₀ (by norm_num)]; ring

theorem pow2_add (a b : Int) : pow2 (a + b) = pow2 a * pow2 b := by
  rw [pow2_eq, pow2_eq, pow2_eq, zpow_add₀ (by norm_num)]

theorem pow2_mono {a b : Int} (h : a ≤ b) : pow2 a ≤ pow2 b := by
  rw [pow2_eq, pow2_eq]; exact zpow_le_zpow_right₀ (by norm_num) h

theorem pow2_lt {a b : Int} (h : pow2 a < pow2 b) : a < b := by
  by_contra hc
  exact absurd h (not_lt.mpr (pow2_mono (not_lt.mp hc)))

theorem pow2_nat (n : Nat) : pow2 (n : Int) = ((2 ^ n : Nat) : ℚ) := rfl

theorem log2_bounds {n : Nat} (h : 0 < n) : 2 ^ Nat.log2 n ≤ n ∧ n < 2 ^ (Nat.log2 n + 1) :=
  ⟨Nat.log2_self_le h.ne', Nat.lt_log2_self⟩

theorem ilog2_spec {x : ℚ} (hx : 0 < x) : pow2 (ilog2 x) ≤ x ∧ x < pow2 (ilog2 x + 1) := by
  have hnum : 0 < x.num := Rat.num_pos.mpr hx
  have hn : 0 < x.num.natAbs := by omega
  obtain ⟨n1, n2⟩ := log2_bounds hn
  obtain ⟨d1, d2⟩ := log2_bounds x.den_pos
  set a := Nat.log2 x.num.natAbs
  set b := Nat.log2 x.den
  have hxe : x * (x.den : ℚ) = (x.num.natAbs : ℚ) := by
    have h1 : x * (x.den : ℚ) = (x.num : ℚ) := Rat.mul_den_eq_num x
    rw [h1]
    have : (x.num.natAbs : ℤ) = x.num := by omega
    calc (x.num : ℚ) = ((x.num.natAbs : ℤ) : ℚ) := by rw [this]
      _ = _ := Int.cast_natCast _
  have hdpos : (0 : ℚ) < x.den := by exact_mod_cast x.den_pos
  have n1' : pow2 a ≤ (x.num.natAbs : ℚ) := by rw [pow2_nat]; exact_mod_cast n1
  have n2' : (x.num.natAbs : ℚ) < 2 * pow2 a := by
    rw [pow2_nat]; have : x.num.natAbs < 2 * 2 ^ a := by rw [pow_succ] at n2; omega
    exact_mod_cast this
  have d1' : pow2 b ≤ (x.den : ℚ) := by rw [pow2_nat]; exact_mod_cast d1
  have d2' : (x.den : ℚ) < 2 * pow2 b := by
    rw [pow2_nat]; have : x.den < 2 * 2 ^ b := by rw [pow_succ] at d2; omega
    exact_mod_cast this
  have hk : pow2 ((a : Int) - b) * pow2 b = pow2 a := by rw [← pow2_add]; congr 1; omega
  have hk1 : pow2 ((a : Int) - b) = 2 * pow2 ((a : Int) - b - 1) := by
    rw [← pow2_succ]; congr 1; omega
  have hb := pow2_pos b
  have hkp := pow2_pos ((a : Int) - b)
  unfold ilog2
  simp only
  split
  · rename_i hlt
    refine ⟨?_, by simpa using hlt⟩
    -- x ≥ 2^(k-1)
    by_contra hc
    have hc : x < pow2 ((a : Int) - b - 1) := not_le.mp hc
    have : x * x.den < pow2 ((a : Int) - b - 1) * (2 * pow2 b) :=
      mul_lt_mul'' hc d2' hx.le hdpos.le
    rw [hxe] at this
    have e : pow2 ((a : Int) - b - 1) * (2 * pow2 b) = pow2 a := by rw [← hk, hk1]; ring
    rw [e] at this
    exact absurd this (not_lt.mpr n1')
  · rename_i hge
    refine ⟨not_lt.mp hge, ?_⟩
    by_contra hc
    have hc : pow2 ((a : Int) - b + 1) ≤ x := not_lt.mp hc
    have : pow2 ((a : Int) - b + 1) * pow2 b ≤ x * x.den :=
      mul_le_mul hc d1' hb.le hx.le
    rw [hxe, pow2_succ] at this
    have e : 2 * pow2 ((a : Int) - b) * pow2 b = 2 * pow2 a := by rw [← hk]; ring
    rw [e] at this
    exact absurd n2' (not_lt.mpr this)

theorem rfloor_eq (x : ℚ) : x.floor = ⌊x⌋ := rfl

theorem rhe_cases' (x : ℚ) :
    (x - x.floor < 1 / 2 ∧ roundHalfEven x = x.floor) ∨ (1 / 2 < x - x.floor ∧ roundHalfEven x = x.floor + 1) ∨
    (x - x.floor = 1 / 2 ∧ x.floor % 2 = 0 ∧ roundHalfEven x = x.floor) ∨
    (x - x.floor = 1 / 2 ∧ ¬ x.floor % 2 = 0 ∧ roundHalfEven x = x.floor + 1) := by
  unfold roundHalfEven
  simp only
  by_cases h1 : x - x.floor < 1 / 2
  · exact .inl ⟨h1, if_pos h1⟩
  by_cases h2 : 1 / 2 < x - x.floor
  · exact .inr (.inl ⟨h2, by rw [if_neg h1, if_pos h2]⟩)
  have h3 : x - x.floor = 1 / 2 := le_antisymm (not_lt.mp h2) (not_lt.mp h1)
  by_cases h4 : x.floor % 2 = 0
  · exact .inr (.inr (.inl ⟨h3, h4, by rw [if_neg h1, if_neg h2, if_pos h4]⟩))
  · exact .inr (.inr (.inr ⟨h3, h4, by rw [if_neg h1, if_neg h2, if_neg h4]⟩))

theorem rhe_cases (x : ℚ) :
    (x - ⌊x⌋ < 1 / 2 ∧ roundHalfEven x = ⌊x⌋) ∨ (1 / 2 < x - ⌊x⌋ ∧ roundHalfEven x = ⌊x⌋ + 1) ∨
    (x - ⌊x⌋ = 1 / 2 ∧ ⌊x⌋ % 2 = 0 ∧ roundHalfEven x = ⌊x⌋) ∨
    (x - ⌊x⌋ = 1 / 2 ∧ ¬ ⌊x⌋ % 2 = 0 ∧ roundHalfEven x = ⌊x⌋ + 1) := rhe_cases' x

theorem rhe_int (n : ℤ) : roundHalfEven (n : ℚ) = n := by
  have h0 : (n : ℚ) - (⌊(n : ℚ)⌋ : ℚ) = 0 := by rw [Int.floor_intCast]; ring
  rcases rhe_cases (n : ℚ) with ⟨h, e⟩ | ⟨h, e⟩ | ⟨h, -, e⟩ | ⟨h, -, e⟩
  · rw [e, Int.floor_intCast]
  all_goals (rw [h0] at h; norm_num at h)

theorem rhe_bounds (x : ℚ) : |(roundHalfEven x : ℚ) - x| ≤ 1 / 2 := by
  have h1 := Int.floor_le x
  have h2 := Int.lt_floor_add_one x
  rcases rhe_cases x with ⟨h, e⟩ | ⟨h, e⟩ | ⟨h, -, e⟩ | ⟨h, -, e⟩ <;> rw [e] <;> push_cast <;> rw [abs_le] <;>
    constructor <;> linarith

theorem rhe_mono {x y : ℚ} (h : x ≤ y) : roundHalfEven x ≤ roundHalfEven y := by
  have fm : ⌊x⌋ ≤ ⌊y⌋ := Int.floor_le_floor h
  rcases fm.lt_or_eq with hlt | heq
  · rcases rhe_cases x with ⟨h, e⟩ | ⟨h, e⟩ | ⟨h, -, e⟩ | ⟨h, -, e⟩ <;>
    rcases rhe_cases y with ⟨h', e'⟩ | ⟨h', e'⟩ | ⟨h', -, e'⟩ | ⟨h', -, e'⟩ <;> omega
  · rcases rhe_cases x with ⟨h1, e⟩ | ⟨h1, e⟩ | ⟨h1, p, e⟩ | ⟨h1, p, e⟩ <;>
    rcases rhe_cases y with ⟨h2, e'⟩ | ⟨h2, e'⟩ | ⟨h2, p', e'⟩ | ⟨h2, p', e'⟩ <;>
    first | omega | (exfalso; rw [heq] at h1; linarith)

theorem rndPos_error {x : ℚ} (hx : 0 < x) : |rndPos x - x| ≤ x / 2 ^ 53 := by
  obtain ⟨h1, h2⟩ := ilog2_spec hx
  unfold rndPos
  simp only
  have hp := pow2_pos (ilog2 x - 52)
  have hb := rhe_bounds (x / pow2 (ilog2 x - 52))
  have : (roundHalfEven (x / pow2 (ilog2 x - 52)) : ℚ) * pow2 (ilog2 x - 52) - x =
      ((roundHalfEven (x / pow2 (ilog2 x - 52)) : ℚ) - x / pow2 (ilog2 x - 52)) * pow2 (ilog2 x - 52) := by
    field_simp
  rw [this, abs_mul, abs_of_pos hp]
  have h3 : pow2 (ilog2 x - 52) * 2 ^ 52 = pow2 (ilog2 x) := by
    have : (2 : ℚ) ^ 52 = pow2 52 := by norm_num [pow2]
    rw [this, ← pow2_add]; congr 1; omega
  have h4 : pow2 (ilog2 x - 52) ≤ x / 2 ^ 52 := by
    rw [le_div_iff₀ (by positivity), h3]; exact h1
  calc _ ≤ 1 / 2 * pow2 (ilog2 x - 52) := by
        apply mul_le_mul_of_nonneg_right hb hp.le
    _ ≤ 1 / 2 * (x / 2 ^ 52) := by linarith
    _ = x / 2 ^ 53 := by ring

theorem rnd_zero : rnd 0 = 0 := rfl

theorem rnd_pos_eq {x : ℚ} (h : 0 < x) : rnd x = rndPos x := by
  unfold rnd; rw [if_neg h.ne', if_pos h]

/-- relative error of rounding -/
theorem rnd_error {x : ℚ} (hx : 0 ≤ x) : |rnd x - x| ≤ x / 2 ^ 53 := by
  rcases hx.lt_or_eq with h | h
  · rw [rnd_pos_eq h]; exact rndPos_error h
  · subst h; simp [rnd_zero]

theorem rndPos_range {x : ℚ} (hx : 0 < x) : pow2 (ilog2 x) ≤ rndPos x ∧ rndPos x ≤ pow2 (ilog2 x + 1) := by
  obtain ⟨h1, h2⟩ := ilog2_spec hx
  unfold rndPos
  simp only
  have hp := pow2_pos (ilog2 x - 52)
  have e1 : pow2 (ilog2 x) = ((2 ^ 52 : ℤ) : ℚ) * pow2 (ilog2 x - 52) := by
    have : ((2 ^ 52 : ℤ) : ℚ) = pow2 52 := by norm_num [pow2]
    rw [this, ← pow2_add]; congr 1; omega
  have e2 : pow2 (ilog2 x + 1) = ((2 ^ 53 : ℤ) : ℚ) * pow2 (ilog2 x - 52) := by
    have : ((2 ^ 53 : ℤ) : ℚ) = pow2 53 := by norm_num [pow2]
    rw [this, ← pow2_add]; congr 1; omega
  have l1 : ((2 ^ 52 : ℤ) : ℚ) ≤ x / pow2 (ilog2 x - 52) := by
    rw [le_div_iff₀ hp, ← e1]; exact h1
  have l2 : x / pow2 (ilog2 x - 52) ≤ ((2 ^ 53 : ℤ) : ℚ) := by
    rw [div_le_iff₀ hp, ← e2]; exact h2.le
  have m1 := rhe_mono l1
  have m2 := rhe_mono l2
  rw [rhe_int] at m1 m2
  rw [e1, e2]
  constructor
  · exact mul_le_mul_of_nonneg_right (by exact_mod_cast m1) hp.le
  · exact mul_le_mul_of_nonneg_right (by exact_mod_cast m2) hp.le

theorem rnd_nonneg {x : ℚ} (hx : 0 ≤ x) : 0 ≤ rnd x := by
  rcases hx.lt_or_eq with h | h
  · rw [rnd_pos_eq h]; exact (pow2_pos _).le.trans (rndPos_range h).1
  · subst h; simp [rnd_zero]

/-- rounding is monotone -/
theorem rnd_mono {x y : ℚ} (hx : 0 ≤ x) (h : x ≤ y) : rnd x ≤ rnd y := by
  rcases hx.lt_or_eq with hx | hx
  · have hy : 0 < y := hx.trans_le h
    rw [rnd_pos_eq hx, rnd_pos_eq hy]
    have hx2 := ilog2_spec hx
    have hy2 := ilog2_spec hy
    have hle : ilog2 x ≤ ilog2 y := by
      have := pow2_lt (hx2.1.trans_lt (h.trans_lt hy2.2)); omega
    rcases hle.lt_or_eq with hlt | heq
    · exact (rndPos_range hx).2.trans ((pow2_mono (by omega)).trans (rndPos_range hy).1)
    · unfold rndPos; simp only [heq]
      have hp := pow2_pos (ilog2 y - 52)
      apply mul_le_mul_of_nonneg_right _ hp.le
      exact_mod_cast rhe_mono (by gcongr)
  · subst hx; rw [rnd_zero]; exact rnd_nonneg h

/-- integers below 2^53 are exact -/
theorem rnd_nat {n : Nat} (h : n < 2 ^ 53) : rnd (n : ℚ) = n := by
  rcases Nat.eq_zero_or_pos n with rfl | hn
  · exact rnd_zero
  · have hq : (0 : ℚ) < n := by exact_mod_cast hn
    rw [rnd_pos_eq hq]
    obtain ⟨h1, h2⟩ := ilog2_spec hq
    have hlt : pow2 (ilog2 (n : ℚ)) < pow2 53 := by
      apply h1.trans_lt
      have : ((n : ℚ)) < ((2 ^ 53 : Nat) : ℚ) := by exact_mod_cast h
      exact this
    have hl := pow2_lt hlt
    obtain ⟨k, hk⟩ : ∃ k : Nat, ilog2 (n : ℚ) - 52 = -(k : Int) := ⟨(52 - ilog2 (n : ℚ)).toNat, by omega⟩
    unfold rndPos
    simp only [hk]
    have e : (n : ℚ) / pow2 (-(k : Int)) = (((n * 2 ^ k : Nat) : ℤ) : ℚ) := by
      rw [pow2_eq, zpow_neg, zpow_natCast]; push_cast; field_simp
    rw [e, rhe_int, ← e]
    have := pow2_pos (-(k : Int))
    field_simp

theorem f64OfInt_nat {n : Nat} (h : n < 2 ^ 53) : f64OfInt (n : Int) = n := by
  unfold f64OfInt; exact_mod_cast rnd_nat h

theorem ratTrunc_nonneg {x : ℚ} (h : 0 ≤ x) : ratTrunc x = ⌊x⌋ := by
  unfold ratTrunc; rw [if_pos h]; rfl

end Egts
