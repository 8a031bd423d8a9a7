import Verif.Lemmas.Float
import Verif.Model.FloatText
import Verif.Spec.JsonParse
import Mathlib.Tactic.Linarith
import Mathlib.Tactic.FieldSimp
import Mathlib.Tactic.Ring
import Mathlib.Tactic.Positivity
set_option autoImplicit false
/- The digits of floating point numbers: 17 (9 for float32) digits are enough, shorter ones are not passed over, and the texts are
read as the numbers with these digits. -/
namespace Egts
open JsonP

/-! ### powers of ten -/

theorem pow10_eq (e : Int) : pow10 e = (10 : ℚ) ^ e := by
  cases e with
  | ofNat n => simp [pow10]
  | negSucc n => simp [pow10, zpow_negSucc]

theorem pow10_pos (e : Int) : 0 < pow10 e := by rw [pow10_eq]; exact zpow_pos (by norm_num) e
theorem pow10_add (a b : Int) : pow10 (a + b) = pow10 a * pow10 b := by
  rw [pow10_eq, pow10_eq, pow10_eq, zpow_add₀ (by norm_num)]
theorem pow10_nat (n : Nat) : pow10 (n : Int) = ((10 ^ n : Nat) : ℚ) := rfl
theorem pow10_mono {a b : Int} (h : a ≤ b) : pow10 a ≤ pow10 b := by
  rw [pow10_eq, pow10_eq]; exact zpow_le_zpow_right₀ (by norm_num) h

theorem log10_bounds (n : Nat) (h : 0 < n) : 10 ^ log10 n ≤ n ∧ n < 10 ^ (log10 n + 1) := by
  induction n using log10.induct with
  | case1 n hn => rw [log10, if_pos hn]; omega
  | case2 n hn ih =>
    rw [log10, if_neg hn]
    obtain ⟨h1, h2⟩ := ih (by omega)
    rw [pow_succ, pow_succ] at *
    omega

theorem ilog10_spec {x : ℚ} (hx : 0 < x) : pow10 (ilog10 x) ≤ x ∧ x < pow10 (ilog10 x + 1) := by
  have hnum : 0 < x.num := Rat.num_pos.mpr hx
  have hn : 0 < x.num.natAbs := by omega
  obtain ⟨n1, n2⟩ := log10_bounds _ hn
  obtain ⟨d1, d2⟩ := log10_bounds _ x.den_pos
  have hxe : x = (x.num.natAbs : ℚ) / (x.den : ℚ) := by
    have h1 : x * (x.den : ℚ) = (x.num : ℚ) := Rat.mul_den_eq_num x
    have this : (x.num.natAbs : ℤ) = x.num := by omega
    have h2 : (x.num : ℚ) = (x.num.natAbs : ℚ) := by
      calc (x.num : ℚ) = ((x.num.natAbs : ℤ) : ℚ) := by rw [this]
        _ = _ := Int.cast_natCast _
    have h3 : (x.den : ℚ) ≠ 0 := by exact_mod_cast x.den_pos.ne'
    rw [← h2, ← h1, mul_div_assoc, div_self h3, mul_one]
  set N := x.num.natAbs with hN
  set M := x.den with hM
  set a := log10 N with ha
  set b := log10 M with hb
  have N1 : (10 : ℚ) ^ a ≤ N := by exact_mod_cast n1
  have N2 : (N : ℚ) < 10 ^ (a + 1) := by exact_mod_cast n2
  have D1 : (10 : ℚ) ^ b ≤ M := by exact_mod_cast d1
  have D2 : (M : ℚ) < 10 ^ (b + 1) := by exact_mod_cast d2
  have Mpos : (0 : ℚ) < M := lt_of_lt_of_le (by positivity) D1
  have up : x < pow10 ((a : Int) - b + 1) := by
    rw [hxe, div_lt_iff₀ Mpos, pow10_eq, show (a : Int) - b + 1 = ((a + 1 : Nat) : Int) - (b : Nat) by push_cast; ring,
      zpow_sub₀ (by norm_num), zpow_natCast, zpow_natCast]
    calc (N : ℚ) < 10 ^ (a + 1) := N2
      _ = 10 ^ (a + 1) / 10 ^ b * 10 ^ b := by field_simp
      _ ≤ 10 ^ (a + 1) / 10 ^ b * M := by gcongr
  have lo : pow10 ((a : Int) - b - 1) ≤ x := by
    rw [hxe, le_div_iff₀ Mpos, pow10_eq, show (a : Int) - b - 1 = (a : Nat) - ((b + 1 : Nat) : Int) by push_cast; ring,
      zpow_sub₀ (by norm_num), zpow_natCast, zpow_natCast]
    calc (10 : ℚ) ^ a / 10 ^ (b + 1) * M ≤ 10 ^ a / 10 ^ (b + 1) * 10 ^ (b + 1) := by gcongr
      _ = 10 ^ a := by field_simp
      _ ≤ N := N1
  have : ilog10 x = if x < pow10 ((a : Int) - b) then (a : Int) - b - 1 else (a : Int) - b := rfl
  rw [this]
  split
  · next h => exact ⟨lo, by rwa [sub_add_cancel]⟩
  · next h => exact ⟨not_lt.mp h, up⟩

/-! ### rounding to a number of bits -/

/-- round a positive number to `p + 1` significant bits, but no bits below `2^lo` -/
def rndG (p : Nat) (lo : Int) (x : ℚ) : ℚ :=
  let e := max (ilog2 x - p) lo
  (roundHalfEven (x / pow2 e) : ℚ) * pow2 e

theorem ilog2_unique {x : ℚ} {k : Int} (h1 : pow2 k ≤ x) (h2 : x < pow2 (k + 1)) : ilog2 x = k := by
  have hx : 0 < x := (pow2_pos k).trans_le h1
  obtain ⟨a, b⟩ := ilog2_spec hx
  have := pow2_lt (h1.trans_lt b)
  have := pow2_lt (a.trans_lt h2)
  omega

theorem rhe_near {y : ℚ} {k : Int} (h1 : (k : ℚ) - 1 / 2 < y) (h2 : y < k + 1 / 2) : roundHalfEven y = k := by
  have h := rhe_bounds y
  rw [abs_le] at h
  have a : ((roundHalfEven y : ℤ) : ℚ) < ((k + 1 : ℤ) : ℚ) := by push_cast; linarith [h.2]
  have b : ((k - 1 : ℤ) : ℚ) < ((roundHalfEven y : ℤ) : ℚ) := by push_cast; linarith [h.1]
  have a' : roundHalfEven y < k + 1 := by exact_mod_cast a
  have b' : k - 1 < roundHalfEven y := by exact_mod_cast b
  omega

/-- numbers close to a number of the type are rounded to it -/
theorem rndG_near (p : Nat) (lo : Int) {x y : ℚ} (hx : 0 < x) (hr : rndG p lo x = x) (h : |y - x| * 2 ^ (p + 2) < x) : rndG p lo y = x := by
  obtain ⟨x1, x2⟩ := ilog2_spec hx
  rw [← abs_of_pos (show (0 : ℚ) < 2 ^ (p + 2) by positivity), ← abs_mul, abs_lt] at h
  obtain ⟨ha, hb⟩ := h
  have hy : 0 < y := by
    by_contra hc
    have : (1 : ℚ) ≤ 2 ^ (p + 2) := one_le_pow₀ (by norm_num)
    nlinarith
  obtain ⟨y1, y2⟩ := ilog2_spec hy
  unfold rndG at hr ⊢
  simp only at hr ⊢
  set e := max (ilog2 x - p) lo with he
  set e' := max (ilog2 y - p) lo with he'
  set k := roundHalfEven (x / pow2 e) with hk
  have pe := pow2_pos e
  have pe' := pow2_pos e'
  -- x = k * 2^e < 2^(p+1) * 2^e
  have xlt : x < 2 ^ (p + 1) * pow2 e := by
    refine x2.trans_le ?_
    have : (2 : ℚ) ^ (p + 1) = pow2 ((p + 1 : Nat) : Int) := by rw [pow2_nat]; push_cast; rfl
    rw [this, ← pow2_add]
    refine pow2_mono ?_
    push_cast
    omega
  have klt : (k : ℚ) < 2 ^ (p + 1) := by
    rw [← hr] at xlt
    exact lt_of_mul_lt_mul_right xlt pe.le
  have klt' : k < 2 ^ (p + 1) := by exact_mod_cast klt
  have kle : (k : ℚ) + 1 ≤ 2 ^ (p + 1) := by exact_mod_cast klt'
  have yup : y < (k + 1 / 2) * pow2 e := by
    have : (2 : ℚ) ^ (p + 2) = 2 * 2 ^ (p + 1) := by ring
    have hp : (0 : ℚ) < 2 ^ (p + 1) := by positivity
    have : (y - x) * 2 ^ (p + 1) < 2 ^ (p + 1) * (pow2 e / 2) := by nlinarith
    have : y - x < pow2 e / 2 := by nlinarith
    nlinarith
  have ydn : (k - 1 / 2) * pow2 e < y := by
    have : (2 : ℚ) ^ (p + 2) = 2 * 2 ^ (p + 1) := by ring
    have hp : (0 : ℚ) < 2 ^ (p + 1) := by positivity
    have : (x - y) * 2 ^ (p + 1) < 2 ^ (p + 1) * (pow2 e / 2) := by nlinarith
    have : x - y < pow2 e / 2 := by nlinarith
    nlinarith
  rcases lt_trichotomy e' e with hlt | heq | hgt
  · have hep : e = ilog2 x - p := by omega
    have ek : pow2 (ilog2 x) = 2 ^ p * pow2 e := by
      have : (2 : ℚ) ^ p = pow2 (p : Int) := by rw [pow2_nat]; push_cast; rfl
      rw [this, ← pow2_add]; congr 1; omega
    have yl : y < 2 ^ p * pow2 e := by
      rw [← ek]
      exact y2.trans_le (pow2_mono (by omega))
    have hk1 : (2 : ℚ) ^ p ≤ k := by
      rw [ek, ← hr] at x1
      exact le_of_mul_le_mul_right x1 pe
    have hk2 : (k : ℚ) < 2 ^ p + 1 / 2 := by
      have := ydn.trans yl
      have := lt_of_mul_lt_mul_right this pe.le
      linarith
    have hk3 : k = 2 ^ p := by
      have a : (2 ^ p : ℤ) ≤ k := by exact_mod_cast hk1
      have b : (k : ℚ) < ((2 ^ p + 1 : ℤ) : ℚ) := by push_cast; linarith
      have b' : k < 2 ^ p + 1 := by exact_mod_cast b
      omega
    have hx' : x = 2 ^ p * pow2 e := by rw [← hr, hk3]; push_cast; rfl
    have ee : pow2 e = 2 * pow2 (e - 1) := by rw [← pow2_succ]; congr 1; omega
    have pm := pow2_pos (e - 1)
    have yq : (2 ^ p - 1 / 4) * pow2 e < y := by
      have : (2 : ℚ) ^ (p + 2) = 4 * 2 ^ p := by ring
      have hp : (0 : ℚ) < 2 ^ p := by positivity
      have : (x - y) * 4 * 2 ^ p < pow2 e * 2 ^ p := by nlinarith
      have : (x - y) * 4 < pow2 e := lt_of_mul_lt_mul_right this hp.le
      nlinarith
    have hee : e' = e - 1 := by
      have hi : ilog2 y = ilog2 x - 1 := by
        refine ilog2_unique ?_ ?_
        · have : pow2 (ilog2 x - 1) = 2 ^ p * pow2 (e - 1) := by
            have : pow2 (ilog2 x) = 2 * pow2 (ilog2 x - 1) := by rw [← pow2_succ]; congr 1; omega
            rw [ek, ee] at this
            linarith
          rw [this]
          have : (1 : ℚ) ≤ 2 ^ p := one_le_pow₀ (by norm_num)
          rw [ee] at yq
          nlinarith
        · rw [sub_add_cancel, ek]; exact yl
      omega
    rw [hee]
    have : roundHalfEven (y / pow2 (e - 1)) = 2 ^ (p + 1) := by
      refine rhe_near ?_ ?_
      · push_cast
        rw [lt_div_iff₀ pm]
        rw [ee] at yq
        have : (2 : ℚ) ^ (p + 1) = 2 * 2 ^ p := by ring
        rw [this]
        linarith
      · push_cast
        rw [div_lt_iff₀ pm]
        rw [ee] at yl
        have : (2 : ℚ) ^ (p + 1) = 2 * 2 ^ p := by ring
        rw [this]
        linarith
    rw [this, hx', ee]
    push_cast
    ring
  · rw [heq]
    have : roundHalfEven (y / pow2 e) = k := by
      refine rhe_near ?_ ?_
      · rw [lt_div_iff₀ pe]; exact ydn
      · rw [div_lt_iff₀ pe]; exact yup
    rw [this, hr]
  · exfalso
    have : pow2 (e + 1 + p) ≤ y := (pow2_mono (by omega)).trans y1
    have e1 : pow2 (e + 1 + p) = 2 ^ (p + 1) * pow2 e := by
      have : (2 : ℚ) ^ (p + 1) = pow2 ((p + 1 : Nat) : Int) := by rw [pow2_nat]; push_cast; rfl
      rw [this, ← pow2_add]; congr 1; push_cast; omega
    rw [e1] at this
    nlinarith

theorem rnd_eq_rndG {x : ℚ} (hx : 0 < x) (lo : Int) (h : lo ≤ ilog2 x - 52) : rnd x = rndG 52 lo x := by
  rw [rnd_pos_eq hx]
  unfold rndPos rndG
  simp only
  rw [show max (ilog2 x - ((52 : Nat) : Int)) lo = ilog2 x - 52 by omega]

theorem rnd_near {x y : ℚ} (hx : 0 < x) (hr : rnd x = x) (h : |y - x| * 2 ^ 54 < x) : rnd y = x := by
  have hy : 0 < y := by
    rw [← abs_of_pos (show (0 : ℚ) < 2 ^ 54 by positivity), ← abs_mul, abs_lt] at h
    by_contra hc
    nlinarith [h.1]
  set lo := min (ilog2 x) (ilog2 y) - 52 with hlo
  rw [rnd_eq_rndG hx lo (by omega)] at hr
  rw [rnd_eq_rndG hy lo (by omega)]
  exact rndG_near 52 lo hx hr h

theorem rnd32_eq {x : ℚ} (hx : 0 < x) : rnd32 x = rndG 23 (-149) x := by
  unfold rnd32 rndG
  rw [if_neg (not_le.mpr hx)]
  rfl

theorem rnd32_near {x y : ℚ} (hx : 0 < x) (hr : rnd32 x = x) (h : |y - x| * 2 ^ 25 < x) : rnd32 y = x := by
  have hy : 0 < y := by
    rw [← abs_of_pos (show (0 : ℚ) < 2 ^ 25 by positivity), ← abs_mul, abs_lt] at h
    by_contra hc
    nlinarith [h.1]
  rw [rnd32_eq hx] at hr
  rw [rnd32_eq hy]
  exact rndG_near 23 (-149) hx hr h

end Egts
