import Mathlib.Tactic.IntervalCases
import Verif.Props.Wander
set_option autoImplicit false
/- C137: how far a position can wander. -/
namespace Egts
open Frame

/-- rounding does not fall below a representable number that is less than half a unit in the last place above -/
theorem le_rnd {x : ℚ} (hx : 0 < x) (n : ℤ) (j : Int) (hj : ilog2 x - 52 ≤ j) (h : (n : ℚ) * pow2 j - x < pow2 (ilog2 x - 52) / 2) :
    (n : ℚ) * pow2 j ≤ rnd x := by
  rw [rnd_pos_eq hx]
  unfold rndPos
  simp only
  generalize he : ilog2 x - 52 = e at *
  obtain ⟨d, rfl⟩ : ∃ d : Nat, j = e + d := ⟨(j - e).toNat, by omega⟩
  have hp := pow2_pos e
  rw [pow2_add, pow2_nat] at *
  have hb := abs_le.mp (rhe_bounds (x / pow2 e))
  have hlt : ((n * (2 ^ d : Nat) : ℤ) : ℚ) - 1 < roundHalfEven (x / pow2 e) := by
    have h1 : (n : ℚ) * ((2 ^ d : Nat) : ℚ) - 1 / 2 < x / pow2 e := by
      rw [lt_div_iff₀ hp]; nlinarith
    push_cast at *
    linarith [hb.1]
  have hle : n * (2 ^ d : Nat) ≤ roundHalfEven (x / pow2 e) := by
    have : ((n * (2 ^ d : Nat) - 1 : ℤ) : ℚ) < ((roundHalfEven (x / pow2 e) : ℤ) : ℚ) := by push_cast at *; linarith
    have := Int.cast_lt.mp this
    omega
  have hq : ((n * (2 ^ d : Nat) : ℤ) : ℚ) ≤ roundHalfEven (x / pow2 e) := by exact_mod_cast hle
  have := mul_le_mul_of_nonneg_right hq hp.le
  push_cast at *
  linarith

theorem rnd_lower {x : ℚ} (hx : 0 < x) : x - pow2 (ilog2 x - 52) / 2 ≤ rnd x := by
  rw [rnd_pos_eq hx]
  unfold rndPos
  simp only
  have hp := pow2_pos (ilog2 x - 52)
  have hb := abs_le.mp (rhe_bounds (x / pow2 (ilog2 x - 52)))
  have := mul_le_mul_of_nonneg_right hb.1 hp.le
  rw [sub_mul, div_mul_cancel₀ _ hp.ne'] at this
  linarith

/-- a fraction of full scale, rounded, and scaled back -/
theorem back_to_int (w k : Nat) (h1 : 1474560 * w ≤ k * 4294967295) (h2 : k * 4294967295 < 1474560 * (w + 1)) (hw : 2990000 ≤ w) (hM : w < 4294967295) :
    (w : ℚ) ≤ rnd (rnd ((w : ℚ) / 4294967295) * 4294967295) := by
  have hwq : (2990000 : ℚ) ≤ w := by exact_mod_cast hw
  have hMq : (w : ℚ) < 4294967295 := by exact_mod_cast hM
  have hx : (0 : ℚ) < (w : ℚ) / 4294967295 := by positivity
  have hx' : (w : ℚ) / 4294967295 < 1 := by rw [div_lt_one (by norm_num)]; exact hMq
  have hs := ilog2_spec hx
  have hlow := rnd_lower hx
  have hr1 : rnd ((w : ℚ) / 4294967295) ≤ 1 := by
    calc rnd ((w : ℚ) / 4294967295) ≤ rnd ((1 : Nat) : ℚ) := rnd_mono hx.le (by simpa using hx'.le)
      _ = ((1 : Nat) : ℚ) := rnd_nat (by norm_num)
      _ = 1 := by norm_num
  have a1 : ilog2 ((w : ℚ) / 4294967295) < 0 := pow2_lt (lt_of_le_of_lt hs.1 hx')
  have a2 : -11 < ilog2 ((w : ℚ) / 4294967295) + 1 := by
    apply pow2_lt
    refine lt_of_le_of_lt ?_ hs.2
    have : pow2 (-11) = 1 / 2048 := rfl
    rw [this, le_div_iff₀ (by norm_num)]
    linarith
  generalize ilog2 ((w : ℚ) / 4294967295) = e at *
  have hp := pow2_pos e
  obtain ⟨a, rfl⟩ : ∃ a : Nat, e = (a : Int) - 32 := ⟨(e + 32).toNat, by omega⟩
  have ha : 21 ≤ a ∧ a ≤ 31 := by omega
  have e32 : pow2 (a : Int) = pow2 ((a : Int) - 32) * 4294967296 := by
    have : (a : Int) = (a - 32) + 32 := by omega
    rw [this, pow2_add]
    have : pow2 32 = 4294967296 := rfl
    rw [this]
    congr 2
    omega
  have e53 : pow2 ((a : Int) - 32 - 52) = pow2 (a - 32) / 4503599627370496 := by
    rw [sub_eq_add_neg _ (52 : Int), pow2_add]
    have : pow2 (-52) = 1 / 4503599627370496 := rfl
    rw [this]; ring
  have e52 : pow2 ((a : Int) - 52) = pow2 (a - 32) / 1048576 := by
    have : (a : Int) - 52 = (a - 32) + (-20) := by omega
    rw [this, pow2_add]
    have : pow2 (-20) = 1 / 1048576 := rfl
    rw [this]; ring
  have hsmall : pow2 ((a : Int) - 32) < 1 := (show pow2 ((a : Int) - 32) < pow2 0 from by
    rw [pow2_eq, pow2_eq]; exact zpow_lt_zpow_right₀ (by norm_num) (by omega))
  -- strictly above the power of two
  have hw2 : 2 ^ a + 1 ≤ w := by
    have l1 : pow2 (a : Int) * 4294967295 ≤ w * 4294967296 := by
      have := hs.1
      rw [le_div_iff₀ (by norm_num)] at this
      rw [e32]; linarith
    rw [pow2_nat] at l1
    have l2 : 2 ^ a * 4294967295 ≤ w * 4294967296 := by exact_mod_cast l1
    obtain ⟨l3, l4⟩ := ha
    clear * - h1 h2 l2 l3 l4 hM
    interval_cases a <;> omega
  have hw2q : pow2 (a : Int) + 1 ≤ w := by rw [pow2_nat]; exact_mod_cast hw2
  generalize hy : rnd ((w : ℚ) / 4294967295) * 4294967295 = y
  have hy1 : w - pow2 ((a : Int) - 32) * 4294967295 / 9007199254740992 ≤ y := by
    rw [← hy]
    have := mul_le_mul_of_nonneg_right hlow (show (0 : ℚ) ≤ 4294967295 by norm_num)
    rw [e53, sub_mul, div_mul_cancel₀ _ (by norm_num)] at this
    linarith
  have hy2 : y ≤ 4294967295 := by rw [← hy]; linarith
  have hy0 : pow2 (a : Int) ≤ y := by nlinarith
  have hypos : 0 < y := lt_of_lt_of_le (pow2_pos _) hy0
  have hys := ilog2_spec hypos
  have b1 : (a : Int) < ilog2 y + 1 := pow2_lt (lt_of_le_of_lt hy0 hys.2)
  have b2 : ilog2 y < 52 := pow2_lt (lt_of_le_of_lt hys.1 (lt_of_le_of_lt hy2 (show (4294967295 : ℚ) < 4503599627370496 by norm_num)))
  have b3 := pow2_mono (a := (a : Int) - 52) (b := ilog2 y - 52) (by omega)
  have := le_rnd hypos (w : ℤ) 0 (by omega) (by
    have p0 : pow2 0 = 1 := rfl
    rw [p0]
    rw [e52] at b3
    push_cast
    linarith)
  have p0 : pow2 0 = 1 := rfl
  rw [p0] at this
  push_cast at this
  linarith

/-- the wire values that are written again as they were read -/
theorem fixed_core [Platform] (w k K : Nat) (j : Int) (hK : 0 < K) (hK2 : K < 2 ^ 53) (hj : (K : ℚ) = 1474560 * pow2 (j + 32)) (h1 : 1474560 * w ≤ k * 4294967295)
    (h2 : k * 4294967295 < 1474560 * (w + 1)) (hw : 2990000 ≤ w) (hM : w < 4294967295) :
    w ≤ (f2u32 (fmul (fdiv (rnd ((w : ℚ) * K / 4294967295)) K) 4294967295)).toNat := by
  have hKq : (0 : ℚ) < K := by exact_mod_cast hK
  have hwq : (2990000 : ℚ) ≤ w := by exact_mod_cast hw
  have hMq : (w : ℚ) < 4294967295 := by exact_mod_cast hM
  have h1q : (1474560 : ℚ) * w ≤ k * 4294967295 := by exact_mod_cast h1
  have h2q : (k : ℚ) * 4294967295 < 1474560 * (w + 1) := by exact_mod_cast h2
  have hpj := pow2_pos j
  have e32 : pow2 (j + 32) = pow2 j * 4294967296 := by rw [pow2_add]; rfl
  rw [e32] at hj
  -- the decoded coordinate is not below the true one
  have s1 : (w : ℚ) * K / 4294967295 ≤ rnd ((w : ℚ) * K / 4294967295) := by
    have hx : (0 : ℚ) < (w : ℚ) * K / 4294967295 := by positivity
    have hs := ilog2_spec hx
    have u1 : ilog2 ((w : ℚ) * K / 4294967295) < j + 53 := by
      apply pow2_lt
      refine lt_of_le_of_lt hs.1 ?_
      have : pow2 (j + 53) = pow2 j * 9007199254740992 := by rw [pow2_add]; rfl
      rw [this, hj, div_lt_iff₀ (by norm_num)]
      nlinarith
    have u2 : j + 42 < ilog2 ((w : ℚ) * K / 4294967295) + 1 := by
      apply pow2_lt
      refine lt_of_le_of_lt ?_ hs.2
      have : pow2 (j + 42) = pow2 j * 4398046511104 := by rw [pow2_add]; rfl
      rw [this, hj, le_div_iff₀ (by norm_num)]
      nlinarith
    have u3 : pow2 j / 1024 ≤ pow2 (ilog2 ((w : ℚ) * K / 4294967295) - 52) := by
      have h := pow2_mono (a := j + (-10)) (b := ilog2 ((w : ℚ) * K / 4294967295) - 52) (by omega)
      rw [pow2_add] at h
      have : pow2 (-10) = 1 / 1024 := rfl
      rw [this] at h
      linarith
    have key := le_rnd hx (1474560 * w + k : ℤ) j (by omega) (by
      refine lt_of_lt_of_le ?_ (div_le_div_of_nonneg_right u3 (by norm_num))
      rw [hj, sub_lt_iff_lt_add, ← sub_lt_iff_lt_add', lt_div_iff₀ (by norm_num)]
      push_cast
      nlinarith)
    refine le_trans ?_ key
    rw [hj, div_le_iff₀ (by norm_num)]
    push_cast
    nlinarith
  have hx1 : (0 : ℚ) < (w : ℚ) / 4294967295 := by positivity
  have hx1' : (w : ℚ) / 4294967295 < 1 := by rw [div_lt_one (by norm_num)]; exact hMq
  have s2 : rnd ((w : ℚ) / 4294967295) ≤ fdiv (rnd ((w : ℚ) * K / 4294967295)) K := by
    apply rnd_mono hx1.le
    rw [le_div_iff₀ hKq]
    refine le_trans (le_of_eq ?_) s1
    ring
  have s3 : rnd (rnd ((w : ℚ) / 4294967295) * 4294967295) ≤ fmul (fdiv (rnd ((w : ℚ) * K / 4294967295)) K) 4294967295 :=
    rnd_mono (mul_nonneg (rnd_nonneg hx1.le) (by norm_num)) (mul_le_mul_of_nonneg_right s2 (by norm_num))
  have s4 : (w : ℚ) ≤ rnd (rnd ((w : ℚ) / 4294967295) * 4294967295) := back_to_int w k h1 h2 hw hM
  obtain ⟨g0, g1⟩ := coord_range (w : ℚ) K (by positivity) hMq.le hK2
  obtain ⟨y0, y1, -⟩ := enc_close _ K hK g0 g1
  obtain ⟨-, z2⟩ := f2u32_range _ y0 y1
  have : (w : ℚ) < (f2u32 (fmul (fdiv (rnd ((w : ℚ) * K / 4294967295)) K) 4294967295)).toNat + 1 :=
    lt_of_le_of_lt (s4.trans s3) z2
  have : w < (f2u32 (fmul (fdiv (rnd ((w : ℚ) * K / 4294967295)) K) 4294967295)).toNat + 1 := by exact_mod_cast this
  omega
variable [P : Platform]

theorem low_fixed : (List.range 1500).all (fun i => (rawOfLat (latOfRaw (UInt32.ofNat (2048 * i)))).toNat == 2048 * i &&
    (rawOfLon (lonOfRaw (UInt32.ofNat (2048 * i)))).toNat == 2048 * i) = true := by
  kernel_rfl

/-- below every wire value, and not far, there is one that is written again as it was read -/
theorem fixed_below (v : Nat) (hv : v < 2 ^ 32) : ∃ w ≤ v, v ≤ w + 2914 ∧ latAgain w = w ∧ lonAgain w = w := by
  by_cases hs : v < 3000000
  · refine ⟨2048 * (v / 2048), by omega, by omega, ?_⟩
    have := List.all_eq_true.mp low_fixed (v / 2048) (List.mem_range.mpr (by omega))
    rw [Bool.and_eq_true, beq_iff_eq, beq_iff_eq] at this
    exact this
  · obtain ⟨k, hk⟩ : ∃ k, k = 1474560 * (v - 1) / 4294967295 := ⟨_, rfl⟩
    obtain ⟨w, hw⟩ : ∃ w, w = k * 4294967295 / 1474560 := ⟨_, rfl⟩
    have b1 : 1474560 * w ≤ k * 4294967295 := by omega
    have b2 : k * 4294967295 < 1474560 * (w + 1) := by omega
    have b3 : w ≤ v - 1 := by omega
    have b4 : v ≤ w + 2914 := by omega
    have e : (UInt32.ofNat w).toNat = w := u32_ofNat_toNat (by omega)
    refine ⟨w, by omega, b4, ?_, ?_⟩
    · have f := fixed_core w k 90 (-46) (by norm_num) (by norm_num) (by
        have : pow2 (-46 + 32) = 1 / 16384 := rfl
        rw [this]; norm_num) b1 b2 (by omega) (by omega)
      have g := latAgain_le w (by omega)
      have : w ≤ latAgain w := by
        unfold latAgain
        rw [latOfRaw_eq, rawOfLat, e]
        push_cast at f
        exact f
      omega
    · have f := fixed_core w k 180 (-45) (by norm_num) (by norm_num) (by
        have : pow2 (-45 + 32) = 1 / 8192 := rfl
        rw [this]; norm_num) b1 b2 (by omega) (by omega)
      have g := lonAgain_le w (by omega)
      have : w ≤ lonAgain w := by
        unfold lonAgain
        rw [lonOfRaw_eq, rawOfLon, e]
        push_cast at f
        exact f
      omega

theorem step_lat (n : Nat) (hn : n < 2 ^ 32) : latAgain n = n ∨ latAgain n + 1 = n := by
  have := reencode_core (UInt32.ofNat n) 90 (by norm_num) (by norm_num)
  unfold latAgain
  rw [latOfRaw_eq, rawOfLat]
  push_cast at this
  rw [u32_ofNat_toNat hn] at this ⊢
  exact this

theorem step_lon (n : Nat) (hn : n < 2 ^ 32) : lonAgain n = n ∨ lonAgain n + 1 = n := by
  have := reencode_core (UInt32.ofNat n) 180 (by norm_num) (by norm_num)
  unfold lonAgain
  rw [lonOfRaw_eq, rawOfLon]
  push_cast at this
  rw [u32_ofNat_toNat hn] at this ⊢
  exact this

omit P in
theorem iter_not_past (f : Nat → Nat) (hf : ∀ n, n < 2 ^ 32 → f n = n ∨ f n + 1 = n) (w v : Nat) (hv : v < 2 ^ 32) (hw : w ≤ v) (hfix : f w = w) (n : Nat) :
    w ≤ f^[n] v ∧ f^[n] v < 2 ^ 32 := by
  induction n with
  | zero => exact ⟨hw, hv⟩
  | succ n ih =>
    rw [Function.iterate_succ_apply']
    obtain ⟨i1, i2⟩ := ih
    rcases hf _ i2 with h | h
    · rw [h]; exact ⟨i1, i2⟩
    · rcases Nat.lt_or_ge w (f^[n] v) with h3 | h3
      · omega
      · have : f^[n] v = w := by omega
        rw [this] at h ⊢
        omega

/-- C137 (partial): a position is at most 2914 steps of the wire format (7 m of
latitude, 14 m of longitude) from where it was, however long the chain. Missing: at most one step, see `wander_wrong`. -/
theorem wander_bound_partial {b c : Bytes} {n : Nat} (h : Relayed b n c) :
    (rawLat c ≤ rawLat b ∧ rawLat b ≤ rawLat c + 2914) ∧ (rawLong c ≤ rawLong b ∧ rawLong b ≤ rawLong c + 2914) := by
  obtain ⟨⟨h1, -⟩, ⟨h2, -⟩, -⟩ := wander_partial h
  obtain ⟨e1, e2, -⟩ := relayed_coords h
  obtain ⟨w, w1, w2, w3, -⟩ := fixed_below (rawLat b) (wireNat_lt b 4 4)
  obtain ⟨x, x1, x2, -, x4⟩ := fixed_below (rawLong b) (wireNat_lt b 8 4)
  have i1 := (iter_not_past latAgain step_lat w _ (wireNat_lt b 4 4) w1 w3 n).1
  have i2 := (iter_not_past lonAgain step_lon x _ (wireNat_lt b 8 4) x1 x4 n).1
  have f1 : rawLat c = latAgain^[n] (wireNat b 4 4) := e1
  have f2 : rawLong c = lonAgain^[n] (wireNat b 8 4) := e2
  rw [← f1] at i1
  rw [← f2] at i2
  omega

end Egts
