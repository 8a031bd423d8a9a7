import Verif.Props.CmdFloat
import Mathlib.Tactic.LinearCombination
set_option autoImplicit false
/- C111: floating point numbers on the command line are correctly rounded -/
namespace Egts

theorem isFloat64_neg {y : ℚ} (h : IsFloat64 y) : IsFloat64 (-y) := by
  obtain ⟨m, e, h1, h2, h3, rfl⟩ := h
  exact ⟨-m, e, by rwa [abs_neg], h2, h3, by push_cast; ring⟩

theorem roundsTo64_neg {v y : ℚ} (h : RoundsTo64 v y) : RoundsTo64 (-v) (-y) := by
  have key : ∀ a b : ℚ, |-a - -b| = |a - b| := fun a b => by rw [← abs_neg]; congr 1; ring
  refine ⟨⟨isFloat64_neg h.1.1, fun z hz => ?_⟩, fun z hz hn ht => ?_⟩
  · have := h.1.2 (-z) (isFloat64_neg hz)
    rw [key, ← key z (-v), neg_neg]
    exact this
  · obtain ⟨j, hj⟩ := h.2 (-z) (isFloat64_neg hz) (fun e => hn (by rw [← e, neg_neg])) (by
      rw [key] at ht
      rw [← ht, ← key z (-v), neg_neg])
    exact ⟨j, by linear_combination -hj⟩

/-- correct rounding determines the number -/
theorem roundsTo64_unique {v y y' : ℚ} (h : RoundsTo64 v y) (h' : RoundsTo64 v y') : y = y' := by
  by_contra hn
  have e : |y' - v| = |y - v| := le_antisymm (h'.1.2 _ h.1.1) (h.1.2 _ h'.1.1)
  obtain ⟨j, hj⟩ := h.2 y' h'.1.1 (Ne.symm hn) e
  obtain ⟨k, hk⟩ := h'.2 y h.1.1 hn e.symm
  have hd : y' - y ≠ 0 := sub_ne_zero.mpr (Ne.symm hn)
  have : (y' - y) * (1 + 2 * (j + k : ℤ)) = 0 := by push_cast; linear_combination hk - hj
  rcases mul_eq_zero.mp this with h | h
  · exact hd h
  · have : (1 + 2 * (j + k) : ℤ) = 0 := by exact_mod_cast h
    omega

theorem rnd64_zero : rnd64 0 = 0 := rfl

/-- the grid on which a number is rounded -/
def grid64 (v : ℚ) : ℤ := max (ilog2 v - 52) (-1074)

theorem rnd64_pos {v : ℚ} (h : 0 < v) : rnd64 v = (roundHalfEven (v / pow2 (grid64 v)) : ℚ) * pow2 (grid64 v) := by
  unfold rnd64
  rw [if_neg (not_le.mpr h)]
  rfl

theorem rnd64_eq_rndG {v : ℚ} (h : 0 < v) : rnd64 v = rndG 52 (-1074) v := by
  rw [rnd64_pos h]; rfl

theorem rhe_nonneg' {x : ℚ} (h : 0 ≤ x) : 0 ≤ roundHalfEven x := by
  have := rhe_mono h
  rwa [show (0 : ℚ) = ((0 : ℤ) : ℚ) from rfl, rhe_int] at this

theorem rnd64_error {v : ℚ} (h : 0 < v) : |rnd64 v - v| ≤ pow2 (grid64 v) / 2 := by
  have p := pow2_pos (grid64 v)
  have := rhe_bounds (v / pow2 (grid64 v))
  rw [rnd64_pos h]
  have e : (roundHalfEven (v / pow2 (grid64 v)) : ℚ) * pow2 (grid64 v) - v = (roundHalfEven (v / pow2 (grid64 v)) - v / pow2 (grid64 v)) * pow2 (grid64 v) := by
    field_simp
  rw [e, abs_mul, abs_of_pos p]
  nlinarith

theorem two_pow (n : Nat) : (2 : ℚ) ^ n = pow2 (n : ℤ) := by rw [pow2_eq, zpow_natCast]

theorem limit_eq : float64Limit = pow2 1024 - pow2 970 := by
  unfold float64Limit
  rw [two_pow, two_pow]
  rfl

/-- too large numbers -/
theorem rnd64_limit (v : ℚ) : 2 ^ 1024 ≤ rnd64 v ↔ float64Limit ≤ v := by
  have p0 := pow2_pos 970
  rw [show (2 : ℚ) ^ 1024 = pow2 1024 from two_pow 1024]
  have pl : pow2 970 < pow2 1024 := by
    have h1 := pow2_mono (show (971 : ℤ) ≤ 1024 by decide)
    have h2 := pow2_succ 970
    rw [show (970 : ℤ) + 1 = 971 from rfl] at h2
    linarith
  constructor
  · intro h
    by_contra hc
    rw [not_le, limit_eq] at hc
    by_cases hv : 0 < v
    · have he := rnd64_error hv
      obtain ⟨a, b⟩ := ilog2_spec hv
      have hl : ilog2 v < 1024 := by
        refine pow2_lt (a.trans_lt (hc.trans_le ?_))
        linarith
      have hg : grid64 v ≤ 971 := by unfold grid64; omega
      have hp := pow2_mono hg
      have : pow2 971 = 2 * pow2 970 := pow2_succ 970
      rw [abs_le] at he
      linarith [he.2]
    · unfold rnd64 at h
      rw [if_pos (not_lt.mp hv)] at h
      linarith
  · intro h
    have hl : (0 : ℚ) < float64Limit := by rw [limit_eq]; linarith
    have hv := hl.trans_le h
    have e : rnd64 float64Limit = pow2 1024 := by decide +kernel
    rw [← e, rnd64_eq_rndG hl, rnd64_eq_rndG hv]
    exact rndG_mono 52 (-1074) hl h

/-- the model rounds correctly -/
theorem rnd64_rounds {v : ℚ} (h0 : 0 ≤ v) (hlim : v < float64Limit) : RoundsTo64 v (rnd64 v) := by
  rcases h0.lt_or_eq with hv | rfl
  swap
  · rw [rnd64_zero]
    refine ⟨⟨⟨0, 0, by norm_num, by norm_num, by norm_num, by norm_num⟩, fun z _ => by simp⟩, fun z _ hn ht => ?_⟩
    rw [sub_zero, sub_zero, abs_zero, abs_eq_zero] at ht
    exact absurd ht hn
  obtain ⟨a, b⟩ := ilog2_spec hv
  have hlt : rnd64 v < 2 ^ 1024 := not_le.mp fun h => absurd ((rnd64_limit v).mp h) (not_le.mpr hlim)
  set e := grid64 v with he
  have pe := pow2_pos e
  set k := roundHalfEven (v / pow2 e) with hk
  have hy : rnd64 v = k * pow2 e := rnd64_pos hv
  have hk0 : 0 ≤ k := rhe_nonneg' (div_nonneg hv.le pe.le)
  -- at most 2^53
  have hk53 : k ≤ 2 ^ 53 := by
    have : v / pow2 e ≤ ((2 ^ 53 : ℤ) : ℚ) := by
      rw [div_le_iff₀ pe]
      refine b.le.trans ?_
      have : ((2 ^ 53 : ℤ) : ℚ) = pow2 53 := by rw [pow2_eq]; norm_cast
      rw [this, ← pow2_add]
      exact pow2_mono (by rw [he]; unfold grid64; omega)
    have := rhe_mono this
    rwa [rhe_int] at this
  have hk52 : -1074 < e → 2 ^ 52 ≤ k := by
    intro h
    have : ((2 ^ 52 : ℤ) : ℚ) ≤ v / pow2 e := by
      rw [le_div_iff₀ pe]
      refine le_trans ?_ a
      have : ((2 ^ 52 : ℤ) : ℚ) = pow2 52 := by rw [pow2_eq]; norm_cast
      rw [this, ← pow2_add]
      exact pow2_mono (by rw [he] at h ⊢; unfold grid64 at h ⊢; omega)
    have := rhe_mono this
    rwa [rhe_int] at this
  have hfl : IsFloat64 (rnd64 v) := by
    have p1024 : (2 : ℚ) ^ 1024 = pow2 1024 := two_pow 1024
    rcases hk53.lt_or_eq with h | h
    · refine ⟨k, e, by rwa [abs_of_nonneg hk0], by rw [he]; unfold grid64; omega, ?_, by rw [hy, pow2_eq]⟩
      by_contra hc
      have h52 := hk52 (by omega)
      have : pow2 1024 ≤ rnd64 v := by
        rw [hy]
        have h52' : pow2 52 ≤ (k : ℚ) := by rw [pow2_eq]; exact_mod_cast h52
        calc pow2 1024 ≤ pow2 (52 + e) := pow2_mono (by omega)
          _ = pow2 52 * pow2 e := pow2_add _ _
          _ ≤ _ := by nlinarith
      exact absurd (p1024 ▸ hlt) (not_lt.mpr this)
    · refine ⟨2 ^ 52, e + 1, by norm_num, by rw [he]; unfold grid64; omega, ?_, ?_⟩
      · by_contra hc
        have : pow2 1024 ≤ rnd64 v := by
          rw [hy, h]
          have h53 : pow2 53 = ((2 ^ 53 : ℤ) : ℚ) := by rw [pow2_eq]; norm_cast
          calc pow2 1024 ≤ pow2 (53 + e) := pow2_mono (by omega)
            _ = pow2 53 * pow2 e := pow2_add _ _
            _ ≤ _ := by rw [h53]
        exact absurd (p1024 ▸ hlt) (not_lt.mpr this)
      · rw [hy, h, ← pow2_eq, pow2_succ]; push_cast; ring
  -- every multiple of the grid is at least as far away
  have near : ∀ j : ℤ, |rnd64 v - v| ≤ |(j : ℚ) * pow2 e - v| ∧
      ((j : ℚ) * pow2 e ≠ rnd64 v → |(j : ℚ) * pow2 e - v| = |rnd64 v - v| → ∃ i : ℤ, rnd64 v = 2 * i * ((j : ℚ) * pow2 e - rnd64 v)) := by
    intro j
    set x := v / pow2 e with hx
    have hvx : v = x * pow2 e := by rw [hx]; field_simp
    have f : ∀ q : ℚ, |q * pow2 e - v| = |q - x| * pow2 e := by
      intro q
      rw [hvx, ← sub_mul, abs_mul, abs_of_pos pe]
    rw [hy, f, f]
    have hb := rhe_bounds x
    by_cases hj : j = k
    · rw [hj]
      exact ⟨le_refl _, fun h => absurd rfl h⟩
    have hjk : (1 : ℚ) ≤ |(j : ℚ) - k| := by
      have : (1 : ℤ) ≤ |j - k| := Int.one_le_abs (sub_ne_zero.mpr hj)
      exact_mod_cast this
    have tri : |(j : ℚ) - k| ≤ |(j : ℚ) - x| + |(k : ℚ) - x| := by
      have := abs_sub_le (j : ℚ) x k
      rwa [abs_sub_comm x (k : ℚ)] at this
    refine ⟨by nlinarith, fun _ ht => ?_⟩
    have ht : |(j : ℚ) - x| = |(k : ℚ) - x| := mul_right_cancel₀ pe.ne' ht
    have hh : |(k : ℚ) - x| = 1 / 2 := by linarith
    have hj2 : j = k + 1 ∨ j = k - 1 := by
      have : |(j : ℚ) - k| ≤ 1 := by linarith
      have : |j - k| ≤ 1 := by exact_mod_cast this
      rw [abs_le] at this
      omega
    have even : k % 2 = 0 := by
      have f1 := Int.floor_le x
      have f2 := Int.lt_floor_add_one x
      rcases rhe_cases x with ⟨h, e⟩ | ⟨h, e⟩ | ⟨h, p, e⟩ | ⟨h, p, e⟩ <;> rw [← hk] at e
      · rw [e, abs_sub_comm, abs_of_nonneg (by linarith)] at hh; linarith
      · rw [e, abs_of_nonneg (by push_cast; linarith)] at hh; push_cast at hh; linarith
      · omega
      · omega
    obtain ⟨i, hi⟩ : ∃ i, k = 2 * i := ⟨k / 2, by omega⟩
    rcases hj2 with h | h
    · exact ⟨i, by rw [h, hi]; push_cast; ring⟩
    · exact ⟨-i, by rw [h, hi]; push_cast; ring⟩
  -- the numbers below the grid
  have far : ∀ z, IsFloat64 z → (∃ j : ℤ, z = j * pow2 e) ∨ |rnd64 v - v| < |z - v| := by
    rintro z ⟨m, f, hm, hf, -, rfl⟩
    by_cases hfe : e ≤ f
    · refine .inl ⟨m * 2 ^ (f - e).toNat, ?_⟩
      rw [← pow2_eq, show f = ((f - e).toNat : ℤ) + e by omega, pow2_add, pow2_nat]
      push_cast
      rw [show ((f - e).toNat : ℤ) + e - e = ((f - e).toNat : ℤ) by omega, Int.toNat_natCast]
      ring
    · right
      have hl : e = ilog2 v - 52 := by rw [he] at hfe ⊢; unfold grid64 at hfe ⊢; omega
      have h52 : ((2 ^ 52 : ℤ) : ℚ) * pow2 e ≤ v := by
        refine le_trans (le_of_eq ?_) a
        have : ((2 ^ 52 : ℤ) : ℚ) = pow2 52 := by rw [pow2_eq]; norm_cast
        rw [this, ← pow2_add]; congr 1; omega
      have hz : (m : ℚ) * 2 ^ f < ((2 ^ 52 : ℤ) : ℚ) * pow2 e := by
        have h1 : (m : ℚ) < 2 ^ 53 := by
          have := (abs_lt.mp hm).2
          exact_mod_cast this
        have h2 : pow2 f * 2 ≤ pow2 e := by
          have := pow2_mono (show f + 1 ≤ e by omega)
          rw [pow2_succ] at this; linarith
        have pf := pow2_pos f
        rw [← pow2_eq]
        push_cast
        nlinarith
      have := (near (2 ^ 52)).1
      refine this.trans_lt ?_
      rw [abs_sub_comm, abs_of_nonneg (by linarith), abs_sub_comm, abs_of_nonneg (by linarith)]
      linarith
  refine ⟨⟨hfl, fun z hz => ?_⟩, fun z hz hn ht => ?_⟩
  · rcases far z hz with ⟨j, rfl⟩ | h
    · exact (near j).1
    · exact h.le
  · rcases far z hz with ⟨j, rfl⟩ | h
    · exact (near j).2 hn ht
    · rw [ht] at h; exact absurd h (lt_irrefl _)

/-! ### The texts -/

theorem special_none {s : Bytes} {v : ℚ} {e : Int} (h : RealText s v e) :
    specialFloat s = none ∧ specialFloat (43 :: s) = none ∧ specialFloat (45 :: s) = none := by
  have hd := realText_dropSign h
  obtain ⟨c, t, rfl, hc⟩ := realText_head h
  have k : ∀ c : UInt8, (c = 46 ∨ decByte c = true) → lowerByte c ≠ 110 ∧ lowerByte c ≠ 105 := bytes_all (by decide +kernel)
  obtain ⟨k1, k2⟩ := k c hc
  have i1 : lowerText (c :: t) ≠ asc "inf" := fun h => k2 (List.cons.inj h).1
  have i2 : lowerText (c :: t) ≠ asc "infinity" := fun h => k2 (List.cons.inj h).1
  have n1 : lowerText (c :: t) ≠ asc "nan" := fun h => k1 (List.cons.inj h).1
  have n2 : lowerText (43 :: c :: t) ≠ asc "nan" := fun h => absurd (List.cons.inj h).1 (by decide)
  have n3 : lowerText (45 :: c :: t) ≠ asc "nan" := fun h => absurd (List.cons.inj h).1 (by decide)
  refine ⟨?_, ?_, ?_⟩
  · unfold specialFloat
    rw [hd, if_neg n1, if_neg (not_or.mpr ⟨i1, i2⟩)]
  · unfold specialFloat
    rw [if_neg n2]
    exact if_neg (not_or.mpr ⟨i1, i2⟩)
  · unfold specialFloat
    rw [if_neg n3]
    exact if_neg (not_or.mpr ⟨i1, i2⟩)

theorem realText_nonneg {s : Bytes} {v : ℚ} {e : Int} (h : RealText s v e) : 0 ≤ v := by
  cases h with
  | dec m => positivity
  | decExp m hc x => exact mul_nonneg (by positivity) (zpow_nonneg (by norm_num) _)
  | hex hx hu m hc y => exact mul_nonneg (by positivity) (zpow_nonneg (by norm_num) _)

theorem realText_sign {s : Bytes} {v : ℚ} {e : Int} (h : RealText s v e) : s.head? ≠ some 45 := by
  obtain ⟨c, t, rfl, hc⟩ := realText_head h
  have k : ∀ c : UInt8, (c = 46 ∨ decByte c = true) → c ≠ 45 := bytes_all (by decide +kernel)
  simpa using k c hc

/-- the sign of the text in front of a literal -/
theorem goParseFloat_real {s w : Bytes} {v : ℚ} {e : Int} (h : RealText w v e) (he : e.natAbs < 100000) (hs : specialFloat s = none) (hd : dropSign s = w) :
    goParseFloat s = if 2 ^ 1024 ≤ rnd64 v then none else some (.fin (if s.head? = some 45 then -rnd64 v else rnd64 v)) := by
  have hu : underscoreOK s = true := by
    have := h.underscore
    unfold underscoreOK at this ⊢
    rw [hd]
    rwa [realText_dropSign h] at this
  unfold goParseFloat
  rw [hs]
  dsimp only
  rw [hd, h.read he]
  dsimp only
  rw [hu]
  simp only [Bool.not_true, Bool.and_false, Bool.false_eq_true, if_false]

/-- **C111.** A number that is written like a floating-point literal of Go, with an exponent of at most five digits, is read, and it is rounded
correctly. -/
theorem parseFloat_reads (s : Bytes) (v : ℚ) (e : Int) (h : FloatText s v e) (he : e.natAbs < 100000) (hv : |v| < float64Limit) :
    ∃ y, goParseFloat s = some (.fin y) ∧ RoundsTo64 v y := by
  cases h with
  | plain h =>
    have h0 := realText_nonneg h
    rw [abs_of_nonneg h0] at hv
    rw [goParseFloat_real h he (special_none h).1 (realText_dropSign h), if_neg (fun c => absurd ((rnd64_limit _).mp c) (not_le.mpr hv)), if_neg (realText_sign h)]
    exact ⟨_, rfl, rnd64_rounds h0 hv⟩
  | plus h =>
    have h0 := realText_nonneg h
    rw [abs_of_nonneg h0] at hv
    rw [goParseFloat_real h he (special_none h).2.1 rfl, if_neg (fun c => absurd ((rnd64_limit _).mp c) (not_le.mpr hv)), if_neg (by simp)]
    exact ⟨_, rfl, rnd64_rounds h0 hv⟩
  | minus h =>
    have h0 := realText_nonneg h
    rw [abs_neg, abs_of_nonneg h0] at hv
    rw [goParseFloat_real h he (special_none h).2.2 rfl, if_neg (fun c => absurd ((rnd64_limit _).mp c) (not_le.mpr hv)), if_pos (by simp)]
    exact ⟨_, rfl, roundsTo64_neg (rnd64_rounds h0 hv)⟩

/-- **C111.** A number that is too large is an error. -/
theorem parseFloat_large (s : Bytes) (v : ℚ) (e : Int) (h : FloatText s v e) (he : e.natAbs < 100000) (hv : float64Limit ≤ |v|) : goParseFloat s = none := by
  cases h with
  | plain h =>
    rw [abs_of_nonneg (realText_nonneg h)] at hv
    rw [goParseFloat_real h he (special_none h).1 (realText_dropSign h), if_pos ((rnd64_limit _).mpr hv)]
  | plus h =>
    rw [abs_of_nonneg (realText_nonneg h)] at hv
    rw [goParseFloat_real h he (special_none h).2.1 rfl, if_pos ((rnd64_limit _).mpr hv)]
  | minus h =>
    rw [abs_neg, abs_of_nonneg (realText_nonneg h)] at hv
    rw [goParseFloat_real h he (special_none h).2.2 rfl, if_pos ((rnd64_limit _).mpr hv)]

theorem underscoreOK_free (s : Bytes) (h : 95 ∉ s) : underscoreOK s = true := by
  unfold underscoreOK
  have hd : 95 ∉ dropSign s := by
    unfold dropSign
    split <;> simp_all
  split
  · rename_i c t e
    rw [e] at hd
    split
    · exact underscore_free _ t (fun h => hd (by simp [h])) _ (by simp)
    · rw [e]
      exact underscore_free _ _ hd _ (by simp)
  · rename_i e
    exact underscore_free _ _ hd _ (by simp)

/-- a text that is read has no second sign -/
theorem readFloat_sign (t : Bytes) (v : ℚ) (h : readFloat t = some v) : dropSign t = t := by
  unfold dropSign
  split
  · exact absurd h (by
      rename_i s
      rw [show readFloat (43 :: s) = none from by
        have : isHex (43 :: s) = false := rfl
        unfold readFloat
        rw [this]
        rfl]
      simp)
  · exact absurd h (by
      rename_i s
      rw [show readFloat (45 :: s) = none from by
        have : isHex (45 :: s) = false := rfl
        unfold readFloat
        rw [this]
        rfl]
      simp)
  · rfl

theorem dropSign_cases (s : Bytes) : (dropSign s = s ∧ s.head? ≠ some 45) ∨ s = 43 :: dropSign s ∨ s = 45 :: dropSign s := by
  unfold dropSign
  split
  · exact .inr (.inl rfl)
  · exact .inr (.inr rfl)
  · refine .inl ⟨rfl, fun h => ?_⟩
    rename_i h1 h2
    match s with
    | [] => cases h
    | c :: t => exact h2 t (by rw [Option.some.inj h])

/-- nothing but literals is read as a finite number -/
theorem parseFloat_only (s : Bytes) (y : F64) (h : goParseFloat s = some (.fin y)) : ∃ v e, FloatText s v e := by
  unfold goParseFloat at h
  cases hs : specialFloat s with
  | some x =>
    rw [hs] at h
    unfold specialFloat at hs
    dsimp only at h
    rw [Option.some.inj h] at hs
    split at hs
    · cases hs
    · split at hs <;> cases hs
  | none =>
    rw [hs] at h
    dsimp only at h
    cases hr : readFloat (dropSign s) with
    | none => rw [hr] at h; cases h
    | some x =>
      rw [hr] at h
      dsimp only at h
      have hdd := readFloat_sign _ _ hr
      have hu : underscoreOK s = true := by
        by_cases h95 : s.contains 95 = true
        · rw [h95, Bool.true_and] at h
          by_contra hc
          rw [Bool.not_eq_true] at hc
          rw [hc, Bool.not_false, if_pos rfl] at h
          cases h
        · exact underscoreOK_free s (by simpa using h95)
      have hu' : underscoreOK (dropSign s) = true := by
        unfold underscoreOK at hu ⊢
        rwa [hdd]
      obtain ⟨v, e, hv⟩ := readFloat_inv _ x hr hdd hu'
      rcases dropSign_cases s with ⟨h, -⟩ | h | h
      · exact ⟨v, e, by rw [h] at hv; exact .plain hv⟩
      · exact ⟨v, e, by rw [h]; exact .plus hv⟩
      · exact ⟨-v, e, by rw [h]; exact .minus hv⟩

/-- **C111.** The finite numbers that are read: exactly the literals in range, correctly rounded (for exponents of at most five digits). -/
theorem parseFloat_iff (s : Bytes) (y : F64) (hs : ∀ v e, FloatText s v e → e.natAbs < 100000) :
    goParseFloat s = some (.fin y) ↔ ∃ v e, FloatText s v e ∧ |v| < float64Limit ∧ RoundsTo64 v y := by
  constructor
  · intro h
    obtain ⟨v, e, hv⟩ := parseFloat_only s y h
    have hlt : |v| < float64Limit := by
      by_contra hc
      rw [parseFloat_large s v e hv (hs v e hv) (not_lt.mp hc)] at h
      cases h
    obtain ⟨y', h', hr⟩ := parseFloat_reads s v e hv (hs v e hv) hlt
    rw [h'] at h
    exact ⟨v, e, hv, hlt, by rw [← FloatArg.fin.inj (Option.some.inj h)]; exact hr⟩
  · rintro ⟨v, e, hv, hlt, hr⟩
    obtain ⟨y', h', hr'⟩ := parseFloat_reads s v e hv (hs v e hv) hlt
    rw [h', roundsTo64_unique hr hr']

/-! Examples: concrete texts and what they are read as. -/

example : goParseFloat (asc "60.344") = some (.fin (rnd64 (60344 / 1000))) := by decide +kernel
example : goParseFloat (asc "-0x1p-2") = some (.fin (-1 / 4)) ∧ goParseFloat (asc "1_000.5e-1") = some (.fin (rnd64 (10005 / 100))) := by decide +kernel
example : goParseFloat (asc "-Infinity") = some (.inf true) ∧ goParseFloat (asc "NaN") = some .nan ∧ goParseFloat (asc "+nan") = none := by decide +kernel
example : goParseFloat (asc "1e309") = none ∧ goParseFloat (asc "0x1.8") = none ∧ goParseFloat (asc "1__0") = none ∧ goParseFloat (asc "") = none ∧
    goParseFloat (asc "45,5") = none := by decide +kernel

/-- the bound on the exponent is not met by this text: the exponent is not counted beyond 10000 (readFloat of strconv/atof.go) -/
theorem parseFloat_exponent : expPart (asc "100000") = some (10000, []) ∧ ExpText (asc "100000") 100000 := by
  refine ⟨by decide +kernel, ?_⟩
  have z : DigitOf 10 48 0 := ⟨by decide, .inl ⟨by decide, rfl⟩⟩
  have o : DigitOf 10 49 1 := ⟨by decide, .inl ⟨by decide, rfl⟩⟩
  exact .plain (.next (.next (.next (.next (.next (.one o) z) z) z) z) z)

/-- the hypotheses of `parseFloat_reads` are met by the latitude of the example in the documentation -/
example : ∃ v e, FloatText (asc "60.344") v e ∧ e.natAbs < 100000 ∧ |v| < float64Limit := by
  have d : ∀ n : Nat, n < 10 → DigitOf 10 (UInt8.ofNat (48 + n)) n := fun n h => ⟨h, .inl ⟨h, by
    rw [UInt8.toNat_ofNat']; omega⟩⟩
  refine ⟨_, _, .plain (.dec (.both (.next (.one (d 6 (by decide))) (d 0 (by decide))) (.next (.next (.one (d 3 (by decide))) (d 4 (by decide))) (d 4 (by decide))))), by decide, ?_⟩
  rw [limit_eq]
  decide +kernel

end Egts
