import Verif.Props.FloatText
import Verif.Spec.FloatText
set_option autoImplicit false
namespace Egts
open JsonP

/-! ### rounding -/

theorem rnd_neg (x : ℚ) : rnd (-x) = -rnd x := by
  unfold rnd
  rcases lt_trichotomy x 0 with h | h | h
  · rw [if_neg (by linarith), if_pos (by linarith), if_neg h.ne, if_neg (by linarith)]; ring
  · subst h; simp
  · rw [if_neg (by linarith), if_neg (by linarith), if_neg h.ne', if_pos h]; simp

/-- numbers with 53 bits are float64 numbers -/
theorem rnd_dyadic (n : Nat) (e : Int) (h : n ≤ 2 ^ 53) : rnd ((n : ℚ) * pow2 e) = (n : ℚ) * pow2 e := by
  rcases Nat.eq_zero_or_pos n with rfl | hn
  · simp [rnd_zero]
  · have pe := pow2_pos e
    have hq : (0 : ℚ) < n := by exact_mod_cast hn
    have hx : 0 < (n : ℚ) * pow2 e := mul_pos hq pe
    rw [rnd_pos_eq hx]
    obtain ⟨h1, h2⟩ := ilog2_spec hx
    set x := (n : ℚ) * pow2 e with hxd
    have hle : ilog2 x ≤ e + 53 := by
      have : pow2 (ilog2 x) < pow2 (e + 54) := by
        refine h1.trans_lt ?_
        rw [hxd, add_comm e, pow2_add]
        refine mul_lt_mul_of_pos_right ?_ pe
        have : ((2 ^ 53 : Nat) : ℚ) < pow2 54 := by
          rw [show (54 : Int) = ((54 : Nat) : Int) by rfl, pow2_nat]; norm_num
        exact lt_of_le_of_lt (by exact_mod_cast h) this
      have := pow2_lt this
      omega
    have int : ∃ k : Int, x = (k : ℚ) * pow2 (ilog2 x - 52) := by
      rcases le_or_gt (ilog2 x) (e + 52) with hc | hc
      · obtain ⟨j, hj⟩ : ∃ j : Nat, e = ilog2 x - 52 + j := ⟨(e - (ilog2 x - 52)).toNat, by omega⟩
        refine ⟨(n * 2 ^ j : Nat), ?_⟩
        conv_lhs => rw [hxd, hj, pow2_add, pow2_nat]
        push_cast
        ring
      · have he : ilog2 x = e + 53 := by omega
        have hn53 : n = 2 ^ 53 := by
          rw [he, hxd, add_comm e, pow2_add] at h1
          have := le_of_mul_le_mul_right h1 pe
          rw [show (53 : Int) = ((53 : Nat) : Int) by rfl, pow2_nat] at this
          have : 2 ^ 53 ≤ n := by exact_mod_cast this
          omega
        refine ⟨2 ^ 52, ?_⟩
        rw [he, hxd, hn53, show e + 53 - 52 = e + 1 by ring, pow2_succ]
        push_cast
        ring
    obtain ⟨k, hk⟩ := int
    unfold rndPos
    simp only
    have pm := pow2_pos (ilog2 x - 52)
    have e1 : x / pow2 (ilog2 x - 52) = (k : ℚ) := by
      rw [div_eq_iff pm.ne']; exact hk
    rw [e1, rhe_int]
    exact hk.symm

/-- what is rounded is a float64 number -/
theorem rnd_idem (x : ℚ) : rnd (rnd x) = rnd x := by
  have pos : ∀ x : ℚ, 0 < x → rnd (rnd x) = rnd x := by
    intro x hx
    rw [rnd_pos_eq hx]
    obtain ⟨r1, r2⟩ := rndPos_range hx
    have pm := pow2_pos (ilog2 x - 52)
    have e2 : pow2 (ilog2 x + 1) = ((2 ^ 53 : ℤ) : ℚ) * pow2 (ilog2 x - 52) := by
      have : ((2 ^ 53 : ℤ) : ℚ) = pow2 53 := by norm_num [pow2]
      rw [this, ← pow2_add]; congr 1; omega
    unfold rndPos at r1 r2 ⊢
    simp only at r1 r2 ⊢
    have h0 : 0 ≤ roundHalfEven (x / pow2 (ilog2 x - 52)) := by
      by_contra hc
      have : ((roundHalfEven (x / pow2 (ilog2 x - 52)) : ℤ) : ℚ) < 0 := by exact_mod_cast not_le.mp hc
      have := mul_neg_of_neg_of_pos this pm
      linarith [pow2_pos (ilog2 x)]
    obtain ⟨n, hn⟩ := Int.eq_ofNat_of_zero_le h0
    rw [hn, e2] at r2
    have := le_of_mul_le_mul_right r2 pm
    have hle : n ≤ 2 ^ 53 := by exact_mod_cast this
    rw [hn]
    exact rnd_dyadic n _ hle
  rcases lt_trichotomy x 0 with h | h | h
  · have := pos (-x) (by linarith)
    rw [rnd_neg, rnd_neg, neg_inj] at this
    exact this
  · subst h; rfl
  · exact pos x h

theorem rndG_mono (p : Nat) (lo : Int) {y z : ℚ} (hy : 0 < y) (h : y ≤ z) : rndG p lo y ≤ rndG p lo z := by
  have hz := hy.trans_le h
  obtain ⟨y1, y2⟩ := ilog2_spec hy
  obtain ⟨z1, z2⟩ := ilog2_spec hz
  have hl : ilog2 y ≤ ilog2 z := by
    have := pow2_lt (y1.trans_lt (h.trans_lt z2)); omega
  unfold rndG
  simp only
  set e := max (ilog2 y - p) lo with he
  set e' := max (ilog2 z - p) lo with he'
  have pe := pow2_pos e
  have pe' := pow2_pos e'
  rcases (show e ≤ e' by omega).lt_or_eq with hlt | heq
  · have hz' : e' = ilog2 z - p := by omega
    have a : (roundHalfEven (y / pow2 e) : ℚ) * pow2 e ≤ pow2 (ilog2 z) := by
      obtain ⟨j, hj⟩ : ∃ j : Nat, ilog2 z = j + e := ⟨(ilog2 z - e).toNat, by omega⟩
      rw [hj, pow2_add, pow2_nat]
      refine mul_le_mul_of_nonneg_right ?_ pe.le
      have : y / pow2 e ≤ (((2 ^ j : Nat) : ℤ) : ℚ) := by
        rw [div_le_iff₀ pe]
        have : pow2 (ilog2 y + 1) ≤ pow2 (ilog2 z) := pow2_mono (by omega)
        rw [hj, pow2_add (j : Int), pow2_nat] at this
        push_cast at this ⊢
        linarith
      have := rhe_mono this
      rw [rhe_int] at this
      exact_mod_cast this
    have b : pow2 (ilog2 z) ≤ (roundHalfEven (z / pow2 e') : ℚ) * pow2 e' := by
      rw [show ilog2 z = (p : Int) + e' by omega, pow2_add, pow2_nat]
      refine mul_le_mul_of_nonneg_right ?_ pe'.le
      have : (((2 ^ p : Nat) : ℤ) : ℚ) ≤ z / pow2 e' := by
        rw [le_div_iff₀ pe']
        rw [show ilog2 z = (p : Int) + e' by omega, pow2_add, pow2_nat] at z1
        push_cast at z1 ⊢
        exact z1
      have := rhe_mono this
      rw [rhe_int] at this
      exact_mod_cast this
    exact a.trans b
  · rw [heq]
    refine mul_le_mul_of_nonneg_right ?_ pe'.le
    exact_mod_cast rhe_mono (by gcongr)

theorem rndG_nonneg (p : Nat) (lo : Int) {y : ℚ} (hy : 0 < y) : 0 ≤ rndG p lo y := by
  unfold rndG
  simp only
  refine mul_nonneg ?_ (pow2_pos _).le
  have : ((0 : ℤ) : ℚ) ≤ y / pow2 (max (ilog2 y - p) lo) := by
    push_cast
    exact (div_pos hy (pow2_pos _)).le
  have := rhe_mono this
  rw [rhe_int] at this
  exact_mod_cast this

theorem rnd_roundsTo {x : ℚ} (hx : 0 < x) (h : rnd x = x) : RoundsTo rnd x where
  pos := hx
  fix := h
  zero := rnd_zero
  mono _ _ h0 h1 := rnd_mono h0 h1

theorem rnd32_roundsTo {x : ℚ} (hx : 0 < x) (h : rnd32 x = x) : RoundsTo rnd32 x where
  pos := hx
  fix := h
  zero := by simp [rnd32]
  mono y z h0 h1 := by
    rcases h0.lt_or_eq with hy | hy
    · rw [rnd32_eq hy, rnd32_eq (hy.trans_le h1)]
      exact rndG_mono 23 (-149) hy h1
    · subst hy
      rcases h1.lt_or_eq with hz | hz
      · rw [rnd32_eq hz, show rnd32 0 = 0 by simp [rnd32]]
        exact rndG_nonneg 23 (-149) hz
      · rw [← hz]

theorem f32Abs_nonneg (b : UInt32) : 0 ≤ f32Abs b := by
  unfold f32Abs
  simp only
  split
  · exact mul_nonneg (by positivity) (pow2_pos _).le
  · exact mul_nonneg (by positivity) (pow2_pos _).le

/-- the values of float32 numbers are not changed by rounding -/
theorem rnd32_fix (b : UInt32) (hx : 0 < f32Abs b) : rnd32 (f32Abs b) = f32Abs b := by
  rw [rnd32_eq hx]
  obtain ⟨h1, h2⟩ := ilog2_spec hx
  unfold rndG
  simp only
  have hm : b.toNat % 8388608 < 2 ^ 23 := Nat.mod_lt _ (by norm_num)
  have p149 := pow2_pos (-149)
  have p23 : pow2 (23 : Int) = ((2 ^ 23 : Nat) : ℚ) := rfl
  have p24 : pow2 (24 : Int) = ((2 ^ 24 : Nat) : ℚ) := rfl
  have int : ∀ (k : Nat) (e : Int), f32Abs b = (k : ℚ) * pow2 e → max (ilog2 (f32Abs b) - ((23 : Nat) : Int)) (-149) = e →
      (roundHalfEven (f32Abs b / pow2 (max (ilog2 (f32Abs b) - ((23 : Nat) : Int)) (-149))) : ℚ) *
        pow2 (max (ilog2 (f32Abs b) - ((23 : Nat) : Int)) (-149)) = f32Abs b := by
    intro k e hk he
    rw [he]
    have pe := pow2_pos e
    have : f32Abs b / pow2 e = ((k : ℤ) : ℚ) := by rw [div_eq_iff pe.ne']; push_cast; exact hk
    rw [this, rhe_int, hk]
    push_cast
    rfl
  by_cases he : b.toNat / 8388608 % 256 = 0
  · have hv : f32Abs b = ((b.toNat % 8388608 : Nat) : ℚ) * pow2 (-149) := by unfold f32Abs; simp only; rw [if_pos he]
    refine int _ _ hv ?_
    have : pow2 (ilog2 (f32Abs b)) < pow2 (23 + -149) := by
      refine h1.trans_lt ?_
      rw [hv, pow2_add]
      refine mul_lt_mul_of_pos_right ?_ p149
      rw [p23]
      exact_mod_cast hm
    have := pow2_lt this
    omega
  · have hv : f32Abs b = ((8388608 + b.toNat % 8388608 : Nat) : ℚ) * pow2 (((b.toNat / 8388608 % 256 : Nat) : Int) - 150) := by
      unfold f32Abs; simp only; rw [if_neg he]
    refine int _ _ hv ?_
    set E := ((b.toNat / 8388608 % 256 : Nat) : Int) - 150 with hE
    have pE := pow2_pos E
    have hi : ilog2 (f32Abs b) = 23 + E := by
      refine ilog2_unique ?_ ?_
      · rw [hv, pow2_add, p23]
        refine mul_le_mul_of_nonneg_right ?_ pE.le
        exact_mod_cast (by omega : 2 ^ 23 ≤ 8388608 + b.toNat % 8388608)
      · rw [hv, show 23 + E + 1 = 24 + E by ring, pow2_add, p24]
        refine mul_lt_mul_of_pos_right ?_ pE
        exact_mod_cast (by omega : 8388608 + b.toNat % 8388608 < 2 ^ 24)
    omega

/-! ### C109 -/

/-- the digits `posText` writes -/
theorem posText_shortest {R : ℚ → ℚ} {x : ℚ} (hR : RoundsTo R x) (N : Nat) (hN : 1 ≤ N)
    (hnear : ∀ y, |y - x| * (2 * 10 ^ (N - 1)) ≤ x → R y = x) (lo hi : ℚ) :
    ∃ v, 0 < v ∧ getUnsigned (posText R N lo hi x) = some (v, []) ∧ ShortestDecimal R x v := by
  obtain ⟨n, hn, -, h0, h1, h2, h3, h4⟩ := shortest_spec hR N hN hnear
  refine ⟨_, ?_, getUnsigned_posText R N lo hi x, ?_⟩
  · exact mul_pos (by exact_mod_cast h0) (pow10_pos _)
  · set d := (shortest R x N 1).1
    set q := (shortest R x N 1).2
    obtain ⟨a, l, k, -, -, g3, -, g5, g6⟩ := trimmed d h0
    have hD : value (a :: l) ≤ d := by
      rw [g5]; exact Nat.le_mul_of_pos_right _ (by positivity)
    have hlt : value (a :: l) < 10 ^ n := by
      rcases (hD.trans h1).lt_or_eq with h | h
      · exact h
      · exfalso
        obtain ⟨n', rfl⟩ : ∃ n', n = n' + 1 := ⟨n - 1, by omega⟩
        rw [h, pow_succ] at g6
        omega
    have hv : (d : ℚ) * pow10 q = (value (a :: l) : ℚ) * 10 ^ ((k : Int) + q) := by
      rw [zpow_add₀ (by norm_num), zpow_natCast, ← pow10_eq q]
      conv_lhs => rw [g5]
      push_cast
      ring
    refine ⟨value (a :: l), k + q, hv, h2, ?_⟩
    intro d' q' hr
    rw [← pow10_eq] at hr
    have hd' : 10 ^ (n - 1) ≤ d' := by
      by_contra hc
      exact h3 d' q' (not_le.mp hc) hr
    constructor
    · intro n' hn'
      have : n - 1 < n' := (Nat.pow_lt_pow_iff_right (by norm_num)).mp (hd'.trans_lt hn')
      exact hlt.trans_le (Nat.pow_le_pow_right (by norm_num) (by omega))
    · intro hc
      have := h4 d' q' (hc n hlt) hr
      rw [pow10_eq q'] at this
      exact this

theorem digit_head (R : ℚ → ℚ) (N : Nat) (lo hi x v : ℚ) (h : getUnsigned (posText R N lo hi x) = some (v, [])) :
    getNumber (posText R N lo hi x) = some (v, []) := by
  unfold getNumber
  split
  · next s hs =>
    rw [hs] at h
    simp [getUnsigned, getInt, getDigits, isDigit] at h
  · exact h

/-- C109: the text of a float64 is a JSON number that is read as this float64 again; it has as few digits as possible, at most 17, and
is the closest of those. -/
theorem float_text (x : F64) (hx : rnd x = x) :
    ∃ v, getNumber (floatText x) = some (v, []) ∧ rnd v = x ∧ ShortestDecimal rnd |x| |v| := by
  have pos : ∀ x : ℚ, 0 < x → rnd x = x → ∃ v, 0 < v ∧
      getUnsigned (posText rnd 17 (rnd (1 / 1000000)) 1000000000000000000000 x) = some (v, []) ∧ ShortestDecimal rnd x v := by
    intro x h0 h1
    refine posText_shortest (rnd_roundsTo h0 h1) 17 (by norm_num) (fun y hy => rnd_near h0 h1 ?_) _ _
    have : 0 ≤ |y - x| := abs_nonneg _
    rcases this.lt_or_eq with h | h
    · have : |y - x| * 2 ^ 54 < |y - x| * (2 * 10 ^ (17 - 1)) := by
        refine mul_lt_mul_of_pos_left ?_ h
        norm_num
      linarith
    · rw [← h]; linarith
  unfold floatText
  rcases lt_trichotomy x 0 with h | h | h
  · rw [if_neg h.ne, if_neg (by linarith)]
    obtain ⟨v, hv, h1, h2⟩ := pos (-x) (by linarith) (by rw [rnd_neg, hx])
    refine ⟨-v, ?_, ?_, ?_⟩
    · show (getUnsigned _).map _ = _
      rw [h1]
      rfl
    · obtain ⟨_, _, _, h3, _⟩ := h2
      rw [rnd_neg, h3, neg_neg]
    · rw [abs_of_neg h, abs_neg, abs_of_pos hv]
      exact h2
  · subst h
    refine ⟨0, by decide +kernel, rfl, ?_⟩
    refine ⟨0, 0, by simp, by rw [abs_zero]; rfl, ?_⟩
    intro d' q' _
    refine ⟨fun n _ => by positivity, fun _ => by simp only [sub_zero, abs_zero]; exact abs_nonneg _⟩
  · rw [if_neg h.ne', if_pos h]
    obtain ⟨v, hv, h1, h2⟩ := pos x h hx
    refine ⟨v, digit_head _ _ _ _ _ _ h1, ?_, ?_⟩
    · obtain ⟨_, _, _, h3, _⟩ := h2
      exact h3
    · rw [abs_of_pos h, abs_of_pos hv]
      exact h2

/-- C109 for float32 numbers, given by their bits: the first one is the sign -/
theorem float32_text (b : UInt32) :
    ∃ v, 0 ≤ v ∧ getNumber (float32Text b) = some (if 2147483648 ≤ b.toNat then -v else v, []) ∧ rnd32 v = f32Abs b ∧
      ShortestDecimal rnd32 (f32Abs b) v := by
  have sgn : ∀ (t : Bytes) (v : ℚ), getUnsigned t = some (v, []) → getNumber t = some (v, []) →
      getNumber ((if 2147483648 ≤ b.toNat then [45] else []) ++ t) = some (if 2147483648 ≤ b.toNat then -v else v, []) := by
    intro t v h1 h2
    by_cases hs : 2147483648 ≤ b.toNat
    · rw [if_pos hs, if_pos hs]
      show (getUnsigned t).map _ = _
      rw [h1]
      rfl
    · rw [if_neg hs, if_neg hs]
      exact h2
  unfold float32Text
  rcases (f32Abs_nonneg b).lt_or_eq with h | h
  · rw [if_neg h.ne']
    have hfix := rnd32_fix b h
    obtain ⟨v, hv, h1, h2⟩ := posText_shortest (rnd32_roundsTo h hfix) 9 (by norm_num) (fun y hy => rnd32_near h hfix (by
      have : 0 ≤ |y - f32Abs b| := abs_nonneg _
      rcases this.lt_or_eq with h' | h'
      · have : |y - f32Abs b| * 2 ^ 25 < |y - f32Abs b| * (2 * 10 ^ (9 - 1)) := by
          refine mul_lt_mul_of_pos_left ?_ h'
          norm_num
        linarith
      · rw [← h']; linarith)) (rnd32 (1 / 1000000)) (rnd32 1000000000000000000000)
    refine ⟨v, hv.le, sgn _ v h1 (digit_head _ _ _ _ _ _ h1), ?_, h2⟩
    obtain ⟨_, _, _, h3, _⟩ := h2
    exact h3
  · rw [if_pos h.symm]
    refine ⟨0, le_rfl, sgn [48] 0 (by decide +kernel) (by decide +kernel), ?_, ?_⟩
    · rw [← h]; simp [rnd32]
    · rw [← h]
      refine ⟨0, 0, by simp, by simp [rnd32], ?_⟩
      intro d' q' _
      exact ⟨fun n _ => by positivity, fun _ => by simp only [sub_zero, abs_zero]; exact abs_nonneg _⟩

end Egts
