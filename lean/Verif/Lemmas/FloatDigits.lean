import Verif.Lemmas.FloatText
set_option autoImplicit false
namespace Egts
open JsonP

/-! ### the digits -/

theorem rhe_toNat {y : ℚ} (hy : 0 ≤ y) : (roundHalfEven y).toNat = y.floor.toNat ∨ (roundHalfEven y).toNat = y.floor.toNat + 1 := by
  have : 0 ≤ y.floor := Int.floor_nonneg.mpr hy
  rcases rhe_cases' y with ⟨-, e⟩ | ⟨-, e⟩ | ⟨-, -, e⟩ | ⟨-, -, e⟩ <;> rw [e] <;> omega

theorem floor_bounds {y : ℚ} (hy : 0 ≤ y) : ((y.floor.toNat : Nat) : ℚ) ≤ y ∧ y < ((y.floor.toNat + 1 : Nat) : ℚ) := by
  have h0 : 0 ≤ y.floor := Int.floor_nonneg.mpr hy
  have e : ((y.floor.toNat : Nat) : ℚ) = ((y.floor : ℤ) : ℚ) := by
    have : ((y.floor.toNat : Nat) : ℤ) = y.floor := by omega
    exact_mod_cast congrArg (fun z : ℤ => (z : ℚ)) this
  have h1 : ((y.floor : ℤ) : ℚ) ≤ y := Int.floor_le y
  have h2 : y < ((y.floor : ℤ) : ℚ) + 1 := Int.lt_floor_add_one y
  push_cast
  rw [e]
  exact ⟨h1, h2⟩

/-- what is known of the rounding to the type of the number: it keeps order and `x` -/
structure RoundsTo (R : ℚ → ℚ) (x : ℚ) : Prop where
  pos : 0 < x
  fix : R x = x
  zero : R 0 = 0
  mono : ∀ y z, 0 ≤ y → y ≤ z → R y ≤ R z

section
variable {R : ℚ → ℚ} {x : ℚ} (hR : RoundsTo R x)
include hR

theorem RoundsTo.between {y z : ℚ} (h0 : 0 ≤ y) (hy : R y = x) (h : (y ≤ z ∧ z ≤ x) ∨ (x ≤ z ∧ z ≤ y)) : R z = x := by
  rcases h with ⟨h1, h2⟩ | ⟨h1, h2⟩
  · have a := hR.mono y z h0 h1
    have b := hR.mono z x (h0.trans h1) h2
    rw [hy] at a
    rw [hR.fix] at b
    exact le_antisymm b a
  · have a := hR.mono x z hR.pos.le h1
    have b := hR.mono z y (hR.pos.le.trans h1) h2
    rw [hR.fix] at a
    rw [hy] at b
    exact le_antisymm b a

/-- a decimal with `n` digits that is rounded to `x`: one of the two next to `x` is, on the same side and not farther from `x` -/
theorem digits_side (n : Nat) (d : Nat) (q : Int) (hd : d < 10 ^ n) (h : R ((d : ℚ) * pow10 q) = x) :
    let Q := ilog10 x + 1 - (n : Int)
    let m := (x / pow10 Q).floor.toNat
    ((d : ℚ) * pow10 q ≤ (m : ℚ) * pow10 Q ∧ R ((m : ℚ) * pow10 Q) = x) ∨
    (((m + 1 : Nat) : ℚ) * pow10 Q ≤ (d : ℚ) * pow10 q ∧ R (((m + 1 : Nat) : ℚ) * pow10 Q) = x) := by
  intro Q m
  have pQ := pow10_pos Q
  have pq := pow10_pos q
  obtain ⟨x1, x2⟩ := ilog10_spec hR.pos
  have hy : 0 ≤ x / pow10 Q := (div_pos hR.pos pQ).le
  obtain ⟨m1, m2⟩ := floor_bounds hy
  change ((m : Nat) : ℚ) ≤ _ at m1
  change _ < ((m + 1 : Nat) : ℚ) at m2
  rw [le_div_iff₀ pQ] at m1
  rw [div_lt_iff₀ pQ] at m2
  have z0 : 0 ≤ (d : ℚ) * pow10 q := by positivity
  have dn : d ≠ 0 := by
    rintro rfl
    rw [Nat.cast_zero, zero_mul, hR.zero] at h
    exact hR.pos.ne h
  have hn : n ≠ 0 := by
    rintro rfl
    simp at hd
    exact dn hd
  -- the first digit of x has the place n - 1
  have first : pow10 (ilog10 x) ≤ (m : ℚ) * pow10 Q := by
    have e : pow10 (ilog10 x) = ((10 ^ (n - 1) : Nat) : ℚ) * pow10 Q := by
      rw [← pow10_nat, ← pow10_add]; congr 1; omega
    rw [e] at x1 ⊢
    have h1 : ((10 ^ (n - 1) : Nat) : ℚ) < ((m + 1 : Nat) : ℚ) := lt_of_mul_lt_mul_right (x1.trans_lt m2) pQ.le
    have h2 : 10 ^ (n - 1) < m + 1 := by exact_mod_cast h1
    have h3 : ((10 ^ (n - 1) : Nat) : ℚ) ≤ (m : ℚ) := by exact_mod_cast Nat.lt_succ_iff.mp h2
    exact mul_le_mul_of_nonneg_right h3 pQ.le
  have key : (d : ℚ) * pow10 q ≤ (m : ℚ) * pow10 Q ∨ ((m + 1 : Nat) : ℚ) * pow10 Q ≤ (d : ℚ) * pow10 q := by
    rcases le_or_gt Q q with hq | hq
    · obtain ⟨j, hj⟩ : ∃ j : Nat, q = Q + j := ⟨(q - Q).toNat, by omega⟩
      have e : (d : ℚ) * pow10 q = ((d * 10 ^ j : Nat) : ℚ) * pow10 Q := by
        rw [hj, pow10_add, pow10_nat]; push_cast; ring
      rw [e]
      rcases Nat.lt_or_ge m (d * 10 ^ j) with h | h
      · right
        exact mul_le_mul_of_nonneg_right (by exact_mod_cast h) pQ.le
      · left
        exact mul_le_mul_of_nonneg_right (by exact_mod_cast h) pQ.le
    · left
      refine le_trans ?_ first
      have h1 : (d : ℚ) ≤ pow10 (n : Int) := by rw [pow10_nat]; exact_mod_cast hd.le
      calc (d : ℚ) * pow10 q ≤ pow10 (n : Int) * pow10 q := mul_le_mul_of_nonneg_right h1 pq.le
        _ = pow10 (n + q) := by rw [pow10_add]
        _ ≤ pow10 (ilog10 x) := pow10_mono (by omega)
  rcases key with k | k
  · exact .inl ⟨k, hR.between z0 h (.inl ⟨k, m1⟩)⟩
  · exact .inr ⟨k, hR.between z0 h (.inr ⟨m2.le, k⟩)⟩

theorem shortestAt_some (n : Nat) (hn : 1 ≤ n) (d : Nat) (q : Int) (h : shortestAt R x n = some (d, q)) :
    0 < d ∧ d ≤ 10 ^ n ∧ R ((d : ℚ) * pow10 q) = x ∧
    ∀ (d' : Nat) (q' : Int), d' < 10 ^ n → R ((d' : ℚ) * pow10 q') = x → |(d : ℚ) * pow10 q - x| ≤ |(d' : ℚ) * pow10 q' - x| := by
  have hs := digits_side hR n
  unfold shortestAt at h
  simp only at h hs
  set Q := ilog10 x + 1 - (n : Int) with hQ
  set y := x / pow10 Q with hy
  set m := y.floor.toNat with hm
  have pQ := pow10_pos Q
  have hyp : 0 < y := div_pos hR.pos pQ
  have hxy : x = y * pow10 Q := by rw [hy]; field_simp
  obtain ⟨m1, m2⟩ := floor_bounds hyp.le
  rw [← hm] at m1 m2
  obtain ⟨x1, x2⟩ := ilog10_spec hR.pos
  have m0 : 1 ≤ m := by
    have e : pow10 (ilog10 x) = ((10 ^ (n - 1) : Nat) : ℚ) * pow10 Q := by
      rw [← pow10_nat, ← pow10_add]; congr 1; omega
    rw [e, hxy] at x1
    have := le_of_mul_le_mul_right x1 pQ
    have : ((10 ^ (n - 1) : Nat) : ℚ) < ((m + 1 : Nat) : ℚ) := this.trans_lt m2
    have h2 : 10 ^ (n - 1) < m + 1 := by exact_mod_cast this
    have : 0 < 10 ^ (n - 1) := by positivity
    omega
  have mn : m < 10 ^ n := by
    have e : pow10 (ilog10 x + 1) = ((10 ^ n : Nat) : ℚ) * pow10 Q := by
      rw [← pow10_nat, ← pow10_add]; congr 1; omega
    rw [e, hxy] at x2
    have := lt_of_mul_lt_mul_right x2 pQ.le
    exact_mod_cast m1.trans_lt this
  have ml : (m : ℚ) * pow10 Q ≤ x := by rw [hxy]; exact mul_le_mul_of_nonneg_right m1 pQ.le
  have mu : x ≤ ((m + 1 : Nat) : ℚ) * pow10 Q := by rw [hxy]; exact mul_le_mul_of_nonneg_right m2.le pQ.le
  -- distances
  have near : ∀ (c : Nat), (∀ (d' : Nat) (q' : Int), d' < 10 ^ n → R ((d' : ℚ) * pow10 q') = x →
      ((d' : ℚ) * pow10 q' ≤ (m : ℚ) * pow10 Q → |(c : ℚ) * pow10 Q - x| ≤ x - (m : ℚ) * pow10 Q) ∧
      (((m + 1 : Nat) : ℚ) * pow10 Q ≤ (d' : ℚ) * pow10 q' → |(c : ℚ) * pow10 Q - x| ≤ ((m + 1 : Nat) : ℚ) * pow10 Q - x)) →
      ∀ (d' : Nat) (q' : Int), d' < 10 ^ n → R ((d' : ℚ) * pow10 q') = x → |(c : ℚ) * pow10 Q - x| ≤ |(d' : ℚ) * pow10 q' - x| := by
    intro c hc d' q' h1 h2
    obtain ⟨c1, c2⟩ := hc d' q' h1 h2
    rcases hs d' q' h1 h2 with ⟨a, -⟩ | ⟨a, -⟩
    · rw [abs_of_nonpos (by linarith : (d' : ℚ) * pow10 q' - x ≤ 0)]
      have := c1 a
      linarith
    · rw [abs_of_nonneg (by linarith : (0 : ℚ) ≤ (d' : ℚ) * pow10 q' - x)]
      have := c2 a
      linarith
  split at h
  · next hb =>
    simp only [Bool.and_eq_true, decide_eq_true_eq] at hb
    simp only [Option.some.injEq, Prod.mk.injEq] at h
    obtain ⟨rfl, rfl⟩ := h
    have hc : (roundHalfEven y).toNat = m ∨ (roundHalfEven y).toNat = m + 1 := rhe_toNat hyp.le
    refine ⟨by omega, by omega, ?_, near _ ?_⟩
    · rcases hc with e | e <;> rw [e]
      · exact hb.1
      · exact hb.2
    · intro d' q' h1 h2
      have hd : |((roundHalfEven y).toNat : ℚ) - y| ≤ 1 / 2 := by
        have := rhe_bounds y
        have h0 : 0 ≤ roundHalfEven y := by
          have : 0 ≤ y.floor := Int.floor_nonneg.mpr hyp.le
          rcases rhe_cases' y with ⟨-, e⟩ | ⟨-, e⟩ | ⟨-, -, e⟩ | ⟨-, -, e⟩ <;> rw [e] <;> omega
        have e : ((roundHalfEven y).toNat : ℚ) = ((roundHalfEven y : ℤ) : ℚ) := by
          have : (((roundHalfEven y).toNat : Nat) : ℤ) = roundHalfEven y := by omega
          exact_mod_cast congrArg (fun z : ℤ => (z : ℚ)) this
        rw [e]; exact this
      have hdist : |((roundHalfEven y).toNat : ℚ) * pow10 Q - x| = |((roundHalfEven y).toNat : ℚ) - y| * pow10 Q := by
        conv_lhs => rw [hxy, ← sub_mul, abs_mul, abs_of_pos pQ]
      rw [hdist]
      have both : |((roundHalfEven y).toNat : ℚ) - y| ≤ y - m ∧ |((roundHalfEven y).toNat : ℚ) - y| ≤ ((m + 1 : Nat) : ℚ) - y := by
        rcases hc with e | e <;> rw [e] at hd ⊢
        · rw [abs_of_nonpos (by linarith)] at hd ⊢
          push_cast at *
          constructor <;> linarith
        · rw [abs_of_nonneg (by linarith)] at hd ⊢
          push_cast at *
          constructor <;> linarith
      constructor
      · intro _
        have := mul_le_mul_of_nonneg_right both.1 pQ.le
        rw [sub_mul, ← hxy] at this
        exact this
      · intro _
        have := mul_le_mul_of_nonneg_right both.2 pQ.le
        rw [sub_mul, ← hxy] at this
        exact this
  · next hb =>
    simp only [Bool.and_eq_true, decide_eq_true_eq, not_and] at hb
    split at h
    · next h1 =>
      simp only [decide_eq_true_eq] at h1
      simp only [Option.some.injEq, Prod.mk.injEq] at h
      obtain ⟨rfl, rfl⟩ := h
      refine ⟨m0, mn.le, h1, near _ ?_⟩
      intro d' q' g1 g2
      constructor
      · intro _; rw [abs_of_nonpos (by linarith)]; linarith
      · intro g3
        rcases hs d' q' g1 g2 with ⟨a, -⟩ | ⟨-, b⟩
        · linarith [mul_lt_mul_of_pos_right (show (m : ℚ) < ((m + 1 : Nat) : ℚ) by push_cast; linarith) pQ]
        · exact absurd b (hb h1)
    · next h1 =>
      simp only [decide_eq_true_eq] at h1
      split at h
      · next h2 =>
        simp only [decide_eq_true_eq] at h2
        simp only [Option.some.injEq, Prod.mk.injEq] at h
        obtain ⟨rfl, rfl⟩ := h
        refine ⟨by omega, mn, h2, near _ ?_⟩
        intro d' q' g1 g2
        constructor
        · intro g3
          rcases hs d' q' g1 g2 with ⟨-, b⟩ | ⟨a, -⟩
          · exact absurd b h1
          · linarith [mul_lt_mul_of_pos_right (show (m : ℚ) < ((m + 1 : Nat) : ℚ) by push_cast; linarith) pQ]
        · intro _; rw [abs_of_nonneg (by linarith)]
      · cases h

theorem shortestAt_none (n : Nat) (h : shortestAt R x n = none) (d : Nat) (q : Int) (hd : d < 10 ^ n) : R ((d : ℚ) * pow10 q) ≠ x := by
  intro hr
  have hs := digits_side hR n d q hd hr
  unfold shortestAt at h
  simp only at h hs
  split at h
  · cases h
  · split at h
    · cases h
    · next h1 =>
      split at h
      · cases h
      · next h2 =>
        simp only [decide_eq_true_eq] at h1 h2
        rcases hs with ⟨-, a⟩ | ⟨-, a⟩
        · exact h1 a
        · exact h2 a

/-- enough digits -/
theorem shortestAt_enough (n : Nat) (hn : 1 ≤ n) (hnear : ∀ y, |y - x| * (2 * 10 ^ (n - 1)) ≤ x → R y = x) : shortestAt R x n ≠ none := by
  intro h
  unfold shortestAt at h
  simp only at h
  set Q := ilog10 x + 1 - (n : Int) with hQ
  set y := x / pow10 Q with hy
  set m := y.floor.toNat with hm
  have pQ := pow10_pos Q
  have hyp : 0 < y := div_pos hR.pos pQ
  have hxy : x = y * pow10 Q := by rw [hy]; field_simp
  obtain ⟨m1, m2⟩ := floor_bounds hyp.le
  rw [← hm] at m1 m2
  obtain ⟨x1, x2⟩ := ilog10_spec hR.pos
  have e : pow10 (ilog10 x) = ((10 ^ (n - 1) : Nat) : ℚ) * pow10 Q := by
    rw [← pow10_nat, ← pow10_add]; congr 1; omega
  rw [e] at x1
  push_cast at x1 m2
  have p10 : (0 : ℚ) < 10 ^ (n - 1) := by positivity
  have half : ∀ a : ℚ, a ≤ 1 / 2 → a * pow10 Q * (2 * 10 ^ (n - 1)) ≤ x := by
    intro a ha
    have h1 : 2 * a * (10 ^ (n - 1) * pow10 Q) ≤ 1 * (10 ^ (n - 1) * pow10 Q) :=
      mul_le_mul_of_nonneg_right (by linarith) (mul_pos p10 pQ).le
    calc a * pow10 Q * (2 * 10 ^ (n - 1)) = 2 * a * (10 ^ (n - 1) * pow10 Q) := by ring
      _ ≤ x := by linarith
  have hall : R ((m : ℚ) * pow10 Q) = x ∨ R (((m + 1 : Nat) : ℚ) * pow10 Q) = x := by
    rcases le_or_gt (y - m) (1 / 2) with hh | hh
    · left
      apply hnear
      have : |(m : ℚ) * pow10 Q - x| = (y - m) * pow10 Q := by
        conv_lhs => rw [hxy, ← sub_mul, abs_mul, abs_of_pos pQ, abs_sub_comm, abs_of_nonneg (by linarith)]
      rw [this]
      exact half _ hh
    · right
      apply hnear
      have : |((m + 1 : Nat) : ℚ) * pow10 Q - x| = (m + 1 - y) * pow10 Q := by
        conv_lhs => rw [hxy, ← sub_mul, abs_mul, abs_of_pos pQ, abs_of_nonneg (by push_cast; linarith)]
        push_cast; rfl
      rw [this]
      exact half _ (by linarith)
  split at h
  · cases h
  · split at h
    · cases h
    · next h1 =>
      split at h
      · cases h
      · next h2 =>
        simp only [decide_eq_true_eq] at h1 h2
        rcases hall with a | a
        · exact h1 a
        · exact h2 a

/-- the digits that are written: rounded to `x`; no decimal with fewer digits is, and none with as many that is closer -/
theorem shortest_spec (N : Nat) (hN : 1 ≤ N) (hnear : ∀ y, |y - x| * (2 * 10 ^ (N - 1)) ≤ x → R y = x) :
    ∃ n, 1 ≤ n ∧ n ≤ N ∧ 0 < (shortest R x N 1).1 ∧ (shortest R x N 1).1 ≤ 10 ^ n ∧
      R (((shortest R x N 1).1 : ℚ) * pow10 (shortest R x N 1).2) = x ∧
      (∀ (d' : Nat) (q' : Int), d' < 10 ^ (n - 1) → R ((d' : ℚ) * pow10 q') ≠ x) ∧
      ∀ (d' : Nat) (q' : Int), d' < 10 ^ n → R ((d' : ℚ) * pow10 q') = x →
        |((shortest R x N 1).1 : ℚ) * pow10 (shortest R x N 1).2 - x| ≤ |(d' : ℚ) * pow10 q' - x| := by
  have go : ∀ fuel k, 1 ≤ k → k + fuel = N + 1 → 1 ≤ fuel → (∀ (d' : Nat) (q' : Int), d' < 10 ^ (k - 1) → R ((d' : ℚ) * pow10 q') ≠ x) →
      ∃ n, 1 ≤ n ∧ n ≤ N ∧ 0 < (shortest R x fuel k).1 ∧ (shortest R x fuel k).1 ≤ 10 ^ n ∧
      R (((shortest R x fuel k).1 : ℚ) * pow10 (shortest R x fuel k).2) = x ∧
      (∀ (d' : Nat) (q' : Int), d' < 10 ^ (n - 1) → R ((d' : ℚ) * pow10 q') ≠ x) ∧
      ∀ (d' : Nat) (q' : Int), d' < 10 ^ n → R ((d' : ℚ) * pow10 q') = x →
        |((shortest R x fuel k).1 : ℚ) * pow10 (shortest R x fuel k).2 - x| ≤ |(d' : ℚ) * pow10 q' - x| := by
    intro fuel
    induction fuel with
    | zero => intro k _ _ h; omega
    | succ fuel ih =>
      intro k hk hf _ hfew
      rw [shortest]
      match hm : shortestAt R x k with
      | some (d, q) =>
        obtain ⟨a1, a2, a3, a4⟩ := shortestAt_some hR k hk d q hm
        exact ⟨k, hk, by omega, a1, a2, a3, hfew, a4⟩
      | none =>
        have hlt : k ≠ N := by
          rintro rfl
          exact shortestAt_enough hR k hk hnear hm
        refine ih (k + 1) (by omega) (by omega) (by omega) ?_
        intro d' q' hd
        exact shortestAt_none hR k hm d' q' hd
  refine go N 1 le_rfl (by omega) hN ?_
  intro d' q' hd
  have : d' = 0 := by simpa using hd
  rw [this, Nat.cast_zero, zero_mul, hR.zero]
  exact hR.pos.ne
end

end Egts
