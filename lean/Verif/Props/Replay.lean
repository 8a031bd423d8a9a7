import Verif.Props.GenCommand
import Verif.Props.FloatDoc
set_option autoImplicit false
/- C130: a stored coordinate, typed as it is written -/
namespace Egts
open Egts.JsonP

theorem digitOf_text (d : Nat) (h : d < 10) : DigitOf 10 (UInt8.ofNat (48 + d)) d := by
  refine ⟨h, .inl ⟨h, ?_⟩⟩
  rw [UInt8.toNat_ofNat_of_lt' (by simp only [UInt8.size]; omega)]

theorem grouped_digits (A : List Nat) (hA : ∀ d ∈ A, d < 10) (h0 : A ≠ []) : Grouped 10 (digitText A) (value A) A.length := by
  induction A using List.reverseRecOn with
  | nil => exact absurd rfl h0
  | append_singleton A d ih =>
    have hd := digitOf_text d (hA d (by simp))
    rw [digitText_append, show digitText [d] = [UInt8.ofNat (48 + d)] from rfl, List.length_append, value_append]
    by_cases hn : A = []
    · subst hn
      have e : value [d] = d := by simp [value]
      rw [e]
      simpa [digitText, value] using Grouped.one hd
    · have := (ih (fun x hx => hA x (by simp [hx])) hn).next hd
      have e : value [d] = d := by simp [value]
      rw [e, List.length_singleton, pow_one, Nat.mul_comm]
      exact this

/-- digits, and perhaps a point and digits -/
theorem mantissa_parts (A B : List Nat) (hA : ∀ d ∈ A, d < 10) (hB : ∀ d ∈ B, d < 10) (h0 : A ≠ []) :
    Mantissa 10 (digitText A ++ (if B = [] then [] else 46 :: digitText B)) (value A * 10 ^ B.length + value B) B.length := by
  by_cases hb : B = []
  · subst hb
    have := Mantissa.int (grouped_digits A hA h0)
    simpa [value] using this
  · rw [if_neg hb]
    have := Mantissa.both (grouped_digits A hA h0) (grouped_digits B hB hb)
    simpa using this

theorem parts_value (A B : List Nat) :
    ((value A * 10 ^ B.length + value B : Nat) : ℚ) / 10 ^ B.length = (value A : ℚ) + (value B : ℚ) / 10 ^ B.length := by
  have : (10 : ℚ) ^ B.length ≠ 0 := by positivity
  push_cast
  field_simp

theorem real_parts (A B : List Nat) (hA : ∀ d ∈ A, d < 10) (hB : ∀ d ∈ B, d < 10) (h0 : A ≠ []) :
    RealText (digitText A ++ (if B = [] then [] else 46 :: digitText B)) ((value A : ℚ) + (value B : ℚ) / 10 ^ B.length) 0 := by
  rw [← parts_value]
  exact RealText.dec (mantissa_parts A B hA hB h0)

theorem real_parts_exp (A B : List Nat) (hA : ∀ d ∈ A, d < 10) (hB : ∀ d ∈ B, d < 10) (h0 : A ≠ []) (c : UInt8) (hc : c = 101 ∨ c = 69)
    (t : Bytes) (e : Int) (ht : ExpText t e) :
    RealText (digitText A ++ (if B = [] then [] else 46 :: digitText B) ++ c :: t) (((value A : ℚ) + (value B : ℚ) / 10 ^ B.length) * 10 ^ e) e := by
  rw [← parts_value]
  have := RealText.decExp (mantissa_parts A B hA hB h0) hc ht
  simpa using this

/-! ### a JSON number is a literal of Go -/

theorem getDigits_shape (s : Bytes) : s = digitText (getDigits s).1 ++ (getDigits s).2 ∧ ∀ d ∈ (getDigits s).1, d < 10 := by
  induction s with
  | nil => exact ⟨rfl, by simp [getDigits]⟩
  | cons c s ih =>
    rw [getDigits]
    split
    · next h =>
      have h' : 48 ≤ c.toNat ∧ c.toNat ≤ 57 := by simpa [isDigit] using h
      refine ⟨?_, ?_⟩
      · rw [digitText, List.map_cons, List.cons_append]
        congr 1
        · rw [show 48 + (c.toNat - 48) = c.toNat by omega]; exact (UInt8.ofNat_toNat).symm
        · exact ih.1
      · intro d hd
        rcases List.mem_cons.mp hd with rfl | hd
        · omega
        · exact ih.2 d hd
    · exact ⟨rfl, by simp⟩

theorem getInt_shape {s r : Bytes} {n : Nat} (h : getInt s = some (n, r)) :
    ∃ A : List Nat, A ≠ [] ∧ (∀ d ∈ A, d < 10) ∧ s = digitText A ++ r ∧ n = value A := by
  obtain ⟨h1, h2⟩ := getDigits_shape s
  unfold getInt at h
  generalize hp : getDigits s = p at h h1 h2
  obtain ⟨l, q⟩ := p
  split at h
  · cases h
  · cases h
  · next l' r' hn _ he =>
    cases he
    cases h
    exact ⟨l, fun e => hn e, h2, h1, rfl⟩

theorem getFrac_shape {s r : Bytes} {q : ℚ} (h : getFrac s = some (q, r)) :
    ∃ B : List Nat, (∀ d ∈ B, d < 10) ∧ s = (if B = [] then [] else 46 :: digitText B) ++ r ∧ q = (value B : ℚ) / 10 ^ B.length := by
  unfold getFrac at h
  split at h
  · next t =>
    obtain ⟨h1, h2⟩ := getDigits_shape t
    generalize hp : getDigits t = p at h h1 h2
    obtain ⟨l, q'⟩ := p
    split at h
    · cases h
    · next l' r' hn he =>
      cases he
      cases h
      have hne : l ≠ [] := fun e => hn e
      refine ⟨l, h2, ?_, rfl⟩
      rw [if_neg hne, List.cons_append, ← h1]
  · cases h
    exact ⟨[], by simp, rfl, by simp [value]⟩

theorem getPower_shape {s r : Bytes} {p : ℚ} (h : getPower s = some (p, r)) :
    ∃ t e, s = t ++ r ∧ ExpText t e ∧ p = 10 ^ e := by
  unfold getPower at h
  obtain ⟨h1, h2⟩ := getDigits_shape (expSign s).2
  generalize hp : getDigits (expSign s).2 = pr at h h1 h2
  obtain ⟨l, q'⟩ := pr
  split at h
  · cases h
  · next l' r' hn he =>
    cases he
    have hne : l ≠ [] := fun e => hn e
    have g := grouped_digits l h2 hne
    unfold expSign at h h1
    split at h
    · next t =>
      cases h
      exact ⟨43 :: digitText l, value l, by rw [List.cons_append]; exact congrArg _ h1, .plus g, by simp⟩
    · next t =>
      cases h
      exact ⟨45 :: digitText l, -(value l : Int), by rw [List.cons_append]; exact congrArg _ h1, .minus g, by simp⟩
    · next a b =>
      cases h
      refine ⟨digitText l, value l, ?_, .plain g, by simp⟩
      split at h1
      · next t => exact absurd rfl (a t)
      · next t => exact absurd rfl (b t)
      · exact h1

/-- the unsigned numbers of JSON are literals of Go with the same value -/
theorem json_unsigned {s : Bytes} {v : ℚ} (h : getUnsigned s = some (v, [])) : ∃ e, RealText s v e ∧ (101 ∉ s → 69 ∉ s → e = 0) := by
  unfold getUnsigned at h
  split at h
  · cases h
  · next n r hi =>
    split at h
    · cases h
    · next q r' hf =>
      split at h
      · cases h
      · next p r'' he =>
        cases h
        obtain ⟨A, a1, a2, rfl, rfl⟩ := getInt_shape hi
        obtain ⟨B, b1, rfl, rfl⟩ := getFrac_shape hf
        rw [← List.append_assoc]
        unfold getExp at he
        split at he
        · next t =>
          obtain ⟨t', e, rfl, c2, rfl⟩ := getPower_shape he
          rw [List.append_nil]
          exact ⟨e, real_parts_exp A B a2 b1 a1 101 (.inl rfl) _ e c2, fun h => absurd (by simp) h⟩
        · next t =>
          obtain ⟨t', e, rfl, c2, rfl⟩ := getPower_shape he
          rw [List.append_nil]
          exact ⟨e, real_parts_exp A B a2 b1 a1 69 (.inr rfl) _ e c2, fun _ h => absurd (by simp) h⟩
        · cases he
          rw [List.append_nil, mul_one]
          exact ⟨0, real_parts A B a2 b1 a1, fun _ _ => rfl⟩

/-- C130: every number of a JSON text (RFC 8259) is also a floating-point literal of Go, with the same value -/
theorem json_number_literal (s : Bytes) (v : ℚ) (h : getNumber s = some (v, [])) : ∃ e, FloatText s v e := by
  unfold getNumber at h
  split at h
  · next t =>
    match hu : getUnsigned t, h with
    | some (w, r), h =>
      have h' : (-w, r) = (v, []) := by simpa using h
      cases h'
      obtain ⟨e, he, -⟩ := json_unsigned hu
      exact ⟨e, .minus he⟩
    | none, h => simp at h
  · obtain ⟨e, he, -⟩ := json_unsigned h
    exact ⟨e, .plain he⟩

/-! ### the texts written for float64 -/

theorem exp_text (k : Int) : ∃ t, (if k < 0 then [101, 45] ++ decText k.natAbs
   else [101, 43] ++ (if k < 10 then [48] else []) ++ decText k.natAbs) = 101 :: t ∧ ExpText t k := by
  have hne : ∀ n, decDigits n ≠ [] := by
    intro n h
    rw [decDigits] at h; split at h <;> simp at h
  have g := fun n => grouped_digits (decDigits n) (decDigits_lt n) (hne n)
  split
  · next h =>
    refine ⟨45 :: decText k.natAbs, rfl, ?_⟩
    have := ExpText.minus (g k.natAbs)
    rw [decDigits_value, ← decText_digitText] at this
    rwa [show (-((k.natAbs : Nat) : Int)) = k by omega] at this
  · next h =>
    refine ⟨43 :: ((if k < 10 then [48] else []) ++ decText k.natAbs), by simp, ?_⟩
    have hk : ((k.natAbs : Nat) : Int) = k := by omega
    split
    · have := ExpText.plus (grouped_digits (0 :: decDigits k.natAbs) (by
        intro d hd
        rcases List.mem_cons.mp hd with rfl | hd
        · omega
        · exact decDigits_lt _ d hd) (by simp))
      rw [show value (0 :: decDigits k.natAbs) = value (decDigits k.natAbs) from rfl, decDigits_value, hk] at this
      rw [decText_digitText]
      exact this
    · have := ExpText.plus (g k.natAbs)
      rw [decDigits_value, ← decText_digitText, hk] at this
      exact this

/-- `%e`: one digit before the point -/
theorem real_fmtE (a : Nat) (l : List Nat) (dp : Int) (ha : a ≠ 0) (hl : ∀ c ∈ a :: l, c < 10) (v : ℚ)
    (hv : getUnsigned (fmtE (a :: l) dp) = some (v, [])) :
    RealText (fmtE (a :: l) dp) v (dp - 1) ∧ (10 : ℚ) ^ (dp - 1) ≤ v ∧ v < 10 * 10 ^ (dp - 1) := by
  obtain ⟨t, ht, hx⟩ := exp_text (dp - 1)
  have hA : ∀ c ∈ [a], c < 10 := fun c hc => hl c (by rw [List.mem_singleton.mp hc]; simp)
  have hB : ∀ c ∈ l, c < 10 := fun c hc => hl c (List.mem_cons_of_mem _ hc)
  have h := real_parts_exp [a] l hA hB (by simp) 101 (.inl rfl) t (dp - 1) hx
  have e1 : value [a] = a := by simp [value]
  have ev : v = ((value [a] : ℚ) + (value l : ℚ) / 10 ^ l.length) * 10 ^ (dp - 1) := by
    rw [getUnsigned_fmtE a l dp hl] at hv
    have hv' : (value (a :: l) : ℚ) * pow10 (dp - (a :: l).length) = v := by simpa using hv
    have hva : value (a :: l) = a * 10 ^ l.length + value l := by
      have := value_append [a] l
      rwa [e1] at this
    rw [← hv', hva, pow10_eq, List.length_cons, show dp - ((l.length + 1 : Nat) : Int) = (dp - 1) - (l.length : Nat) by push_cast; ring,
        zpow_sub₀ (by norm_num), zpow_natCast, e1]
    have : (10 : ℚ) ^ l.length ≠ 0 := by positivity
    push_cast
    field_simp
  have p : (0 : ℚ) < 10 ^ (dp - 1) := zpow_pos (by norm_num) _
  have m1 : (1 : ℚ) ≤ (value [a] : ℚ) + (value l : ℚ) / 10 ^ l.length := by
    have : (1 : ℚ) ≤ a := by exact_mod_cast Nat.one_le_iff_ne_zero.mpr ha
    rw [e1]
    have : (0 : ℚ) ≤ (value l : ℚ) / 10 ^ l.length := by positivity
    linarith
  have m2 : (value [a] : ℚ) + (value l : ℚ) / 10 ^ l.length < 10 := by
    rw [e1]
    have h9 : a < 10 := hl a (by simp)
    have : (a : ℚ) ≤ 9 := by exact_mod_cast (by omega : a ≤ 9)
    have lt : (value l : ℚ) / 10 ^ l.length < 1 := by
      rw [div_lt_one (by positivity)]
      exact_mod_cast value_lt l hB
    linarith
  refine ⟨?_, ?_, ?_⟩
  · rw [ev]
    unfold fmtE
    rw [ht, List.take_succ_cons, List.take_zero, List.drop_succ_cons, List.drop_zero, ite_digits l (1 < (a :: l).length) (by cases l <;> simp)]
    exact h
  · rw [ev]; nlinarith
  · rw [ev]; nlinarith

theorem digitText_no (l : List Nat) (hl : ∀ c ∈ l, c < 10) : ∀ b ∈ digitText l, b.toNat < 58 := by
  intro b hb
  obtain ⟨d, hd, rfl⟩ := List.mem_map.mp hb
  have := hl d hd
  rw [UInt8.toNat_ofNat_of_lt' (by simp only [UInt8.size]; omega)]
  omega

theorem fmtF_no (l : List Nat) (dp : Int) (hl : ∀ c ∈ l, c < 10) : ∀ b ∈ fmtF l dp, b.toNat < 58 := by
  have r : ∀ n, ∀ b ∈ List.replicate n (48 : UInt8), b.toNat < 58 := fun n b hb => by rw [List.eq_of_mem_replicate hb]; decide
  have t := digitText_no (l.take dp.toNat) fun c hc => hl c (List.mem_of_mem_take hc)
  have d := digitText_no (l.drop dp.toNat) fun c hc => hl c (List.mem_of_mem_drop hc)
  intro b hb
  unfold fmtF at hb
  rcases List.mem_append.mp hb with hb | hb
  · split at hb
    · rcases List.mem_append.mp hb with hb | hb
      · exact t b hb
      · exact r _ b hb
    · rw [List.mem_singleton.mp hb]; decide
  · split at hb
    · rcases List.mem_cons.mp hb with rfl | hb
      · decide
      · rcases List.mem_append.mp hb with hb | hb
        · exact r _ b hb
        · exact d b hb
    · simp at hb

/-- the text of a positive number: a literal of Go whose exponent is that of the number, or 0 -/
theorem real_posText (R : ℚ → ℚ) (fuel : Nat) (lo hi x v : ℚ) (h : getUnsigned (posText R fuel lo hi x) = some (v, [])) :
    ∃ e : Int, RealText (posText R fuel lo hi x) v e ∧ (e = 0 ∨ (10 : ℚ) ^ e ≤ v ∧ v < 10 * 10 ^ e) := by
  have plain : ∀ s : Bytes, (∀ b ∈ s, b.toNat < 58) → getUnsigned s = some (v, []) → ∃ e : Int, RealText s v e ∧ (e = 0 ∨ (10 : ℚ) ^ e ≤ v ∧ v < 10 * 10 ^ e) := by
    intro s hs hg
    obtain ⟨e, h1, h2⟩ := json_unsigned hg
    refine ⟨e, h1, .inl (h2 ?_ ?_)⟩
    · intro hm; exact absurd (hs _ hm) (by decide)
    · intro hm; exact absurd (hs _ hm) (by decide)
  unfold posText at h ⊢
  simp only at h ⊢
  set d := (shortest R x fuel 1).1
  set q := (shortest R x fuel 1).2
  split at h
  · next h0 =>
    rw [if_pos h0]
    exact plain _ (by simp) h
  · next h0 =>
    rw [if_neg h0]
    obtain ⟨a, l, k, h1, h2, h3, -, -, -⟩ := trimmed d (by omega)
    rw [h1] at h ⊢
    split at h
    · next c =>
      rw [if_pos c]
      obtain ⟨g1, g2, g3⟩ := real_fmtE a l _ h2 h3 v h
      exact ⟨_, g1, .inr ⟨g2, g3⟩⟩
    · next c =>
      rw [if_neg c]
      exact plain _ (fmtF_no _ _ h3) h

/-- the number written for a float64 of an ordinary size, and what it is rounded to when it is read -/
theorem text_read (x : ℚ) (h0 : 0 < x) (hr : rnd x = x) (h1 : (10 : ℚ) ^ (-300 : Int) ≤ x) (h2 : x ≤ 10 ^ (300 : Int)) :
    ∃ (v : ℚ) (e : Int), RealText (floatText x) v e ∧ e.natAbs < 1000 ∧ 0 ≤ v ∧ v < float64Limit ∧ rnd64 v = x := by
  obtain ⟨v, g1, g2, -⟩ := float_text x hr
  have eft : floatText x = posText rnd 17 (rnd (1 / 1000000)) 1000000000000000000000 x := by
    unfold floatText
    rw [if_neg h0.ne', if_pos h0]
  rw [eft] at g1 ⊢
  have gu := getUnsigned_posText rnd 17 (rnd (1 / 1000000)) 1000000000000000000000 x
  have gn := digit_head _ _ _ _ _ _ gu
  rw [g1] at gn
  have ev : v = ((shortest rnd x 17 1).1 : ℚ) * pow10 (shortest rnd x 17 1).2 := by
    simpa using gn
  rw [← ev] at gu
  have v0 : 0 ≤ v := by
    rw [ev]
    exact mul_nonneg (by positivity) (pow10_pos _).le
  have vp : 0 < v := by
    rcases v0.lt_or_eq with h | h
    · exact h
    · rw [← h, rnd_zero] at g2
      rw [← g2] at h0
      exact absurd h0 (lt_irrefl _)
  have he := abs_le.mp (rnd_error v0)
  rw [g2] at he
  have hsmall : v / 2 ^ 53 ≤ v / 2 := div_le_div_of_nonneg_left v0 (by norm_num) (by norm_num)
  have b1 : v ≤ 2 * x := by linarith [he.1]
  have b2 : x / 2 ≤ v := by linarith [he.2]
  have c1 : v < 10 ^ (301 : Int) := by
    refine (b1.trans (mul_le_mul_of_nonneg_left h2 (by norm_num))).trans_lt ?_
    rw [show (301 : Int) = 300 + 1 by norm_num, zpow_add_one₀ (by norm_num)]
    have : (0 : ℚ) < 10 ^ (300 : Int) := zpow_pos (by norm_num) _
    generalize (10 : ℚ) ^ (300 : Int) = z at this ⊢
    linarith
  have c2 : (10 : ℚ) ^ (-301 : Int) < v := by
    refine lt_of_lt_of_le ?_ ((div_le_div_of_nonneg_right h1 (by norm_num : (0 : ℚ) ≤ 2)).trans b2)
    rw [show (-300 : Int) = -301 + 1 by norm_num, zpow_add_one₀ (by norm_num)]
    have : (0 : ℚ) < 10 ^ (-301 : Int) := zpow_pos (by norm_num) _
    generalize (10 : ℚ) ^ (-301 : Int) = z at this ⊢
    linarith
  have lim : v < float64Limit := by
    refine c1.trans ?_
    rw [limit_eq]
    decide +kernel
  have hl : -1074 ≤ ilog2 v - 52 := by
    obtain ⟨-, l2⟩ := ilog2_spec vp
    have : pow2 (-1022) < pow2 (ilog2 v + 1) := by
      refine lt_trans ?_ (c2.trans l2)
      decide +kernel
    have := pow2_lt this
    omega
  have er : rnd64 v = x := by
    rw [rnd64_eq_rndG vp, ← rnd_eq_rndG vp _ hl, g2]
  obtain ⟨e, r1, r2⟩ := real_posText _ _ _ _ _ _ gu
  refine ⟨v, e, r1, ?_, v0, lim, er⟩
  rcases r2 with rfl | ⟨r2, r3⟩
  · decide
  · have k1 : e < 301 := (zpow_lt_zpow_iff_right₀ (by norm_num : (1 : ℚ) < 10)).mp (r2.trans_lt c1)
    have k2 : -301 < e + 1 := by
      refine (zpow_lt_zpow_iff_right₀ (by norm_num : (1 : ℚ) < 10)).mp (c2.trans ?_)
      rw [zpow_add_one₀ (by norm_num), mul_comm]
      exact r3
    omega

/-- the sizes at which nothing is lost: 0, or between 10^-300 and 10^300 -/
def OrdinarySize (x : ℚ) : Prop := x = 0 ∨ (10 : ℚ) ^ (-300 : Int) ≤ |x| ∧ |x| ≤ 10 ^ (300 : Int)

theorem text_float (x : F64) (hr : rnd x = x) (hs : OrdinarySize x) :
    ∃ (v : ℚ) (e : Int), FloatText (floatText x) v e ∧ e.natAbs < 100000 ∧ |v| < float64Limit ∧ RoundsTo64 v x := by
  have lim0 : (0 : ℚ) < float64Limit := by rw [limit_eq]; decide +kernel
  rcases hs with rfl | ⟨h1, h2⟩
  · refine ⟨0, 0, .plain ?_, by decide, by rw [abs_zero]; exact lim0, rnd64_zero ▸ rnd64_rounds (le_refl 0) lim0⟩
    have := real_parts [0] [] (by simp) (by simp) (by simp)
    simpa [value, digitText, floatText] using this
  · have pp : (0 : ℚ) < 10 ^ (-300 : Int) := zpow_pos (by norm_num) _
    rcases lt_trichotomy x 0 with h | h | h
    · rw [abs_of_neg h] at h1 h2
      obtain ⟨v, e, g1, g2, g3, g4, g5⟩ := text_read (-x) (by linarith) (by rw [rnd_neg, hr]) h1 h2
      refine ⟨-v, e, ?_, by omega, by rw [abs_neg, abs_of_nonneg g3]; exact g4, ?_⟩
      · have : floatText x = 45 :: floatText (-x) := by
          unfold floatText
          rw [if_neg h.ne, if_neg (by linarith), if_neg (by linarith), if_pos (by linarith)]
        rw [this]
        exact .minus g1
      · have := roundsTo64_neg (rnd64_rounds g3 g4)
        rwa [g5, neg_neg] at this
    · subst h
      rw [abs_zero] at h1
      linarith
    · rw [abs_of_pos h] at h1 h2
      obtain ⟨v, e, g1, g2, g3, g4, g5⟩ := text_read x h hr h1 h2
      exact ⟨v, e, .plain g1, by omega, by rw [abs_of_nonneg g3]; exact g4, g5 ▸ rnd64_rounds g3 g4⟩

/-- **C130.** The text written for a float64 is read as this float64 when it is typed on a command line. -/
theorem typed_back (x : F64) (hr : rnd x = x) (hs : OrdinarySize x) : goParseFloat (floatText x) = some (.fin x) := by
  obtain ⟨v, e, h1, h2, h3, h4⟩ := text_float x hr hs
  obtain ⟨y, h5, h6⟩ := parseFloat_reads _ v e h1 h2 h3
  rw [h5, roundsTo64_unique h6 h4]

/-! ### a stored position -/

variable [P : Platform]

omit P in
theorem coord_size (n K : Nat) (hK : 1 ≤ K) (hK' : K ≤ 180) (hn : n ≤ 4294967295) : OrdinarySize (rnd ((n : ℚ) * K / 4294967295)) := by
  have h0 : (0 : ℚ) ≤ (n : ℚ) * K / 4294967295 := by positivity
  rcases Nat.eq_zero_or_pos n with rfl | hp
  · left
    norm_num
    exact rnd_zero
  · right
    have n1 : (1 : ℚ) ≤ n := by exact_mod_cast hp
    have n2 : (n : ℚ) ≤ 4294967295 := by exact_mod_cast hn
    have k1 : (1 : ℚ) ≤ K := by exact_mod_cast hK
    have k2 : (K : ℚ) ≤ 180 := by exact_mod_cast hK'
    have l : (1 : ℚ) / 4294967295 ≤ (n : ℚ) * K / 4294967295 := by
      apply div_le_div_of_nonneg_right _ (by norm_num)
      nlinarith
    have u : (n : ℚ) * K / 4294967295 ≤ 180 := by
      rw [div_le_iff₀ (by norm_num)]
      nlinarith
    have he := abs_le.mp (rnd_error h0)
    have hs : (n : ℚ) * K / 4294967295 / 2 ^ 53 ≤ (n : ℚ) * K / 4294967295 / 2 := div_le_div_of_nonneg_left h0 (by norm_num) (by norm_num)
    have lo : (1 : ℚ) / 10 ^ 10 ≤ rnd ((n : ℚ) * K / 4294967295) := by
      have : (1 : ℚ) / 10 ^ 10 ≤ 1 / 4294967295 / 2 := by norm_num
      linarith [he.1]
    have hi : rnd ((n : ℚ) * K / 4294967295) ≤ 1000 := by linarith [he.2]
    rw [abs_of_nonneg (le_trans (by norm_num) lo)]
    refine ⟨le_trans ?_ lo, hi.trans ?_⟩
    · decide +kernel
    · decide +kernel

/-- the coordinates of every stored position are float64 numbers of an ordinary size, and in range -/
theorem stored_coords (env : Env) (hasStore : Bool) (tail : Tail) (chunks : List Bytes) (r : NavRecord)
    (hr : r ∈ savesOf (handleConn env hasStore tail chunks).1) : ∀ s ∈ r.LocStates,
    (rnd s.Latitude = s.Latitude ∧ OrdinarySize s.Latitude ∧ 0 ≤ s.Latitude ∧ s.Latitude ≤ 90) ∧
    rnd s.Longitude = s.Longitude ∧ OrdinarySize s.Longitude ∧ 0 ≤ s.Longitude ∧ s.Longitude ≤ 180 := by
  intro s hs
  obtain ⟨f1, f2⟩ := (saved_floats env hasStore tail chunks r hr).1 s hs
  obtain ⟨-, c, -, k, p, l, -, hd, hb, -, hne, h1, -, -, h4, -⟩ := saved_from_packet env hasStore tail chunks r hr
  rw [h1] at hs
  obtain ⟨d, hdm, rfl⟩ := List.mem_map.mp hs
  obtain ⟨b, hdb⟩ := position_origin hd hb d hdm
  have e1 : ∀ v : UInt32, OrdinarySize (latOfRaw v) := by
    intro v
    rw [latOfRaw_eq]
    exact coord_size v.toNat 90 (by norm_num) (by norm_num) (by have := v.toNat_lt; omega)
  have e2 : ∀ v : UInt32, OrdinarySize (lonOfRaw v) := by
    intro v
    rw [lonOfRaw_eq]
    exact coord_size v.toNat 180 (by norm_num) (by norm_num) (by have := v.toNat_lt; omega)
  have hc := coord_decoded b d hdb
  obtain ⟨-, rfl⟩ := (pos_decode_iff b d).mp hdb
  refine ⟨⟨f1, e1 _, ?_⟩, f2, e2 _, ?_⟩
  · exact ⟨hc.2.1, hc.2.2.1⟩
  · exact hc.2.2.2.2

/-- **C130.** The coordinates of every stored position, as the storages write them, are read as the same float64 on a command line. -/
theorem stored_typed_back (env : Env) (hasStore : Bool) (tail : Tail) (chunks : List Bytes) (r : NavRecord)
    (hr : r ∈ savesOf (handleConn env hasStore tail chunks).1) : ∀ s ∈ r.LocStates,
    goParseFloat (floatText s.Latitude) = some (.fin s.Latitude) ∧ goParseFloat (floatText s.Longitude) = some (.fin s.Longitude) := by
  intro s hs
  obtain ⟨⟨a1, a2, -⟩, b1, b2, -⟩ := stored_coords env hasStore tail chunks r hr s hs
  exact ⟨typed_back _ a1 a2, typed_back _ b1 b2⟩

omit P in
theorem stored_sure {n : Bytes} {x : F64} (hr : rnd x = x) (hs : OrdinarySize x) (hn : n = asc "lat" ∨ n = asc "lon") : GenSure n (floatText x) := by
  obtain ⟨v, e, h1, h2, h3, -⟩ := text_float x hr hs
  exact .inr (.inl ⟨hn, v, e, h1, h2, h3⟩)

omit P in
theorem floatFlag_stored {l : List (Bytes × Bytes)} {sets : List (Bytes × FlagVal)} (hs : SetsOf genFlags l sets) {n : Bytes} {x : F64}
    (special : FloatArg → F64) (hn : n = asc "lat" ∨ n = asc "lon") (hr : rnd x = x) (ho : OrdinarySize x) (h : LastValue l n (floatText x)) :
    floatFlag special sets n = x := by
  obtain ⟨v, e, h1, h2, h3, h4⟩ := text_float x hr ho
  exact roundsTo64_unique (floatFlag_of hs special hn (.inl ⟨_, e, h, h1, h2⟩) h3) h4

/-- **C130.** A stored position can be sent again: packet-gen called with the coordinates `s0` as they are written in a storage (`r0` a record saved
in any run of the server, `s0` a position of it) sends a packet from which the server saves a position that differs by at most one unit of the wire
format (and the rounding of float64). -/
theorem replay (env0 : Env) (hasStore : Bool) (tail : Tail) (chunks0 : List Bytes) (r0 : NavRecord)
    (hr0 : r0 ∈ savesOf (handleConn env0 hasStore tail chunks0).1) (s0 : LocState) (hs0 : s0 ∈ r0.LocStates)
    (strict : Bool) (special : FloatArg → F64) (args : List Bytes) (l : List (Bytes × Bytes)) (hc : CommandLine args l)
    (hall : ∀ p ∈ l, GenSure p.1 p.2 ∨ p = (asc "lat", floatText s0.Latitude) ∨ p = (asc "lon", floatText s0.Longitude))
    (pid oid liquid : Int) (t : ℚ) (st : Bytes)
    (hpid : IntArg l (asc "pid") pid) (hpid' : 1 ≤ pid ∧ pid < 65536)
    (hoid : IntArg l (asc "oid") oid) (hoid' : 1 ≤ oid ∧ oid < 4294967296)
    (hliq : IntArg l (asc "liquid") liquid) (hliq' : 0 ≤ liquid ∧ liquid < 4294967296)
    (hlat : LastValue l (asc "lat") (floatText s0.Latitude)) (hlon : LastValue l (asc "lon") (floatText s0.Longitude))
    (htime : LastValue l (asc "time") st) (htime' : IsStamp rfcCapital st t)
    (server : Bytes) (hserver : LastValue l (asc "server") server ∨ NoValue l (asc "server") ∧ server = asc "localhost:5555") (env : Env) :
    ∃ sent, (∀ net : Bytes → GenNet, (net server).resolves = true → (net server).dials = true → (net server).writes = true →
        (genCommand strict special net args).1 = some sent ∧ ∃ e, (genCommand strict special net args).2 = .ran e) ∧
      ∀ chunks : List Bytes, chunks.flatten = sent →
        ∃ effects r ack s, handleConn env true .silent chunks = (effects, .waiting) ∧ savesOf effects = [r] ∧ writesOf effects = [ack] ∧
          (r.ClientID.toNat : Int) = oid ∧ (r.PacketID.toNat : Int) = pid ∧ r.LocStates = [s] ∧
          |s.Latitude - s0.Latitude| ≤ 90 / fullScale + 90 / 2 ^ 51 ∧ |s.Longitude - s0.Longitude| ≤ 180 / fullScale + 180 / 2 ^ 51 := by
  obtain ⟨⟨p1, p2, p3⟩, q1, q2, q3⟩ := stored_coords env0 hasStore tail chunks0 r0 hr0 s0 hs0
  have hall' : ∀ p ∈ l, GenSure p.1 p.2 := by
    intro p hp
    rcases hall p hp with h | rfl | rfl
    · exact h
    · exact stored_sure p1 p2 (.inl rfl)
    · exact stored_sure q1 q2 (.inr rfl)
  obtain ⟨sets, hs⟩ := sure_sets l hall'
  obtain ⟨rest, hp⟩ := (flags_taken genFlags args sets).mpr ⟨l, hc, hs⟩
  have r1 := floatFlag_stored hs special (.inl rfl) p1 p2 hlat
  have r2 := floatFlag_stored hs special (.inr rfl) q1 q2 hlon
  have i1 := intFlag_of hs (n := asc "pid") (by decide) hpid (by omega)
  have i2 := intFlag_of hs (n := asc "oid") (by decide) hoid (by omega)
  have i3 := intFlag_of hs (n := asc "liquid") (by decide) hliq (by omega)
  have i4 := strFlag_of hs (n := asc "time") (by decide) htime []
  have i5 : strFlag sets (asc "server") (asc "localhost:5555") = server := by
    rcases hserver with h | ⟨h, rfl⟩
    · exact strFlag_of hs (by decide) h _
    · exact strFlag_none hs h _
  have hts : st ≠ [] := by
    rintro rfl
    have := rfc3339_taken_partial strict [] t htime'
    cases this
  have hv : (GenArgs.ofFlags special sets).Valid := {
    pid := by show _ ∧ _; rw [show (GenArgs.ofFlags special sets).pid.toInt = pid from i1]; exact hpid'
    oid := by show _ ∧ _; rw [show (GenArgs.ofFlags special sets).oid.toInt = oid from i2]; exact hoid'
    liquid := by show _ ∧ _; rw [show (GenArgs.ofFlags special sets).liquid.toInt = liquid from i3]; exact hliq'
    lat := by show _ ∧ _; rw [show (GenArgs.ofFlags special sets).lat = s0.Latitude from r1]; exact p3
    lon := by show _ ∧ _; rw [show (GenArgs.ofFlags special sets).lon = s0.Longitude from r2]; exact q3
    ts := by rw [show (GenArgs.ofFlags special sets).ts = st from i4]; exact hts }
  obtain ⟨sent, h1, h2⟩ := gen_end_to_end (GenArgs.ofFlags special sets) hv env
  refine ⟨sent, ?_, ?_⟩
  · intro net n1 n2 n3
    have e : genCommand strict special net args = ((genMain (GenArgs.ofFlags special sets) { net server with parsed := timeParse strict }).1,
        .ran (genMain (GenArgs.ofFlags special sets) { net server with parsed := timeParse strict }).2) := by
      unfold genCommand
      rw [hp]
      dsimp only
      rw [i5]
    rw [e]
    refine ⟨h1 _ ⟨?_, n1, n2, n3⟩, _, rfl⟩
    show (timeParse strict (GenArgs.ofFlags special sets).ts).isSome = true
    rw [show (GenArgs.ofFlags special sets).ts = st from i4, rfc3339_taken_partial strict st t htime']
    rfl
  · intro chunks hch
    obtain ⟨effects, r, ack, s, a1, a2, a3, a4, a5, a6, -, a8, a9, -⟩ := h2 chunks hch
    refine ⟨effects, r, ack, s, a1, a2, a3, ?_, ?_, a6, ?_, ?_⟩
    · rw [a4]; exact i2
    · rw [a5]; exact i1
    · rwa [show (GenArgs.ofFlags special sets).lat = s0.Latitude from r1] at a8
    · rwa [show (GenArgs.ofFlags special sets).lon = s0.Longitude from r2] at a9

/-- the command of the documentation, with the coordinates of the position `s` -/
def replayFlags (s : LocState) : List (Bytes × Bytes) := [(asc "pid", asc "1"), (asc "oid", asc "12"), (asc "time", asc "2021-12-16T09:12:00Z"),
  (asc "lat", floatText s.Latitude), (asc "lon", floatText s.Longitude), (asc "server", asc "localhost:5555")]

/-- its arguments -/
def replayCommand (s : LocState) : List Bytes := [asc "--pid", asc "1", asc "--oid", asc "12", asc "--time", asc "2021-12-16T09:12:00Z",
  asc "--lat", floatText s.Latitude, asc "--lon", floatText s.Longitude, asc "--server", asc "localhost:5555"]

/-- Every stored position can be sent with this command: the hypotheses of `replay` can be met. -/
theorem replay_documented (env0 : Env) (hasStore : Bool) (tail : Tail) (chunks0 : List Bytes) (r0 : NavRecord)
    (hr0 : r0 ∈ savesOf (handleConn env0 hasStore tail chunks0).1) (s0 : LocState) (hs0 : s0 ∈ r0.LocStates)
    (strict : Bool) (special : FloatArg → F64) (env : Env) :
    ∃ sent, (∀ net : Bytes → GenNet, (net (asc "localhost:5555")).resolves = true → (net (asc "localhost:5555")).dials = true →
        (net (asc "localhost:5555")).writes = true → (genCommand strict special net (replayCommand s0)).1 = some sent) ∧
      ∀ chunks : List Bytes, chunks.flatten = sent →
        ∃ effects r s, handleConn env true .silent chunks = (effects, .waiting) ∧ savesOf effects = [r] ∧
          r.ClientID.toNat = 12 ∧ r.PacketID.toNat = 1 ∧ r.LocStates = [s] ∧ |s.Latitude - s0.Latitude| ≤ 1 / 10000000 ∧
          |s.Longitude - s0.Longitude| ≤ 1 / 10000000 := by
  have hst : IsStamp rfcCapital (asc "2021-12-16T09:12:00Z") 1639645920 := by
    refine ⟨2021, 12, 16, 9, 12, 0, 0, 0, ⟨asc "2021", asc "12", asc "16", 84, asc "09", asc "12", asc "00", [], asc "Z", by decide +kernel, ⟨rfl, by decide⟩,
      ⟨rfl, by decide⟩, ⟨rfl, by decide⟩, rfl, ⟨2, rfl, rfl, by decide⟩, ⟨rfl, by decide⟩, ⟨rfl, by decide⟩, .inl ⟨rfl, rfl⟩, .inl ⟨rfl, rfl⟩⟩, ?_, by decide, by decide,
      by decide, ?_⟩
    · unfold IsDate; decide
    · unfold stampInstant; decide +kernel
  have d1 : asc "lat" ≠ asc "lon" := by decide
  obtain ⟨sent, h1, h2⟩ := replay env0 hasStore tail chunks0 r0 hr0 s0 hs0 strict special (replayCommand s0) (replayFlags s0)
    (.apart (word2 (asc "pid") (by decide) (by decide) (by decide)) <| .apart (word2 (asc "oid") (by decide) (by decide) (by decide)) <|
      .apart (word2 (asc "time") (by decide) (by decide) (by decide)) <| .apart (word2 (asc "lat") (by decide) (by decide) (by decide)) <|
      .apart (word2 (asc "lon") (by decide) (by decide) (by decide)) <| .apart (word2 (asc "server") (by decide) (by decide) (by decide)) .nil)
    (by
      simp only [replayFlags, List.forall_mem_cons, List.not_mem_nil, false_imp_iff, implies_true, and_true]
      exact ⟨.inl (.inl ⟨.inl rfl, 1, int_one, by norm_num⟩), .inl (.inl ⟨.inr (.inl rfl), 12, int_twelve, by norm_num⟩), .inl (.inr (.inr (.inl rfl))),
        .inr (.inl trivial), .inr (.inr trivial), .inl (.inr (.inr (.inr rfl)))⟩)
    1 12 0 1639645920 (asc "2021-12-16T09:12:00Z")
    (.inl ⟨_, ⟨[], _, rfl, by simp only [List.forall_mem_cons, List.not_mem_nil, false_imp_iff, implies_true, and_true]; decide⟩, int_one⟩) (by norm_num)
    (.inl ⟨_, ⟨(replayFlags s0).take 1, _, rfl, by simp only [List.forall_mem_cons, List.not_mem_nil, false_imp_iff, implies_true, and_true]; decide⟩, int_twelve⟩) (by norm_num)
    (.inr ⟨by unfold NoValue replayFlags; simp only [List.forall_mem_cons, List.not_mem_nil, false_imp_iff, implies_true, and_true]; decide, rfl⟩) (by norm_num)
    ⟨(replayFlags s0).take 3, _, rfl, by simp only [List.forall_mem_cons, List.not_mem_nil, false_imp_iff, implies_true, and_true]; decide⟩
    ⟨(replayFlags s0).take 4, _, rfl, by simp only [List.forall_mem_cons, List.not_mem_nil, false_imp_iff, implies_true, and_true]; decide⟩
    ⟨(replayFlags s0).take 2, _, rfl, by simp only [List.forall_mem_cons, List.not_mem_nil, false_imp_iff, implies_true, and_true]; decide⟩
    hst (asc "localhost:5555")
    (.inl ⟨(replayFlags s0).take 5, _, rfl, by simp only [List.not_mem_nil, false_imp_iff, implies_true]⟩) env
  refine ⟨sent, fun net a b c => (h1 net a b c).1, fun chunks hch => ?_⟩
  obtain ⟨effects, r, ack, s, a1, a2, -, a4, a5, a6, a7, a8⟩ := h2 chunks hch
  refine ⟨effects, r, s, a1, a2, by omega, by omega, a6, a7.trans ?_, a8.trans ?_⟩ <;> norm_num [fullScale]

omit P in
/-- concrete texts: 0.1, a small number in the exponent format (90 / 4294967295, the smallest latitude above 0), and a typed number that
is no JSON number -/
theorem typed_back_examples : floatText (rnd (1 / 10)) = asc "0.1" ∧ goParseFloat (asc "0.1") = some (.fin (rnd (1 / 10))) ∧
    floatText (latOfRaw 1) = asc "2.0954757933727176e-8" ∧ goParseFloat (asc "2.0954757933727176e-8") = some (.fin (latOfRaw 1)) ∧
    goParseFloat (asc "0x1p-2") = some (.fin (1 / 4)) := by decide +kernel

end Egts
