import Verif.Lemmas.FloatDigits
import Verif.Props.PackageText
set_option autoImplicit false
/- C109: the texts of floating point numbers. -/
namespace Egts
open JsonP

/-! ### digits -/

theorem value_append (l l' : List Nat) : value (l ++ l') = value l * 10 ^ l'.length + value l' := by
  have h : ∀ (l : List Nat) (a : Nat), l.foldl (fun n d => 10 * n + d) a = a * 10 ^ l.length + l.foldl (fun n d => 10 * n + d) 0 := by
    intro l
    induction l with
    | nil => simp
    | cons d l ih =>
      intro a
      rw [List.foldl_cons, ih, List.foldl_cons, ih (10 * 0 + d), List.length_cons, pow_succ]
      ring
  unfold value
  rw [List.foldl_append, h l']

theorem value_zeros (k : Nat) : value (List.replicate k 0) = 0 := by
  induction k with
  | zero => rfl
  | succ k ih => rw [List.replicate_succ', value_append, ih]; rfl

theorem value_lt (l : List Nat) (h : ∀ d ∈ l, d < 10) : value l < 10 ^ l.length := by
  induction l using List.reverseRecOn with
  | nil => simp [value]
  | append_singleton l d ih =>
    rw [value_append]
    have := ih fun x hx => h x (by simp [hx])
    have := h d (by simp)
    simp only [List.length_append, List.length_singleton, pow_succ, value, List.foldl_cons, List.foldl_nil] at *
    omega

theorem decDigits_lt (n : Nat) : ∀ d ∈ decDigits n, d < 10 := by
  induction n using decDigits.induct with
  | case1 n h => rw [decDigits, if_pos h]; simpa using h
  | case2 n h ih =>
    rw [decDigits, if_neg h]
    intro d hd
    rcases List.mem_append.mp hd with hd | hd
    · exact ih d hd
    · rw [List.mem_singleton.mp hd]; omega

theorem decDigits_value (n : Nat) : value (decDigits n) = n := by
  induction n using decDigits.induct with
  | case1 n h => rw [decDigits, if_pos h]; simp [value]
  | case2 n h ih =>
    rw [decDigits, if_neg h, value_append, ih]
    simp only [List.length_singleton, pow_one, value, List.foldl_cons, List.foldl_nil]
    omega

theorem decDigits_head (n : Nat) (hn : 0 < n) : ∃ a l, decDigits n = a :: l ∧ a ≠ 0 := by
  induction n using decDigits.induct with
  | case1 n h => rw [decDigits, if_pos h]; exact ⟨n, [], rfl, by omega⟩
  | case2 n h ih =>
    rw [decDigits, if_neg h]
    obtain ⟨a, l, e, ha⟩ := ih (by omega)
    exact ⟨a, l ++ [n % 10], by rw [e]; rfl, ha⟩

theorem decText_digitText (n : Nat) : decText n = digitText (decDigits n) := by
  induction n using decDigits.induct with
  | case1 n h => rw [decDigits, if_pos h, decText, if_pos h]; rfl
  | case2 n h ih => rw [decDigits, if_neg h, decText, if_neg h, ih]; simp [digitText]

theorem trim_zeros (l : List Nat) : ∃ k, l = trimDigits l ++ List.replicate k 0 := by
  induction l using List.reverseRecOn with
  | nil => exact ⟨0, rfl⟩
  | append_singleton l d ih =>
    by_cases hd : d = 0
    · subst hd
      obtain ⟨k, hk⟩ := ih
      have : trimDigits (l ++ [0]) = trimDigits l := by simp [trimDigits]
      rw [this]
      refine ⟨k + 1, ?_⟩
      rw [List.replicate_succ', ← List.append_assoc, ← hk]
    · refine ⟨0, ?_⟩
      simp [trimDigits, hd]

theorem trim_mod (l : List Nat) (h : ∀ d ∈ l, d < 10) (hne : trimDigits l ≠ []) : value (trimDigits l) % 10 ≠ 0 := by
  induction l using List.reverseRecOn with
  | nil => exact absurd rfl hne
  | append_singleton l d ih =>
    by_cases hd : d = 0
    · subst hd
      have e : trimDigits (l ++ [0]) = trimDigits l := by simp [trimDigits]
      rw [e] at hne ⊢
      exact ih (fun x hx => h x (by simp [hx])) hne
    · have e : trimDigits (l ++ [d]) = l ++ [d] := by simp [trimDigits, hd]
      rw [e, value_append]
      have := h d (by simp)
      simp only [List.length_singleton, pow_one, value, List.foldl_cons, List.foldl_nil]
      omega

/-- the digits that are written -/
theorem trimmed (d : Nat) (hd : 0 < d) : ∃ a l k, trimDigits (decDigits d) = a :: l ∧ a ≠ 0 ∧ (∀ c ∈ a :: l, c < 10) ∧
    decDigits d = a :: l ++ List.replicate k 0 ∧ d = value (a :: l) * 10 ^ k ∧ value (a :: l) % 10 ≠ 0 := by
  obtain ⟨k, hk⟩ := trim_zeros (decDigits d)
  obtain ⟨a, l, e, ha⟩ := decDigits_head d hd
  match ht : trimDigits (decDigits d) with
  | [] =>
    rw [ht, List.nil_append] at hk
    have := decDigits_value d
    rw [hk, value_zeros] at this
    omega
  | a' :: l' =>
    rw [ht] at hk
    have e' : a' = a := by
      have := e.symm.trans hk
      simp only [List.cons_append, List.cons.injEq] at this
      exact this.1.symm
    refine ⟨a', l', k, rfl, e' ▸ ha, ?_, hk, ?_, ?_⟩
    · intro c hc
      refine decDigits_lt d c ?_
      rw [hk]
      exact List.mem_append_left _ hc
    · have := decDigits_value d
      rw [hk, value_append, value_zeros, List.length_replicate] at this
      omega
    · rw [← ht]
      exact trim_mod _ (decDigits_lt d) (by rw [ht]; simp)

/-! ### reading the texts -/

theorem isDigit_text (d : Nat) (h : d < 10) : isDigit (UInt8.ofNat (48 + d)) = true ∧ (UInt8.ofNat (48 + d)).toNat - 48 = d := by
  have : ∀ d < 10, isDigit (UInt8.ofNat (48 + d)) = true ∧ (UInt8.ofNat (48 + d)).toNat - 48 = d := by decide
  exact this d h

theorem getDigits_text (l : List Nat) (h : ∀ d ∈ l, d < 10) (rest : Bytes) (hr : getDigits rest = ([], rest)) :
    getDigits (digitText l ++ rest) = (l, rest) := by
  induction l with
  | nil => exact hr
  | cons d l ih =>
    obtain ⟨h1, h2⟩ := isDigit_text d (h d (by simp))
    simp only [digitText, List.map_cons, List.cons_append]
    rw [getDigits, if_pos h1]
    have := ih fun x hx => h x (by simp [hx])
    simp only [digitText] at this
    rw [this, h2]

/-- digits, point and digits, exponent -/
theorem getUnsigned_parts (A B : List Nat) (E : Bytes) (e : ℚ) (hA : ∀ d ∈ A, d < 10) (hB : ∀ d ∈ B, d < 10)
    (h0 : A ≠ []) (h1 : ∀ a l, A = 0 :: a :: l → False) (hE : getExp E = some (e, [])) (hE' : E = [] ∨ ∃ E', E = 101 :: E') :
    getUnsigned (digitText A ++ (if B = [] then [] else 46 :: digitText B) ++ E) =
      some (((value A : ℚ) + (value B : ℚ) / 10 ^ B.length) * e, []) := by
  have dE : getDigits E = ([], E) := by
    rcases hE' with rfl | ⟨E', rfl⟩
    · rfl
    · rw [getDigits]; rfl
  have d2 : getDigits ((if B = [] then [] else 46 :: digitText B) ++ E) = ([], (if B = [] then [] else 46 :: digitText B) ++ E) := by
    split
    · exact dE
    · rw [List.cons_append, getDigits]; rfl
  have hi : getInt (digitText A ++ ((if B = [] then [] else 46 :: digitText B) ++ E)) =
      some (value A, (if B = [] then [] else 46 :: digitText B) ++ E) := by
    unfold getInt
    rw [getDigits_text A hA _ d2]
    match A, h0, h1 with
    | [a], _, _ => cases a <;> rfl
    | (a + 1) :: b :: l, _, _ => rfl
    | 0 :: b :: l, _, h1 => exact (h1 b l rfl).elim
  have hf : getFrac ((if B = [] then [] else 46 :: digitText B) ++ E) = some ((value B : ℚ) / 10 ^ B.length, E) := by
    split
    · next hb =>
      subst hb
      rcases hE' with rfl | ⟨E', rfl⟩
      · simp [getFrac, value]
      · simp [getFrac, value]
    · next hb =>
      rw [List.cons_append]
      unfold getFrac
      simp only
      rw [getDigits_text B hB _ dE]
      match B, hb with
      | b :: l, _ => rfl
  unfold getUnsigned
  rw [List.append_assoc, hi]
  simp only [hf, hE]

theorem getExp_nil : getExp [] = some (1, []) := rfl

theorem getExp_neg (k : Nat) : getExp ([101, 45] ++ decText k) = some (1 / 10 ^ k, []) := by
  have h := getDigits_text (decDigits k) (decDigits_lt k) [] rfl
  rw [List.append_nil] at h
  show getPower (45 :: decText k) = _
  unfold getPower
  simp only [expSign]
  rw [decText_digitText, h]
  match hl : decDigits k with
  | [] => rw [decDigits] at hl; split at hl <;> simp at hl
  | a :: l =>
    have := decDigits_value k
    rw [hl] at this
    simp only [this]
    simp

theorem getExp_pos (k : Nat) (z : Bool) : getExp ([101, 43] ++ (if z then [48] else []) ++ decText k) = some (10 ^ k, []) := by
  have h := getDigits_text ((if z then [0] else []) ++ decDigits k) (by
    intro d hd
    rcases List.mem_append.mp hd with hd | hd
    · cases z <;> simp at hd; omega
    · exact decDigits_lt k d hd) [] rfl
  rw [List.append_nil] at h
  have e : [101, 43] ++ (if z then [48] else []) ++ decText k = 101 :: 43 :: digitText ((if z then [0] else []) ++ decDigits k) := by
    rw [decText_digitText]
    cases z <;> rfl
  rw [e]
  show getPower (43 :: digitText ((if z then [0] else []) ++ decDigits k)) = _
  unfold getPower
  simp only [expSign]
  rw [h]
  have hv : value ((if z then [0] else []) ++ decDigits k) = k := by
    rw [value_append, decDigits_value]
    cases z <;> simp [value]
  match hl : (if z then [0] else []) ++ decDigits k with
  | [] =>
    have : decDigits k = [] := (List.append_eq_nil_iff.mp hl).2
    rw [decDigits] at this; split at this <;> simp at this
  | a :: l =>
    rw [hl] at hv
    simp only [hv]
    simp

theorem digitText_zeros (k : Nat) : List.replicate k (48 : UInt8) = digitText (List.replicate k 0) := by
  simp [digitText]

theorem digitText_append (l l' : List Nat) : digitText (l ++ l') = digitText l ++ digitText l' := by simp [digitText]

theorem ite_digits (l : List Nat) (c : Prop) [Decidable c] (h : c ↔ l ≠ []) :
    (if c then 46 :: digitText l else []) = (if l = [] then [] else 46 :: digitText l) := by
  by_cases hl : l = []
  · rw [if_pos hl, if_neg (by rw [h]; simpa using hl)]
  · rw [if_neg hl, if_pos (h.mpr hl)]

/-- `%f` is read as the number with these digits -/
theorem getUnsigned_fmtF (a : Nat) (l : List Nat) (dp : Int) (ha : a ≠ 0) (hl : ∀ c ∈ a :: l, c < 10) :
    getUnsigned (fmtF (a :: l) dp) = some ((value (a :: l) : ℚ) * pow10 (dp - (a :: l).length), []) := by
  unfold fmtF
  rcases le_or_gt dp 0 with h | h
  · -- 0.000ddd
    rw [if_neg (by omega), if_pos (by simp only [List.length_cons]; omega), digitText_zeros, ← digitText_append]
    have hdrop : (a :: l).drop dp.toNat = a :: l := by rw [show dp.toNat = 0 by omega]; rfl
    rw [hdrop]
    have hall : ∀ c ∈ List.replicate (-dp).toNat 0 ++ (a :: l), c < 10 := by
      intro c hc
      rcases List.mem_append.mp hc with hc | hc
      · rw [List.eq_of_mem_replicate hc]; omega
      · exact hl c hc
    have := getUnsigned_parts [0] (List.replicate (-dp).toNat 0 ++ (a :: l)) [] 1 (by simp) hall (by simp) (by simp) rfl (.inl rfl)
    rw [if_neg (by simp), List.append_nil] at this
    refine this.trans ?_
    have e1 : value (List.replicate (-dp).toNat 0 ++ (a :: l)) = value (a :: l) := by rw [value_append, value_zeros]; omega
    have e2 : pow10 (dp - (a :: l).length) = 1 / 10 ^ (List.replicate (-dp).toNat 0 ++ (a :: l)).length := by
      rw [pow10_eq, List.length_append, List.length_replicate]
      rw [show dp - ((a :: l).length : Int) = -(((-dp).toNat + (a :: l).length : Nat) : Int) by push_cast; omega, zpow_neg, zpow_natCast,
        one_div]
    rw [e1, e2]
    simp only [value, List.foldl_cons, List.foldl_nil]
    congr 2
    push_cast
    ring
  · rw [if_pos h]
    rcases lt_or_ge dp ((a :: l).length : Int) with h2 | h2
    · -- dd.dd
      obtain ⟨n, hn⟩ : ∃ n : Nat, dp = n := ⟨dp.toNat, by omega⟩
      subst hn
      rw [if_pos h2]
      have n1 : n < (a :: l).length := by exact_mod_cast h2
      have n0 : n ≠ 0 := by omega
      rw [show (-(n : Int)).toNat = 0 by omega, Int.toNat_natCast, show n - (a :: l).length = 0 by omega]
      simp only [List.replicate_zero, List.nil_append, List.append_nil]
      have hne : (a :: l).drop n ≠ [] := by
        intro e
        have := congrArg List.length e
        rw [List.length_drop, List.length_nil] at this
        omega
      obtain ⟨n', rfl⟩ : ∃ n', n = n' + 1 := ⟨n - 1, by omega⟩
      have := getUnsigned_parts ((a :: l).take (n' + 1)) ((a :: l).drop (n' + 1)) [] 1 (fun c hc => hl c (List.mem_of_mem_take hc))
        (fun c hc => hl c (List.mem_of_mem_drop hc)) (by simp) (by
          intro b t e
          rw [List.take_succ_cons, List.cons.injEq] at e
          exact ha e.1) rfl (.inl rfl)
      rw [if_neg hne, List.append_nil] at this
      rw [this]
      have hv : value (a :: l) = value ((a :: l).take (n' + 1)) * 10 ^ ((a :: l).drop (n' + 1)).length + value ((a :: l).drop (n' + 1)) := by
        rw [← value_append, List.take_append_drop]
      have hp : pow10 (((n' + 1 : Nat) : Int) - (a :: l).length) = 1 / 10 ^ ((a :: l).drop (n' + 1)).length := by
        rw [pow10_eq, List.length_drop, show ((n' + 1 : Nat) : Int) - ((a :: l).length : Int) = -(((a :: l).length - (n' + 1) : Nat) : Int) by omega,
          zpow_neg, zpow_natCast, one_div]
      rw [hp, hv]
      congr 2
      push_cast
      have : (10 : ℚ) ^ ((a :: l).drop (n' + 1)).length ≠ 0 := by positivity
      field_simp
    · -- dd000
      rw [if_neg (by omega), List.append_nil]
      have ht : (a :: l).take dp.toNat = a :: l := List.take_of_length_le (by omega)
      rw [ht, digitText_zeros, ← digitText_append]
      have hall : ∀ c ∈ (a :: l) ++ List.replicate (dp.toNat - (a :: l).length) 0, c < 10 := by
        intro c hc
        rcases List.mem_append.mp hc with hc | hc
        · exact hl c hc
        · rw [List.eq_of_mem_replicate hc]; omega
      have := getUnsigned_parts ((a :: l) ++ List.replicate (dp.toNat - (a :: l).length) 0) [] [] 1 hall (by simp) (by simp) (by
          intro b t e
          rw [List.cons_append, List.cons.injEq] at e
          exact ha e.1) rfl (.inl rfl)
      rw [if_pos rfl, List.append_nil, List.append_nil] at this
      rw [this, value_append, value_zeros, List.length_replicate]
      have hp : pow10 (dp - (a :: l).length) = 10 ^ (dp.toNat - (a :: l).length) := by
        rw [pow10_eq, show dp - ((a :: l).length : Int) = ((dp.toNat - (a :: l).length : Nat) : Int) by omega, zpow_natCast]
      rw [hp]
      congr 2
      simp [value]

/-- `%e` is read as the number with these digits -/
theorem getUnsigned_fmtE (a : Nat) (l : List Nat) (dp : Int) (hl : ∀ c ∈ a :: l, c < 10) :
    getUnsigned (fmtE (a :: l) dp) = some ((value (a :: l) : ℚ) * pow10 (dp - (a :: l).length), []) := by
  have hv : value (a :: l) = a * 10 ^ l.length + value l := by
    have := value_append [a] l
    simpa [value] using this
  have hall : ∀ c ∈ l, c < 10 := fun c hc => hl c (List.mem_cons_of_mem _ hc)
  have ha : ∀ c ∈ [a], c < 10 := fun c hc => hl c (by rw [List.mem_singleton.mp hc]; simp)
  have key : ∀ (E : Bytes), getExp E = some (pow10 (dp - 1), []) → (E = [] ∨ ∃ E', E = 101 :: E') →
      getUnsigned (digitText ((a :: l).take 1) ++ (if 1 < (a :: l).length then 46 :: digitText ((a :: l).drop 1) else []) ++ E) =
        some ((value (a :: l) : ℚ) * pow10 (dp - (a :: l).length), []) := by
    intro E h1 h2
    have := getUnsigned_parts [a] l E _ ha hall (by simp) (by simp) h1 h2
    rw [List.take_succ_cons, List.take_zero, List.drop_succ_cons, List.drop_zero,
      ite_digits l (1 < (a :: l).length) (by cases l <;> simp), this, hv]
    have hp : pow10 (dp - (a :: l).length) = pow10 (dp - 1) / 10 ^ l.length := by
      rw [pow10_eq, pow10_eq, List.length_cons, show dp - ((l.length + 1 : Nat) : Int) = (dp - 1) - (l.length : Nat) by push_cast; ring,
        zpow_sub₀ (by norm_num), zpow_natCast]
    rw [hp]
    congr 2
    have : (10 : ℚ) ^ l.length ≠ 0 := by positivity
    have e : value [a] = a := by simp [value]
    rw [e]
    push_cast
    field_simp
  unfold fmtE
  rcases lt_or_ge (dp - 1) 0 with h | h
  · rw [if_pos h]
    refine key _ ?_ (.inr ⟨_, rfl⟩)
    rw [getExp_neg, pow10_eq, show dp - 1 = -(((dp - 1).natAbs : Nat) : Int) by omega, zpow_neg, zpow_natCast, one_div, Int.natAbs_neg,
      Int.natAbs_natCast]
  · rw [if_neg (not_lt.mpr h)]
    refine key _ ?_ (.inr ⟨_, rfl⟩)
    have := getExp_pos (dp - 1).natAbs (decide (dp - 1 < 10))
    simp only [decide_eq_true_eq] at this
    rw [this, pow10_eq]
    congr 2
    have : dp - 1 = (((dp - 1).natAbs : Nat) : Int) := by omega
    conv_rhs => rw [this]
    rw [zpow_natCast]

/-- the number read from the text of a positive number -/
theorem getUnsigned_posText (R : ℚ → ℚ) (fuel : Nat) (lo hi x : ℚ) :
    getUnsigned (posText R fuel lo hi x) = some (((shortest R x fuel 1).1 : ℚ) * pow10 (shortest R x fuel 1).2, []) := by
  unfold posText
  simp only
  set d := (shortest R x fuel 1).1
  set q := (shortest R x fuel 1).2
  split
  · next h =>
    rw [h, Nat.cast_zero, zero_mul]
    decide +kernel
  · next h =>
    obtain ⟨a, l, k, h1, h2, h3, h4, h5, -⟩ := trimmed d (by omega)
    have e : (value (a :: l) : ℚ) * pow10 (((decDigits d).length : Int) + q - (a :: l).length) = (d : ℚ) * pow10 q := by
      have hlen : (decDigits d).length = (a :: l).length + k := by rw [h4, List.length_append, List.length_replicate]
      rw [hlen, show ((((a :: l).length + k : Nat) : Int)) + q - (a :: l).length = (k : Int) + q by push_cast; ring, pow10_add, pow10_nat]
      conv_rhs => rw [h5]
      push_cast
      ring
    rw [h1, ← e]
    split
    · exact getUnsigned_fmtE a l _ h3
    · exact getUnsigned_fmtF a l _ h2 h3

end Egts
