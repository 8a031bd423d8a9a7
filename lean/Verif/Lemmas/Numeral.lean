import Verif.Spec.Numeral
import Verif.Model.Storage
import Verif.Lemmas.Basic
import Mathlib.Data.List.Induction
set_option autoImplicit false
namespace Egts

theorem digit_iff (c : UInt8) : (48 ≤ c ∧ c ≤ 57) ↔ ∃ d < 10, c = UInt8.ofNat (48 + d) := by
  constructor
  · rintro ⟨h1, h2⟩
    rw [UInt8.le_iff_toNat_le] at h1 h2
    have a1 : (48 : UInt8).toNat = 48 := rfl
    have a2 : (57 : UInt8).toNat = 57 := rfl
    refine ⟨c.toNat - 48, by omega, ?_⟩
    rw [show 48 + (c.toNat - 48) = c.toNat by omega]
    simp
  · rintro ⟨d, hd, rfl⟩
    have : ∀ d < 10, (48 : UInt8) ≤ UInt8.ofNat (48 + d) ∧ UInt8.ofNat (48 + d) ≤ 57 := by decide
    exact this d hd

theorem digit_val (d : Nat) (hd : d < 10) : (((UInt8.ofNat (48 + d)).toNat : Int) - 48) = d := by
  have : (UInt8.ofNat (48 + d)).toNat = 48 + d := by
    simp; omega
  omega

/-- the value of a digit text, as `atoi` computes it -/
def decVal (ds : Bytes) : Int := ds.foldl (fun a c => 10 * a + ((c.toNat : Int) - 48)) 0

theorem digits_decVal {s : Bytes} {n : Nat} (h : Digits s n) : s ≠ [] ∧ s.all (fun c => 48 ≤ c && c ≤ 57) = true ∧ decVal s = n := by
  induction h with
  | one d hd =>
    refine ⟨by simp, ?_, ?_⟩
    · simpa using (digit_iff _).mpr ⟨d, hd, rfl⟩
    · simp only [decVal, List.foldl, digit_val d hd]; omega
  | snoc s n d t hd ih =>
    obtain ⟨-, i2, i3⟩ := ih
    refine ⟨by simp, ?_, ?_⟩
    · rw [List.all_append, i2]
      simpa using (digit_iff _).mpr ⟨d, hd, rfl⟩
    · simp only [decVal, List.foldl_append, List.foldl, digit_val d hd] at i3 ⊢
      rw [i3]; push_cast; omega

theorem digits_exists (s : Bytes) : s ≠ [] → s.all (fun c => 48 ≤ c && c ≤ 57) = true → ∃ n : Nat, Digits s n := by
  induction s using List.reverseRecOn with
  | nil => intro h; exact absurd rfl h
  | append_singleton s c ih =>
    intro _ h
    rw [List.all_append, Bool.and_eq_true] at h
    obtain ⟨d, hd, rfl⟩ := (digit_iff c).mp (by simpa using h.2)
    by_cases hs : s = []
    · subst hs; exact ⟨d, .one d hd⟩
    · obtain ⟨n, hn⟩ := ih hs h.1
      exact ⟨_, .snoc s n d hn hd⟩

theorem digits_iff (s : Bytes) (n : Nat) : Digits s n ↔ s ≠ [] ∧ s.all (fun c => 48 ≤ c && c ≤ 57) = true ∧ decVal s = n := by
  refine ⟨digits_decVal, fun ⟨h1, h2, h3⟩ => ?_⟩
  obtain ⟨m, hm⟩ := digits_exists s h1 h2
  have := (digits_decVal hm).2.2
  have : m = n := by omega
  exact this ▸ hm

/-- the numbers `strconv.Atoi` accepts, and their values: decimal numerals in the range of int64 -/
theorem atoi_iff (s : Bytes) (n : Int) : atoi s = some n ↔ Numeral s n ∧ -9223372036854775808 ≤ n ∧ n ≤ 9223372036854775807 := by
  have key : ∀ (neg : Bool) (ds : Bytes), ((if ds = [] ∨ (!ds.all (fun c => 48 ≤ c && c ≤ 57)) = true then none
      else if -9223372036854775808 ≤ (if neg then -decVal ds else decVal ds) ∧ (if neg then -decVal ds else decVal ds) ≤ 9223372036854775807
        then some (if neg then -decVal ds else decVal ds) else none) = some n) ↔
      (∃ k : Nat, Digits ds k ∧ n = if neg then -(k : Int) else k) ∧ -9223372036854775808 ≤ n ∧ n ≤ 9223372036854775807 := by
    intro neg ds
    constructor
    · intro h
      split at h
      · cases h
      · rename_i hc
        simp only [not_or, Bool.not_eq_true', Bool.not_eq_false] at hc
        obtain ⟨k, hk⟩ := digits_exists ds hc.1 hc.2
        rw [(digits_decVal hk).2.2] at h
        by_cases hr : -9223372036854775808 ≤ (if neg then -(k : Int) else k) ∧ (if neg then -(k : Int) else k) ≤ 9223372036854775807
        · rw [if_pos hr] at h
          have e := Option.some.inj h
          rw [e] at hr
          exact ⟨⟨k, hk, e.symm⟩, hr⟩
        · rw [if_neg hr] at h; cases h
    · rintro ⟨⟨k, hk, rfl⟩, hr⟩
      obtain ⟨h1, h2, h3⟩ := digits_decVal hk
      rw [h3, if_neg (by simp [h1, h2]), if_pos hr]
  have nosign : ∀ (c : UInt8) (r : Bytes) (k : Nat), Digits (c :: r) k → c ≠ 45 ∧ c ≠ 43 := by
    intro c r k h
    have := (digits_decVal h).2.1
    simp only [List.all_cons, Bool.and_eq_true, decide_eq_true_eq] at this
    obtain ⟨⟨a, -⟩, -⟩ := this
    rw [UInt8.le_iff_toNat_le] at a
    constructor <;> rintro rfl <;> revert a <;> decide
  have num : Numeral s n ↔ (∃ k : Nat, Digits s k ∧ n = k) ∨ (∃ r, s = 43 :: r ∧ ∃ k : Nat, Digits r k ∧ n = k) ∨
      (∃ r, s = 45 :: r ∧ ∃ k : Nat, Digits r k ∧ n = -(k : Int)) := by
    constructor
    · intro h
      cases h with
      | plain _ k h => exact .inl ⟨k, h, rfl⟩
      | plus r k h => exact .inr (.inl ⟨r, rfl, k, h, rfl⟩)
      | minus r k h => exact .inr (.inr ⟨r, rfl, k, h, rfl⟩)
    · rintro (⟨k, h, rfl⟩ | ⟨r, rfl, k, h, rfl⟩ | ⟨r, rfl, k, h, rfl⟩)
      · exact .plain _ _ h
      · exact .plus _ _ h
      · exact .minus _ _ h
  rw [num]
  unfold atoi
  match s with
  | [] =>
    refine (key false []).trans ?_
    simp
  | c :: r =>
    by_cases h45 : c = 45
    · subst h45
      refine (key true r).trans ?_
      constructor
      · rintro ⟨⟨k, a, b⟩, hr⟩
        exact ⟨.inr (.inr ⟨r, rfl, k, a, b⟩), hr⟩
      · rintro ⟨⟨k, a, -⟩ | ⟨r', e, -⟩ | ⟨r', e, k, a, b⟩, hr⟩
        · exact absurd rfl (nosign _ _ _ a).1
        · simp at e
        · injection e with _ e; subst e
          exact ⟨⟨k, a, b⟩, hr⟩
    · by_cases h43 : c = 43
      · subst h43
        refine (key false r).trans ?_
        constructor
        · rintro ⟨⟨k, a, b⟩, hr⟩
          exact ⟨.inr (.inl ⟨r, rfl, k, a, b⟩), hr⟩
        · rintro ⟨⟨k, a, -⟩ | ⟨r', e, k, a, b⟩ | ⟨r', e, -⟩, hr⟩
          · exact absurd rfl (nosign _ _ _ a).2
          · injection e with _ e; subst e
            exact ⟨⟨k, a, b⟩, hr⟩
          · simp at e
      · split
        rename_i neg ds heq
        have e : neg = false ∧ ds = c :: r := by
          split at heq
          · rename_i h; injection h with h; exact absurd h h45
          · rename_i h; injection h with h; exact absurd h h43
          · injection heq with a b; exact ⟨a.symm, b.symm⟩
        obtain ⟨rfl, rfl⟩ := e
        refine (key false (c :: r)).trans ?_
        constructor
        · rintro ⟨⟨k, a, b⟩, hr⟩
          exact ⟨.inl ⟨k, a, b⟩, hr⟩
        · rintro ⟨⟨k, a, b⟩ | ⟨r', e, -⟩ | ⟨r', e, -⟩, hr⟩
          · exact ⟨⟨k, a, b⟩, hr⟩
          · injection e with e; exact absurd e h43
          · injection e with e; exact absurd e h45

end Egts
