import Verif.Lemmas.Basic
set_option autoImplicit false
/- `%0Nb` formatting followed by parsing of a suffix. -/
namespace Egts

/-- the `k` low bits of `n`, most significant first, as ASCII digits -/
def lowBits : Nat → Nat → Bytes
  | 0, _ => []
  | k + 1, n => lowBits k (n / 2) ++ [dig (n % 2 == 1)]

@[simp] theorem length_lowBits (k n : Nat) : (lowBits k n).length = k := by
  induction k generalizing n with
  | zero => rfl
  | succ k ih => simp [lowBits, ih]

theorem lowBits_zero (k : Nat) : lowBits k 0 = List.replicate k 48 := by
  induction k with
  | zero => rfl
  | succ k ih =>
    simp only [lowBits, Nat.zero_div, ih]
    exact List.replicate_succ'.symm

theorem binDigits_pad (fuel w n : Nat) (hw : w ≤ fuel) (h0 : 1 ≤ w) (hn : n < 2 ^ w) :
    List.replicate (w - (binDigits fuel n).length) 48 ++ binDigits fuel n = lowBits w n := by
  induction w generalizing fuel n with
  | zero => omega
  | succ w ih =>
    obtain ⟨fuel, rfl⟩ : ∃ f, fuel = f + 1 := ⟨fuel - 1, by omega⟩
    unfold binDigits
    by_cases h : n < 2
    · rw [if_pos h]
      have e : n / 2 = 0 := by omega
      simp only [lowBits, e, lowBits_zero, List.length_singleton, Nat.add_sub_cancel]
      have : (n == 1) = (n % 2 == 1) := by
        rw [Nat.mod_eq_of_lt h]
      rw [this]
    · rw [if_neg h]
      have hw1 : 1 ≤ w := by
        cases w with
        | zero => simp at hn; omega
        | succ w => omega
      have := ih fuel (n / 2) (by omega) hw1 (by rw [Nat.pow_succ] at hn; omega)
      simp only [lowBits, ← this, List.length_append, List.length_singleton, List.append_assoc]
      congr 2
      omega

theorem fmtBin_eq (w n : Nat) (h0 : 1 ≤ w) (hw : w ≤ 64) (hn : n < 2 ^ w) : fmtBin w n = lowBits w n :=
  binDigits_pad 64 w n hw h0 hn

theorem lowBits_drop (a b n : Nat) : (lowBits (a + b) n).drop a = lowBits b n := by
  induction b generalizing n with
  | zero => simp [lowBits, List.drop_eq_nil_of_le]
  | succ b ih =>
    rw [← Nat.add_assoc]
    simp only [lowBits]
    rw [List.drop_append_of_le_length (by simp), ih]

theorem parseLoop_append (m : Nat) (a b : Bytes) (acc v : Nat) (h : parseLoop m a acc = (v, none)) :
    parseLoop m (a ++ b) acc = parseLoop m b v := by
  induction a generalizing acc with
  | nil => simp only [parseLoop, Prod.mk.injEq, and_true] at h; subst h; rfl
  | cons c cs ih =>
    simp only [parseLoop, List.cons_append] at h ⊢
    by_cases hc : c = 48 ∨ c = 49
    · rw [if_pos hc] at h ⊢
      by_cases hm : (2 * acc + if c = 49 then 1 else 0) > m
      · rw [if_pos hm] at h; simp at h
      · rw [if_neg hm] at h ⊢; exact ih _ h
    · rw [if_neg hc] at h; simp at h

theorem parseLoop_lowBits (m k n acc : Nat) (h : acc * 2 ^ k + n % 2 ^ k ≤ m) :
    parseLoop m (lowBits k n) acc = (acc * 2 ^ k + n % 2 ^ k, none) := by
  induction k generalizing n with
  | zero => simp [lowBits, parseLoop, Nat.mod_one]
  | succ k ih =>
    have e : n % 2 ^ (k + 1) = 2 * (n / 2 % 2 ^ k) + n % 2 := by
      rw [Nat.pow_succ, Nat.mul_comm (2 ^ k) 2, Nat.mod_mul]; omega
    have e2 : acc * 2 ^ (k + 1) = 2 * (acc * 2 ^ k) := by rw [Nat.pow_succ]; ac_rfl
    have := ih (n / 2) (by omega)
    simp only [lowBits]
    rw [parseLoop_append _ _ _ _ _ this]
    have hd : ∀ b : Bool, (dig b = 48 ∨ dig b = 49) := by decide
    simp only [parseLoop, if_pos (hd _)]
    have hv : (if dig (n % 2 == 1) = 49 then 1 else 0) = n % 2 := by
      rcases Nat.mod_two_eq_zero_or_one n with h | h <;> simp [h, dig]
    rw [hv, e, e2, if_neg (by omega)]
    congr 1; omega

/-- the low 14 bits of a 16-bit word, by formatting and parsing -/
theorem parse_low14 (n : Nat) (h : n < 65536) : parseUint2 ((fmtBin 16 n).drop 2) 16 = (n % 16384, none) := by
  rw [fmtBin_eq 16 n (by omega) (by omega) (by omega), lowBits_drop 2 14 n]
  unfold parseUint2
  rw [if_neg (by simp [lowBits])]
  have := parseLoop_lowBits (2 ^ 16 - 1) 14 n 0 (by omega)
  rw [this]; simp

end Egts
