import Verif.Spec.Time
import Verif.Go.Time
import Mathlib.Tactic.IntervalCases
import Mathlib.Data.Nat.Notation
set_option autoImplicit false
/- C68: the exported text of an instant denotes that instant. -/
namespace Egts

theorem isLeap_iff (y : Nat) : isLeap y = true ↔ LeapYear y := by
  unfold isLeap LeapYear
  simp only [Bool.or_eq_true, Bool.and_eq_true, beq_iff_eq, bne_iff_ne]
  omega

/-- days from 0001-01-01 to the first day of year `y` -/
def yearStart (y : Nat) : Nat := 365 * (y - 1) + ((y - 1) / 4 - (y - 1) / 100 + (y - 1) / 400)

theorem yearStart_succ (y : Nat) (h : 1 ≤ y) : yearStart (y + 1) = yearStart y + yearLen y := by
  unfold yearStart yearLen
  by_cases hl : isLeap y
  · have := (isLeap_iff y).mp hl
    rw [if_pos hl]
    unfold LeapYear at this
    omega
  · have : ¬ LeapYear y := fun h => hl ((isLeap_iff y).mpr h)
    rw [if_neg hl]
    unfold LeapYear at this
    omega

theorem splitYear_spec (fuel y d y' d' : Nat) (hy : 1 ≤ y) (hf : d < fuel) (h : splitYear fuel y d = (y', d')) :
    yearStart y' + d' = yearStart y + d ∧ d' < yearLen y' ∧ y ≤ y' := by
  induction fuel generalizing y d with
  | zero => omega
  | succ n ih =>
    unfold splitYear at h
    split at h
    · next hd =>
      obtain ⟨rfl, rfl⟩ := Prod.mk.inj h
      exact ⟨rfl, hd, Nat.le_refl _⟩
    · next hd =>
      have hl : 365 ≤ yearLen y := by unfold yearLen; split <;> omega
      have := ih (y + 1) (d - yearLen y) (by omega) (by omega) h
      rw [yearStart_succ y hy] at this
      omega

/-- the 366 days of a leap year -/
theorem splitMonth_leap : ∀ d < 366, 1 ≤ (splitMonth [31, 29, 31, 30, 31, 30, 31, 31, 30, 31, 30, 31] 1 d).1 ∧
    (splitMonth [31, 29, 31, 30, 31, 30, 31, 31, 30, 31, 30, 31] 1 d).1 ≤ 12 ∧
    daysBeforeMonth (splitMonth [31, 29, 31, 30, 31, 30, 31, 31, 30, 31, 30, 31] 1 d).1 +
      (if 2 < (splitMonth [31, 29, 31, 30, 31, 30, 31, 31, 30, 31, 30, 31] 1 d).1 then 1 else 0) +
      (splitMonth [31, 29, 31, 30, 31, 30, 31, 31, 30, 31, 30, 31] 1 d).2 = d ∧
    (splitMonth [31, 29, 31, 30, 31, 30, 31, 31, 30, 31, 30, 31] 1 d).2 <
      if (splitMonth [31, 29, 31, 30, 31, 30, 31, 31, 30, 31, 30, 31] 1 d).1 = 2 then 29 else
      daysBeforeMonth ((splitMonth [31, 29, 31, 30, 31, 30, 31, 31, 30, 31, 30, 31] 1 d).1 + 1) -
      daysBeforeMonth (splitMonth [31, 29, 31, 30, 31, 30, 31, 31, 30, 31, 30, 31] 1 d).1 := by
  decide +kernel

/-- the 365 days of a common year -/
theorem splitMonth_common : ∀ d < 365, 1 ≤ (splitMonth [31, 28, 31, 30, 31, 30, 31, 31, 30, 31, 30, 31] 1 d).1 ∧
    (splitMonth [31, 28, 31, 30, 31, 30, 31, 31, 30, 31, 30, 31] 1 d).1 ≤ 12 ∧
    daysBeforeMonth (splitMonth [31, 28, 31, 30, 31, 30, 31, 31, 30, 31, 30, 31] 1 d).1 +
      (splitMonth [31, 28, 31, 30, 31, 30, 31, 31, 30, 31, 30, 31] 1 d).2 = d ∧
    (splitMonth [31, 28, 31, 30, 31, 30, 31, 31, 30, 31, 30, 31] 1 d).2 <
      daysBeforeMonth ((splitMonth [31, 28, 31, 30, 31, 30, 31, 31, 30, 31, 30, 31] 1 d).1 + 1) -
      daysBeforeMonth (splitMonth [31, 28, 31, 30, 31, 30, 31, 31, 30, 31, 30, 31] 1 d).1 := by
  decide +kernel

theorem splitMonth_spec (y d m' d' : Nat) (hd : d < yearLen y) (h : splitMonth (monthLens y) 1 d = (m', d')) :
    1 ≤ m' ∧ m' ≤ 12 ∧ daysBeforeMonth m' + (if 2 < m' ∧ LeapYear y then 1 else 0) + d' = d ∧ d' < daysInMonth y m' := by
  unfold yearLen at hd
  unfold daysInMonth
  by_cases hl : LeapYear y
  · have hl' := (isLeap_iff y).mpr hl
    rw [if_pos hl'] at hd
    have := splitMonth_leap d hd
    have e : monthLens y = [31, 29, 31, 30, 31, 30, 31, 31, 30, 31, 30, 31] := by simp [monthLens, hl']
    rw [e] at h
    rw [h] at this
    simpa only [hl, and_true] using this
  · have hl' : ¬ isLeap y = true := fun hh => hl ((isLeap_iff y).mp hh)
    rw [if_neg hl'] at hd
    have := splitMonth_common d hd
    have e : monthLens y = [31, 28, 31, 30, 31, 30, 31, 31, 30, 31, 30, 31] := by simp [monthLens, hl']
    rw [e] at h
    rw [h] at this
    simpa only [hl, and_false, if_false, Nat.add_zero] using this

/-- `civil` gives the date with the given day number -/
theorem civil_spec (n y m d : Nat) (h : civil n = (y, m, d)) : IsDate y m d ∧ dayNumber y m d = n ∧ 1970 ≤ y ∧ (n < 2932897 → y < 10000) := by
  unfold civil at h
  rcases h1 : splitYear (n + 1) 1970 n with ⟨y1, d1⟩
  rw [h1] at h
  simp only at h
  rcases h2 : splitMonth (monthLens y1) 1 d1 with ⟨m1, d2⟩
  rw [h2] at h
  simp only [Prod.mk.injEq] at h
  obtain ⟨rfl, rfl, rfl⟩ := h
  obtain ⟨a1, a2, a3⟩ := splitYear_spec _ _ _ _ _ (by omega) (by omega) h1
  obtain ⟨b1, b2, b3, b4⟩ := splitMonth_spec _ _ _ _ a2 h2
  have c1 : yearStart 1970 = 719162 := by decide
  refine ⟨⟨b1, b2, by omega, by omega⟩, ?_, a3, ?_⟩
  · unfold dayNumber leapsBefore
    have e : ((y1 : Int) - 1) = ((y1 - 1 : Nat) : Int) := by omega
    rw [e]
    unfold yearStart at a1 c1
    by_cases hx : 2 < m1 ∧ LeapYear y1
    · rw [if_pos hx] at b3 ⊢
      omega
    · rw [if_neg hx] at b3 ⊢
      omega
  · intro hn
    by_contra hy
    have : yearStart 10000 ≤ yearStart y1 := by
      unfold yearStart
      omega
    have c2 : yearStart 10000 = 3652059 := by decide
    omega

/-- `digits` writes the decimal digits -/
theorem digits_spec (w n : Nat) (h : n < 10 ^ w) : (digits w n).length = w ∧ decimal (digits w n) = some n := by
  have hall : ∀ w n, (digits w n).all (fun b => 48 ≤ b.toNat && b.toNat ≤ 57) = true := by
    intro w
    induction w with
    | zero => intro n; rfl
    | succ w ih =>
      intro n
      rw [digits, List.all_append, ih]
      simp only [List.all_cons, List.all_nil, Bool.and_true, Bool.true_and, Bool.and_eq_true, decide_eq_true_eq, UInt8.toNat_ofNat']
      omega
  have hfold : ∀ w n, n < 10 ^ w → (digits w n).foldl (fun n b => 10 * n + (b.toNat - 48)) 0 = n := by
    intro w
    induction w with
    | zero => intro n hn; simp at hn; subst hn; rfl
    | succ w ih =>
      intro n hn
      rw [digits, List.foldl_append, ih (n / 10) (by rw [Nat.pow_succ] at hn; omega)]
      simp only [List.foldl_cons, List.foldl_nil, UInt8.toNat_ofNat']
      omega
  have hlen : ∀ w n, (digits w n).length = w := by
    intro w
    induction w with
    | zero => intro n; rfl
    | succ w ih => intro n; rw [digits, List.length_append, ih]; rfl
  refine ⟨hlen w n, ?_⟩
  unfold decimal
  rw [if_pos (hall w n), hfold w n h]

/-- C68: for every instant from 1970 to the end of the year 9999 the text written by the formatting code denotes exactly that instant. -/
theorem rfc3339_denotes (unix : Int) (h0 : 0 ≤ unix) (h1 : unix < 253402300800) : Denotes (rfc3339 unix) unix := by
  unfold rfc3339
  rcases hc : civil (unix.toNat / 86400) with ⟨y, m, d⟩
  obtain ⟨c1, c2, c3, c4⟩ := civil_spec _ _ _ _ hc
  have hy := c4 (by omega)
  have hdm : d < 32 := by
    have hd := c1.2.2.2
    have h12 : ∀ m, 1 ≤ m → m ≤ 12 → daysBeforeMonth (m + 1) - daysBeforeMonth m ≤ 31 := by
      intro m h1 h2
      interval_cases m <;> decide
    have := h12 m c1.1 c1.2.1
    unfold daysInMonth at hd
    split at hd <;> omega
  have hm := c1.2.1
  obtain ⟨l1, p1⟩ := digits_spec 4 y (by norm_num; omega)
  obtain ⟨l2, p2⟩ := digits_spec 2 m (by norm_num; omega)
  obtain ⟨l3, p3⟩ := digits_spec 2 d (by norm_num; omega)
  obtain ⟨l4, p4⟩ := digits_spec 2 (unix.toNat % 86400 / 3600) (by norm_num; omega)
  obtain ⟨l5, p5⟩ := digits_spec 2 (unix.toNat % 86400 / 60 % 60) (by norm_num; omega)
  obtain ⟨l6, p6⟩ := digits_spec 2 (unix.toNat % 86400 % 60) (by norm_num; omega)
  simp only [hc]
  refine ⟨y, m, d, _, _, _, ⟨_, _, _, _, _, _, rfl, l1, l2, l3, l4, l5, l6, p1, p2, p3, p4, p5, p6⟩, c1, by omega, by omega, by omega, ?_⟩
  rw [c2]
  omega

/-- a text denotes at most one instant -/
theorem denotes_unique (text : Bytes) (a b : Int) (ha : Denotes text a) (hb : Denotes text b) : a = b := by
  obtain ⟨y, m, d, h, mi, s, ⟨ty, tm, td, th, tmi, ts, e, l1, l2, l3, l4, l5, l6, p1, p2, p3, p4, p5, p6⟩, -, -, -, -, rfl⟩ := ha
  obtain ⟨y', m', d', h', mi', s', ⟨ty', tm', td', th', tmi', ts', e', l1', l2', l3', l4', l5', l6', p1', p2', p3', p4', p5', p6'⟩, -, -, -, -, rfl⟩ := hb
  rw [e] at e'
  have key : ∀ {a b c d : Bytes}, a ++ b = c ++ d → a.length = c.length → a = c ∧ b = d := fun h hl => List.append_inj h hl
  simp only [List.append_assoc] at e'
  obtain ⟨r0, x0⟩ := key e' (by omega)
  obtain ⟨-, z0⟩ := List.append_inj x0 rfl
  obtain ⟨r1, x1⟩ := key z0 (by omega)
  obtain ⟨-, z1⟩ := List.append_inj x1 rfl
  obtain ⟨r2, x2⟩ := key z1 (by omega)
  obtain ⟨-, z2⟩ := List.append_inj x2 rfl
  obtain ⟨r3, x3⟩ := key z2 (by omega)
  obtain ⟨-, z3⟩ := List.append_inj x3 rfl
  obtain ⟨r4, x4⟩ := key z3 (by omega)
  obtain ⟨-, z4⟩ := List.append_inj x4 rfl
  obtain ⟨r5, x5⟩ := key z4 (by omega)
  subst r0 r1 r2 r3 r4 r5
  have q1 := Option.some.inj (p1.symm.trans p1')
  have q2 := Option.some.inj (p2.symm.trans p2')
  have q3 := Option.some.inj (p3.symm.trans p3')
  have q4 := Option.some.inj (p4.symm.trans p4')
  have q5 := Option.some.inj (p5.symm.trans p5')
  have q6 := Option.some.inj (p6.symm.trans p6')
  subst q1 q2 q3 q4 q5 q6
  rfl

/-- different instants have different texts -/
theorem rfc3339_injective (a b : Int) (ha : 0 ≤ a ∧ a < 253402300800) (hb : 0 ≤ b ∧ b < 253402300800) (h : rfc3339 a = rfc3339 b) : a = b :=
  denotes_unique _ _ _ (h ▸ rfc3339_denotes a ha.1 ha.2) (rfc3339_denotes b hb.1 hb.2)

theorem leapYear_shift (y : Nat) : LeapYear (y + 2000) ↔ LeapYear y := by unfold LeapYear; omega

theorem dayNumber_shift (y m d : Nat) : dayNumber (y + 2000) m d = dayNumber y m d + 730485 := by
  unfold dayNumber leapsBefore
  simp only [leapYear_shift]
  have e : (((y + 2000 : Nat) : Int) - 1) = ((y : Int) - 1) + 2000 := by omega
  rw [e]
  generalize (y : Int) - 1 = z
  generalize (if 2 < m ∧ LeapYear y then (1 : Int) else 0) = w
  omega

/-- the date of a day from 0000-01-01 to 9999-12-31 -/
theorem civil_early (n : Int) (h0 : -719528 ≤ n) (h1 : n ≤ 2932896) (Y m d : Nat) (h : civil (n + 730485).toNat = (Y, m, d)) :
    IsDate (Y - 2000) m d ∧ dayNumber (Y - 2000) m d = n ∧ 2000 ≤ Y ∧ Y < 12000 ∧ d < 32 := by
  obtain ⟨c1, c2, c3, -⟩ := civil_spec _ _ _ _ h
  have hdm : ∀ m, 1 ≤ m → m ≤ 12 → daysBeforeMonth (m + 1) - daysBeforeMonth m ≤ 31 ∧ daysBeforeMonth m ≤ 334 ∧
      (daysBeforeMonth (m + 1) ≤ 365 ∧ daysBeforeMonth m ≤ daysBeforeMonth (m + 1)) ∧ (m = 2 → daysBeforeMonth m = 31) := by
    intro m h1 h2
    interval_cases m <;> decide
  obtain ⟨d1, d2, d3, d4⟩ := hdm m c1.1 c1.2.1
  have hd := c1.2.2.2
  have hd32 : d < 32 := by unfold daysInMonth at hd; split at hd <;> omega
  have hlen : (daysBeforeMonth m : Int) + (if 2 < m ∧ LeapYear Y then 1 else 0) + (d - 1) ≤ 365 := by
    unfold daysInMonth at hd
    split at hd
    · split <;> omega
    · split <;> omega
  have hge : (0 : Int) ≤ (if 2 < m ∧ LeapYear Y then 1 else 0) := by split <;> omega
  have hd1 := c1.2.2.1
  have c2' : dayNumber Y m d = n + 730485 := by rw [c2]; omega
  have hY : 2000 ≤ Y ∧ Y < 12000 := by
    unfold dayNumber leapsBefore at c2'
    by_cases hl : LeapYear Y
    · unfold LeapYear at hl
      constructor <;> omega
    · have hlen' : (daysBeforeMonth m : Int) + (if 2 < m ∧ LeapYear Y then 1 else 0) + (d - 1) ≤ 364 := by
        unfold daysInMonth at hd
        simp only [hl, and_false, if_false] at hd ⊢
        omega
      unfold LeapYear at hl
      have ha : 1999 ≤ Y := by omega
      have hb : Y ≤ 12000 := by omega
      have hc : Y ≠ 1999 := by rintro rfl; omega
      have hd : Y ≠ 12000 := by rintro rfl; omega
      constructor <;> omega
  obtain ⟨y, rfl⟩ : ∃ y, Y = y + 2000 := ⟨Y - 2000, by omega⟩
  rw [dayNumber_shift] at c2'
  refine ⟨?_, by simpa using c2', hY.1, hY.2, hd32⟩
  obtain ⟨i1, i2, i3, i4⟩ := c1
  refine ⟨i1, i2, i3, ?_⟩
  unfold daysInMonth at i4 ⊢
  rw [Nat.add_sub_cancel]
  simpa only [leapYear_shift] using i4

/-- 1582934400 is 2020-02-29T00:00:00Z (test of the specification) -/
example : rfc3339 1582934400 = [50, 48, 50, 48, 45, 48, 50, 45, 50, 57, 84, 48, 48, 58, 48, 48, 58, 48, 48, 90] ∧ dayNumber 2020 2 29 * 86400 = 1582934400 := by
  decide +kernel

end Egts
