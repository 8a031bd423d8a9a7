import Verif.Props.CmdNumber
import Verif.Lemmas.FloatText
import Verif.Props.FloatShort
set_option autoImplicit false
/- C111: floating point numbers on the command line -/
namespace Egts

/-- the base of the digits -/
def baseOf (hex : Bool) : Nat := if hex then 16 else 10

theorem mant_digit {hex : Bool} {c : UInt8} {d : Nat} (h : DigitOf (baseOf hex) c d) (s : Bytes) (dot : Bool) (a b : List Nat) :
    mantLoop hex (c :: s) dot a b = mantLoop hex s dot (if dot then a else a ++ [d]) (if dot then b ++ [d] else b) := by
  have h36 : baseOf hex ≤ 36 := by cases hex <;> decide
  have hv := h.val h36
  have n1 : c ≠ 95 := digit_ne h h36
  have n2 : c ≠ 46 := by
    rintro rfl
    have : digitVal 46 = none := by decide
    rw [this] at hv; cases hv
  rw [mantLoop, if_neg n1, if_neg n2]
  by_cases hd : decByte c = true
  · have e : c.toNat - 48 = d := by
      unfold digitVal at hv
      rw [if_pos hd] at hv
      exact Option.some.inj hv
    rw [if_pos hd, e]
    cases dot <;> rfl
  · have hh : hex = true := by
      cases hex with
      | true => rfl
      | false => exact absurd ((digit_bytes c).1.mpr ⟨d, h⟩) hd
    subst hh
    have hx : hexByte c = true := by
      have := (digit_bytes c).2.1.mpr ⟨d, h⟩
      simpa [hd] using this
    have e : (lowerByte c).toNat - 87 = d := by
      unfold digitVal at hv
      rw [if_neg hd] at hv
      split at hv
      · exact Option.some.inj hv
      · cases hv
    rw [if_neg hd, e, hx]
    cases dot <;> rfl

theorem mant_under (hex : Bool) (s : Bytes) (dot : Bool) (a b : List Nat) : mantLoop hex (95 :: s) dot a b = mantLoop hex s dot a b := by
  rw [mantLoop, if_pos rfl]

theorem foldl_base (b n : Nat) (l : List Nat) : l.foldl (fun n d => b * n + d) n = n * b ^ l.length + valueIn b l := by
  unfold valueIn
  induction l using List.reverseRecOn with
  | nil => simp
  | append_singleton l d ih =>
    simp only [List.foldl_append, List.foldl_cons, List.foldl_nil, ih, List.length_append, List.length_singleton]
    ring

theorem More.digits {hex : Bool} {s : Bytes} {n m k : Nat} (h : More (baseOf hex) s n m k) : ∃ ds : List Nat, ds.length = k ∧
    ds.foldl (fun n d => baseOf hex * n + d) n = m ∧ ∀ r dot a b, mantLoop hex (s ++ r) dot a b =
      mantLoop hex r dot (if dot then a else a ++ ds) (if dot then b ++ ds else b) := by
  induction h with
  | nil => exact ⟨[], rfl, rfl, by intro r dot a b; cases dot <;> simp⟩
  | dig hd _ ih =>
    obtain ⟨ds, h1, h2, h3⟩ := ih
    refine ⟨_ :: ds, by rw [List.length_cons, h1], h2, fun r dot a b => ?_⟩
    rw [List.cons_append, mant_digit hd, h3]
    cases dot <;> simp
  | und hd _ ih =>
    obtain ⟨ds, h1, h2, h3⟩ := ih
    refine ⟨_ :: ds, by rw [List.length_cons, h1], h2, fun r dot a b => ?_⟩
    rw [List.cons_append, mant_under, List.cons_append, mant_digit hd, h3]
    cases dot <;> simp

theorem Grouped.digits {hex : Bool} {s : Bytes} {n k : Nat} (h : Grouped (baseOf hex) s n k) : ∃ ds : List Nat, ds.length = k ∧ ds ≠ [] ∧
    valueIn (baseOf hex) ds = n ∧ ∀ r dot a b, mantLoop hex (s ++ r) dot a b =
      mantLoop hex r dot (if dot then a else a ++ ds) (if dot then b ++ ds else b) := by
  obtain ⟨c, t, d, j, rfl, h1, h2, rfl⟩ := h.toMore
  obtain ⟨ds, e1, e2, e3⟩ := h2.digits
  refine ⟨d :: ds, by rw [List.length_cons, e1], by simp, ?_, fun r dot a b => ?_⟩
  · unfold valueIn
    rw [List.foldl_cons, Nat.mul_zero, Nat.zero_add]
    exact e2
  · rw [List.cons_append, mant_digit h1, e3]
    cases dot <;> simp

theorem mant_dot (hex : Bool) (s : Bytes) (a b : List Nat) : mantLoop hex (46 :: s) false a b = mantLoop hex s true a b := by
  rw [mantLoop, if_neg (by decide), if_pos rfl]
  rfl

/-- no character of a mantissa at the front -/
def Stops (hex : Bool) (r : Bytes) : Prop := ∀ c t, r = c :: t → okDigit hex c = false ∧ c ≠ 95

theorem mant_stop {hex : Bool} {r : Bytes} (h : Stops hex r) (dot : Bool) (hd : dot = true ∨ r.head? ≠ some 46) (a b : List Nat) :
    mantLoop hex r dot a b = (a, b, dot, r) := by
  match r with
  | [] => rfl
  | c :: t =>
    obtain ⟨h1, h2⟩ := h c t rfl
    rw [okDigit, Bool.or_eq_false_iff] at h1
    rw [mantLoop, if_neg h2]
    by_cases h46 : c = 46
    · subst h46
      rcases hd with rfl | hd
      · simp
      · exact absurd rfl hd
    · rw [if_neg h46, if_neg (by rw [h1.1]; decide), if_neg (by rw [h1.2]; decide)]

/-- the loop over a mantissa -/
theorem Mantissa.loop {hex : Bool} {s : Bytes} {n j : Nat} (h : Mantissa (baseOf hex) s n j) (r : Bytes) (hr : Stops hex r) (h46 : r.head? ≠ some 46) :
    ∃ a b dot, mantLoop hex (s ++ r) false [] [] = (a, b, dot, r) ∧ ¬ (a = [] ∧ b = []) ∧ valueIn (baseOf hex) (a ++ b) = n ∧ b.length = j := by
  cases h with
  | int g =>
    obtain ⟨ds, h1, h2, h3, h4⟩ := g.digits
    refine ⟨ds, [], false, ?_, by simp [h2], by simpa using h3, rfl⟩
    rw [h4]
    simpa using mant_stop hr false (.inr h46) ds []
  | point g =>
    obtain ⟨ds, h1, h2, h3, h4⟩ := g.digits
    refine ⟨ds, [], true, ?_, by simp [h2], by simpa using h3, rfl⟩
    rw [List.append_assoc, h4]
    simp only [Bool.false_eq_true, if_false, List.nil_append, List.singleton_append]
    rw [mant_dot]
    exact mant_stop hr true (.inl rfl) ds []
  | both g f =>
    obtain ⟨ds, h1, h2, h3, h4⟩ := g.digits
    obtain ⟨es, k1, k2, k3, k4⟩ := f.digits
    refine ⟨ds, es, true, ?_, by simp [h2], ?_, k1⟩
    · rw [List.append_assoc, List.append_assoc, h4]
      simp only [Bool.false_eq_true, if_false, List.nil_append, List.singleton_append]
      rw [mant_dot, k4]
      simpa using mant_stop hr true (.inl rfl) ds es
    · rw [valueIn, List.foldl_append, foldl_base, k1, k3]
      exact congrArg (· * _ + _) h3
  | frac f =>
    obtain ⟨es, k1, k2, k3, k4⟩ := f.digits
    refine ⟨[], es, true, ?_, by simp [k2], by simpa using k3, k1⟩
    rw [List.append_assoc, List.singleton_append, mant_dot, k4]
    simpa using mant_stop hr true (.inl rfl) [] es

theorem More.le {b : Nat} (hb : 1 ≤ b) {s : Bytes} {n m k : Nat} (h : More b s n m k) : n ≤ m := by
  induction h with
  | nil => exact Nat.le_refl _
  | dig _ _ ih => exact le_trans (by nlinarith) ih
  | und _ _ ih => exact le_trans (by nlinarith) ih

theorem exp_digit {c : UInt8} {d : Nat} (h : DigitOf 10 c d) (s : Bytes) (e : Nat) (he : 10 * e + d < 100000) : expLoop (c :: s) e = expLoop s (10 * e + d) := by
  have hd := (digit_bytes c).1.mpr ⟨d, h⟩
  have hv := h.val (by norm_num)
  unfold digitVal at hv
  rw [if_pos hd] at hv
  rw [expLoop, if_neg (digit_ne h (by norm_num)), if_pos hd, if_pos (by omega), Option.some.inj hv, Nat.mul_comm]

theorem More.exp {s : Bytes} {n m k : Nat} (h : More 10 s n m k) (hm : m < 100000) : expLoop s n = (m, []) := by
  induction h with
  | nil => rfl
  | dig hd r ih => rw [exp_digit hd _ _ (lt_of_le_of_lt (r.le (by norm_num)) hm), ih hm]
  | und hd r ih => rw [expLoop, if_pos rfl, exp_digit hd _ _ (lt_of_le_of_lt (r.le (by norm_num)) hm), ih hm]

theorem Grouped.exp {s : Bytes} {n k : Nat} (h : Grouped 10 s n k) (hn : n < 100000) : expLoop s 0 = (n, []) ∧ ∃ c t, s = c :: t ∧ decByte c = true := by
  obtain ⟨c, t, d, j, rfl, h1, h2, rfl⟩ := h.toMore
  refine ⟨?_, c, t, rfl, (digit_bytes c).1.mpr ⟨d, h1⟩⟩
  have := h1.1
  rw [exp_digit h1 _ _ (by omega)]
  simpa using h2.exp hn

theorem dropSign_digit {c : UInt8} {t : Bytes} (h : decByte c = true) : dropSign (c :: t) = c :: t := by
  unfold dropSign
  split
  · rename_i e; rw [(List.cons.inj e).1] at h; cases h
  · rename_i e; rw [(List.cons.inj e).1] at h; cases h
  · rfl

theorem ExpText.part {s : Bytes} {e : Int} (h : ExpText s e) (he : e.natAbs < 100000) : expPart s = some (e, []) := by
  cases h with
  | plain g =>
    obtain ⟨h1, c, t, rfl, hc⟩ := g.exp (by simpa using he)
    unfold expPart
    rw [dropSign_digit hc]
    simp only [hc, if_true, h1]
    rw [if_neg]
    intro h
    rw [Option.some.inj h] at hc
    cases hc
  | plus g =>
    obtain ⟨h1, c, t, rfl, hc⟩ := g.exp (by simpa using he)
    unfold expPart
    simp only [dropSign, hc, if_true, h1]
    rfl
  | minus g =>
    obtain ⟨h1, c, t, rfl, hc⟩ := g.exp (by simpa using he)
    unfold expPart
    simp only [dropSign, hc, if_true, h1]
    rfl

theorem readFloat_of (s : Bytes) (hex : Bool) (hh : isHex s = hex) (a b : List Nat) (dot : Bool) (r : Bytes)
    (hm : mantLoop hex (if hex then s.drop 2 else s) false [] [] = (a, b, dot, r)) (hab : ¬ (a = [] ∧ b = [])) :
    readFloat s = afterMant hex a b r := by
  unfold readFloat
  rw [hh]
  simp only [hm]
  rw [if_neg hab]

theorem mantissa_head {b : Nat} {s : Bytes} {n j : Nat} (h : Mantissa b s n j) : ∃ c t, s = c :: t ∧ (c = 46 ∨ ∃ d, DigitOf b c d) := by
  cases h with
  | int g => obtain ⟨c, t, d, rfl, hd⟩ := g.head; exact ⟨c, t, rfl, .inr ⟨d, hd⟩⟩
  | point g => obtain ⟨c, t, d, rfl, hd⟩ := g.head; exact ⟨c, _, rfl, .inr ⟨d, hd⟩⟩
  | both g _ => obtain ⟨c, t, d, rfl, hd⟩ := g.head; exact ⟨c, _, rfl, .inr ⟨d, hd⟩⟩
  | frac f => exact ⟨46, _, rfl, .inl rfl⟩

/-- the second character of a mantissa is a digit, an underscore or a point -/
theorem mantissa_second {s : Bytes} {n j : Nat} (h : Mantissa 10 s n j) (r : Bytes) (c : UInt8) (t : Bytes)
    (e : s ++ r = 48 :: c :: t) : decByte c = true ∨ c = 95 ∨ c = 46 ∨ r = c :: t := by
  have more : ∀ {w : Bytes} {n m k : Nat} {r : Bytes}, More 10 w n m k → w ++ r = c :: t → decByte c = true ∨ c = 95 ∨ r = c :: t := by
    intro w n m k r hm e
    cases hm with
    | nil => exact .inr (.inr e)
    | dig hd _ => rw [← (List.cons.inj e).1]; exact .inl ((digit_bytes _).1.mpr ⟨_, hd⟩)
    | und hd _ => exact .inr (.inl (List.cons.inj e).1.symm)
  have grp : ∀ {w : Bytes} {n k : Nat} {r : Bytes}, Grouped 10 w n k → w ++ r = 48 :: c :: t → decByte c = true ∨ c = 95 ∨ r = c :: t := by
    intro w n k r g e
    obtain ⟨c', w', d, j, rfl, -, h2, -⟩ := g.toMore
    exact more h2 (List.cons.inj e).2
  cases h with
  | int g => rcases grp g e with h | h | h <;> simp [h]
  | point g =>
    rw [List.append_assoc] at e
    rcases grp g e with h | h | h
    · simp [h]
    · simp [h]
    · exact .inr (.inr (.inl (List.cons.inj h).1.symm))
  | both g f =>
    rw [List.append_assoc, List.append_assoc] at e
    rcases grp g e with h | h | h
    · simp [h]
    · simp [h]
    · exact .inr (.inr (.inl (List.cons.inj h).1.symm))
  | frac f => cases e

theorem isHex_false {s : Bytes} {n j : Nat} (h : Mantissa 10 s n j) (r : Bytes) (hr : ∀ c t, r = c :: t → lowerByte c = 101) : isHex (s ++ r) = false := by
  unfold isHex
  split
  · rename_i c x t e
    have k : ∀ c : UInt8, decByte c = true ∨ c = 95 ∨ c = 46 ∨ lowerByte c = 101 → (lowerByte c == 120) = false :=
      bytes_all (by decide +kernel)
    apply k
    rcases mantissa_second h r c (x :: t) e with h | h | h | h
    · exact .inl h
    · exact .inr (.inl h)
    · exact .inr (.inr (.inl h))
    · exact .inr (.inr (.inr (hr _ _ h)))
  · rfl

theorem letter_stops (hex : Bool) (c : UInt8) (t : Bytes) (h : lowerByte c = if hex then 112 else 101) : Stops hex (c :: t) ∧ (c :: t).head? ≠ some 46 := by
  have k : ∀ c : UInt8, (lowerByte c = 112 → okDigit true c = false ∧ c ≠ 95 ∧ c ≠ 46) ∧ (lowerByte c = 101 → okDigit false c = false ∧ c ≠ 95 ∧ c ≠ 46) :=
    bytes_all (by decide +kernel)
  have : okDigit hex c = false ∧ c ≠ 95 ∧ c ≠ 46 := by
    cases hex
    · exact (k c).2 h
    · exact (k c).1 h
  refine ⟨?_, by simpa using this.2.2⟩
  intro c' t' e
  rw [← (List.cons.inj e).1]
  exact ⟨this.1, this.2.1⟩

theorem pow10_eq' (e : Int) : pow10 e = (10 : ℚ) ^ e := by
  cases e with
  | ofNat n => simp [pow10]
  | negSucc n => simp [pow10, zpow_negSucc]

/-- a literal is read as the number it denotes -/
theorem RealText.read {s : Bytes} {v : ℚ} {e : Int} (h : RealText s v e) (he : e.natAbs < 100000) : readFloat s = some v := by
  cases h with
  | dec m =>
    rename_i n j
    have hs : isHex s = false := by simpa using isHex_false m [] (by simp)
    obtain ⟨a, b, dot, h1, h2, h3, h4⟩ := Mantissa.loop (hex := false) m [] (by intro c t h; cases h) (by simp)
    rw [List.append_nil] at h1
    rw [readFloat_of s false hs a b dot [] h1 h2]
    have h3 : valueIn (if false then 16 else 10) (a ++ b) = n := h3
    unfold afterMant
    dsimp only
    rw [if_neg (by simp), h3, h4, pow10_eq', zpow_neg, zpow_natCast, div_eq_mul_inv]
  | decExp m hc x =>
    rename_i s t c n j
    have hl : lowerByte c = 101 := by rcases hc with rfl | rfl <;> decide
    have hs : isHex (s ++ (c :: t)) = false := isHex_false m _ (by intro c' t' h; rw [← (List.cons.inj h).1]; exact hl)
    obtain ⟨k1, k2⟩ := letter_stops false c t hl
    obtain ⟨a, b, dot, h1, h2, h3, h4⟩ := Mantissa.loop (hex := false) m (c :: t) k1 k2
    rw [List.append_assoc, List.singleton_append, readFloat_of _ false hs a b dot (c :: t) h1 h2]
    have h3 : valueIn (if false then 16 else 10) (a ++ b) = n := h3
    unfold afterMant
    dsimp only
    rw [if_pos (show lowerByte c = if false then 112 else 101 from hl), x.part he]
    dsimp only
    rw [if_neg (by simp), h3, h4, pow10_eq', zpow_sub₀ (by norm_num), zpow_natCast]
    congr 1
    ring
  | hex hx hu m hc y =>
    rename_i u s t x c n j
    have hl : lowerByte c = 112 := by rcases hc with rfl | rfl <;> decide
    obtain ⟨k1, k2⟩ := letter_stops true c t hl
    obtain ⟨a, b, dot, h1, h2, h3, h4⟩ := Mantissa.loop (hex := true) m (c :: t) k1 k2
    have hm : mantLoop true (u ++ (s ++ (c :: t))) false [] [] = (a, b, dot, c :: t) := by
      rcases hu with rfl | ⟨rfl, -⟩
      · exact h1
      · rw [List.singleton_append, mant_under]; exact h1
    have e0 : [48, x] ++ u ++ s ++ [c] ++ t = 48 :: x :: (u ++ (s ++ (c :: t))) := by simp
    rw [e0]
    have hs : isHex (48 :: x :: (u ++ (s ++ (c :: t)))) = true := by
      obtain ⟨y, z, e⟩ : ∃ y z, u ++ (s ++ (c :: t)) = y :: z := by
        obtain ⟨c', t', rfl, -⟩ := mantissa_head m
        rcases hu with rfl | ⟨rfl, -⟩ <;> exact ⟨_, _, rfl⟩
      rw [e]
      show (lowerByte x == 120) = true
      rcases hx with rfl | rfl <;> decide
    rw [readFloat_of _ true hs a b dot (c :: t) (by simpa using hm) h2]
    have h3 : valueIn (if true then 16 else 10) (a ++ b) = n := h3
    unfold afterMant
    dsimp only
    rw [if_pos (show lowerByte c = if true then 112 else 101 from hl), y.part he]
    dsimp only
    rw [if_pos rfl, h3, h4, pow2_eq, zpow_sub₀ (by norm_num)]
    congr 1
    rw [zpow_mul, show ((2 : ℚ) ^ (4 : ℤ)) = 16 by norm_num, zpow_natCast]
    ring

/-! ### underscores -/

theorem More.underscore {hex : Bool} {b : Nat} (hb : b ≤ baseOf hex) {s : Bytes} {n m k : Nat} (h : More b s n m k) (r : Bytes) :
    underscoreLoop hex .digit (s ++ r) = underscoreLoop hex .digit r := by
  have hb' : b ≤ if hex then 16 else 10 := hb
  induction h with
  | nil => rfl
  | dig hd _ ih => rw [List.cons_append, underscore_digit (okDigit_of hd hb'), ih]
  | und hd _ ih => rw [List.cons_append, underscore_under, List.cons_append, underscore_digit (okDigit_of hd hb'), ih]; rfl

theorem Grouped.underscore {hex : Bool} {b : Nat} (hb : b ≤ baseOf hex) {s : Bytes} {n k : Nat} (h : Grouped b s n k) (r : Bytes) (i : Prev) :
    underscoreLoop hex i (s ++ r) = underscoreLoop hex .digit r := by
  obtain ⟨c, t, d, j, rfl, h1, h2, rfl⟩ := h.toMore
  rw [List.cons_append, underscore_digit (okDigit_of h1 hb), h2.underscore hb]

theorem underscore_other {hex : Bool} {c : UInt8} (h : okDigit hex c = false) (h95 : c ≠ 95) (i : Prev) (s : Bytes) :
    underscoreLoop hex i (c :: s) = (i != .under && underscoreLoop hex .other s) := by
  rw [underscoreLoop]
  rw [if_neg (by unfold okDigit at h; rw [h]; decide), if_neg h95]

theorem point_other (hex : Bool) : okDigit hex 46 = false := by cases hex <;> decide
theorem sign_other (hex : Bool) : okDigit hex 43 = false ∧ okDigit hex 45 = false := by cases hex <;> decide

theorem Mantissa.underscore {hex : Bool} {s : Bytes} {n j : Nat} (h : Mantissa (baseOf hex) s n j) (r : Bytes) (i : Prev) (hi : i ≠ .under)
    (hr : ∀ i : Prev, i ≠ .under → underscoreLoop hex i r = true) : underscoreLoop hex i (s ++ r) = true := by
  cases h with
  | int g => rw [g.underscore (Nat.le_refl _)]; exact hr _ (by simp)
  | point g =>
    rw [List.append_assoc, g.underscore (Nat.le_refl _), List.singleton_append, underscore_other (point_other hex) (by decide), hr _ (by simp)]
    rfl
  | both g f =>
    rw [List.append_assoc, List.append_assoc, g.underscore (Nat.le_refl _), List.singleton_append, underscore_other (point_other hex) (by decide),
      f.underscore (Nat.le_refl _), hr _ (by simp)]
    rfl
  | frac f =>
    rw [List.append_assoc, List.singleton_append, underscore_other (point_other hex) (by decide), f.underscore (Nat.le_refl _), hr _ (by simp)]
    simpa using hi

theorem ExpText.underscore {s : Bytes} {e : Int} (h : ExpText s e) (hex : Bool) : underscoreLoop hex .other s = true := by
  have hb : 10 ≤ baseOf hex := by cases hex <;> decide
  cases h with
  | plain g => have := g.underscore hb [] .other; rw [List.append_nil] at this; rw [this]; rfl
  | plus g =>
    rw [underscore_other (sign_other hex).1 (by decide)]
    have := g.underscore hb [] .other; rw [List.append_nil] at this; rw [this]; rfl
  | minus g =>
    rw [underscore_other (sign_other hex).2 (by decide)]
    have := g.underscore hb [] .other; rw [List.append_nil] at this; rw [this]; rfl

theorem letter_underscore {hex : Bool} {c : UInt8} {t : Bytes} {e : Int} (h : lowerByte c = if hex then 112 else 101) (x : ExpText t e) (i : Prev) (hi : i ≠ .under) :
    underscoreLoop hex i (c :: t) = true := by
  obtain ⟨k, -⟩ := letter_stops hex c t h
  obtain ⟨k1, k2⟩ := k c t rfl
  rw [underscore_other k1 k2, x.underscore]
  simpa using hi

/-- a number does not start with a sign -/
theorem realText_head {s : Bytes} {v : ℚ} {e : Int} (h : RealText s v e) : ∃ c t, s = c :: t ∧ (c = 46 ∨ decByte c = true) := by
  have k : ∀ {s n j}, Mantissa 10 s n j → ∃ c t, s = c :: t ∧ (c = 46 ∨ decByte c = true) := by
    intro s n j m
    obtain ⟨c, t, rfl, h⟩ := mantissa_head m
    exact ⟨c, t, rfl, h.imp id fun h => (digit_bytes c).1.mpr h⟩
  cases h with
  | dec m => exact k m
  | decExp m _ _ =>
    obtain ⟨c, t, rfl, h⟩ := k m
    exact ⟨c, _, rfl, h⟩
  | hex _ _ _ _ _ => exact ⟨48, _, rfl, .inr rfl⟩

theorem realText_dropSign {s : Bytes} {v : ℚ} {e : Int} (h : RealText s v e) : dropSign s = s := by
  obtain ⟨c, t, e, h⟩ := realText_head h
  rw [e]
  rcases h with rfl | h
  · rfl
  · exact dropSign_digit h

theorem underscoreOK_hex (s : Bytes) (h : dropSign s = s) (hh : isHex s = true) : underscoreOK s = underscoreLoop true .digit (s.drop 2) := by
  match s, h with
  | [], _ => cases hh
  | [_], _ => simp [isHex] at hh
  | [a, b], _ => unfold isHex at hh; split at hh <;> simp_all
  | a :: c :: x :: t, h =>
    by_cases ha : a = 48
    · subst ha
      have : lowerByte c = 120 := by simpa [isHex] using hh
      show (if lowerByte c = 98 ∨ lowerByte c = 111 ∨ lowerByte c = 120 then underscoreLoop (lowerByte c == 120) .digit (x :: t) else _) = _
      rw [if_pos (by simp [this]), this]
      rfl
    · unfold isHex at hh
      split at hh
      · rename_i e; exact absurd (List.cons.inj e).1 ha
      · cases hh

theorem underscoreOK_dec (s : Bytes) (h : dropSign s = s) (hn : ∀ c t, s = 48 :: c :: t → ¬ (lowerByte c = 98 ∨ lowerByte c = 111 ∨ lowerByte c = 120)) :
    underscoreOK s = underscoreLoop false .start s := by
  unfold underscoreOK
  rw [h]
  split
  · rename_i c t
    rw [if_neg (hn c t rfl)]
  · rfl

theorem RealText.underscore {s : Bytes} {v : ℚ} {e : Int} (h : RealText s v e) : underscoreOK s = true := by
  have hds := realText_dropSign h
  -- the second character of a decimal number is no letter of a prefix
  have plain : ∀ {s r n j}, Mantissa 10 s n j → (∀ c t, r = c :: t → lowerByte c = 101) → dropSign (s ++ r) = s ++ r →
      underscoreOK (s ++ r) = underscoreLoop false .start (s ++ r) := by
    intro s r n j m hr hl
    refine underscoreOK_dec _ hl ?_
    intro c t hst
    have k : ∀ c : UInt8, decByte c = true ∨ c = 95 ∨ c = 46 ∨ lowerByte c = 101 → ¬ (lowerByte c = 98 ∨ lowerByte c = 111 ∨ lowerByte c = 120) :=
      bytes_all (by decide +kernel)
    apply k
    rcases mantissa_second m r c t hst with h | h | h | h
    · exact .inl h
    · exact .inr (.inl h)
    · exact .inr (.inr (.inl h))
    · exact .inr (.inr (.inr (hr _ _ h)))
  cases h with
  | dec m =>
    have hl := Mantissa.underscore (hex := false) m [] .start (by simp) (by intro i hi; simpa [underscoreLoop] using hi)
    have := plain m (r := []) (by simp) (by simpa using hds)
    rw [List.append_nil] at this hl
    rw [this, hl]
  | decExp m hc x =>
    rename_i s t c n j
    have hl : lowerByte c = 101 := by rcases hc with rfl | rfl <;> decide
    have h1 := Mantissa.underscore (hex := false) m (c :: t) .start (by simp) (letter_underscore hl x)
    rw [List.append_assoc, List.singleton_append] at hds ⊢
    rw [plain m (r := c :: t) (by intro c' t' h; rw [← (List.cons.inj h).1]; exact hl) hds, h1]
  | hex hx hu m hc y =>
    rename_i u s t x c n j
    have hl : lowerByte c = 112 := by rcases hc with rfl | rfl <;> decide
    have e0 : [48, x] ++ u ++ s ++ [c] ++ t = 48 :: x :: (u ++ (s ++ (c :: t))) := by simp
    have hs : isHex (48 :: x :: (u ++ (s ++ (c :: t)))) = true := by
      obtain ⟨y, z, e⟩ : ∃ y z, u ++ (s ++ (c :: t)) = y :: z := by
        obtain ⟨c', t', rfl, -⟩ := mantissa_head m
        rcases hu with rfl | ⟨rfl, -⟩ <;> exact ⟨_, _, rfl⟩
      rw [e]
      show (lowerByte x == 120) = true
      rcases hx with rfl | rfl <;> decide
    rw [e0] at hds ⊢
    rw [underscoreOK_hex _ hds hs]
    show underscoreLoop true .digit (u ++ (s ++ (c :: t))) = true
    have body := fun i hi => Mantissa.underscore (hex := true) m (c :: t) i hi (letter_underscore hl y)
    rcases hu with rfl | ⟨rfl, h46⟩
    · exact body .digit (by simp)
    · rw [List.singleton_append, underscore_under]
      -- after the underscore there is a digit
      obtain ⟨c', t', rfl, hd⟩ := mantissa_head m
      rcases hd with rfl | ⟨d, hd⟩
      · exact absurd rfl h46
      · have := body .digit (by simp)
        rw [List.cons_append, underscore_digit (okDigit_of hd (by simp))] at this ⊢
        simpa using this

/-! ### Nothing else is accepted -/

theorem run_split (p : UInt8 → Prop) [DecidablePred p] (s : Bytes) : ∃ w r, s = w ++ r ∧ (∀ c ∈ w, p c) ∧ ∀ c t, r = c :: t → ¬ p c := by
  induction s with
  | nil => exact ⟨[], [], rfl, by simp, by simp⟩
  | cons c s ih =>
    by_cases h : p c
    · obtain ⟨w, r, rfl, h1, h2⟩ := ih
      exact ⟨c :: w, r, rfl, by simpa [h] using h1, h2⟩
    · exact ⟨[], c :: s, rfl, by simp, by rintro _ _ e; rw [← (List.cons.inj e).1]; exact h⟩

theorem stop_under {hex : Bool} {r : Bytes} (h : Stops hex r) : underscoreLoop hex .under r = false := by
  match r with
  | [] => rfl
  | c :: t =>
    obtain ⟨h1, h2⟩ := h c t rfl
    rw [underscore_other h1 h2]
    rfl

/-- a run of digits and underscores after a digit -/
theorem run_more {hex : Bool} {b : Nat} (hb : b ≤ baseOf hex) {r : Bytes} (hr : Stops hex r) (w : Bytes) (hw : ∀ c ∈ w, (∃ d, DigitOf b c d) ∨ c = 95)
    (hu : underscoreLoop hex .digit (w ++ r) = true) (n : Nat) : (∃ m k, More b w n m k) ∧ underscoreLoop hex .digit r = true := by
  have hb' : b ≤ if hex then 16 else 10 := hb
  induction hl : w.length using Nat.strong_induction_on generalizing w n with
  | _ L IH =>
    match w with
    | [] => exact ⟨⟨n, 0, .nil⟩, hu⟩
    | c :: w =>
      rw [List.forall_mem_cons] at hw
      obtain ⟨hc, hw⟩ := hw
      rw [List.length_cons] at hl
      rcases hc with ⟨d, hd⟩ | rfl
      · rw [List.cons_append, underscore_digit (okDigit_of hd hb')] at hu
        obtain ⟨⟨m, k, h⟩, h'⟩ := IH w.length (by omega) w hw hu (b * n + d) rfl
        exact ⟨⟨m, _, .dig hd h⟩, h'⟩
      · rw [List.cons_append, underscore_under] at hu
        match w with
        | [] =>
          rw [List.nil_append, stop_under hr] at hu
          cases hu
        | c :: w =>
          rw [List.forall_mem_cons] at hw
          obtain ⟨hc, hw⟩ := hw
          rcases hc with ⟨d, hd⟩ | rfl
          · rw [List.cons_append, underscore_digit (okDigit_of hd hb')] at hu
            obtain ⟨⟨m, k, h⟩, h'⟩ := IH w.length (by rw [List.length_cons] at hl; omega) w hw hu (b * n + d) rfl
            exact ⟨⟨m, _, .und hd h⟩, h'⟩
          · rw [List.cons_append, underscore_under] at hu
            cases hu

/-- a run of digits and underscores where no digit came before -/
theorem run_grouped {hex : Bool} {b : Nat} (hb : b ≤ baseOf hex) {r : Bytes} (hr : Stops hex r) (w : Bytes) (hw : ∀ c ∈ w, (∃ d, DigitOf b c d) ∨ c = 95)
    (i : Prev) (hi : i ≠ .digit) (hu : underscoreLoop hex i (w ++ r) = true) :
    (w = [] ∧ underscoreLoop hex i r = true) ∨ ∃ n k, Grouped b w n k ∧ underscoreLoop hex .digit r = true := by
  have hb' : b ≤ if hex then 16 else 10 := hb
  match w with
  | [] => exact .inl ⟨rfl, hu⟩
  | c :: w =>
    rw [List.forall_mem_cons] at hw
    rcases hw.1 with ⟨d, hd⟩ | rfl
    · rw [List.cons_append, underscore_digit (okDigit_of hd hb')] at hu
      obtain ⟨⟨m, k, h⟩, h'⟩ := run_more hb hr w hw.2 hu d
      exact .inr ⟨m, k + 1, grouped_iff.mpr ⟨c, w, d, k, rfl, hd, h, rfl⟩, h'⟩
    · rw [List.cons_append, underscore_under, Bool.and_eq_true, beq_iff_eq] at hu
      exact absurd hu.1 hi

/-- the digits at the start of a text -/
theorem run_start (hex : Bool) (s : Bytes) : ∃ w r, s = w ++ r ∧ (∀ c ∈ w, (∃ d, DigitOf (baseOf hex) c d) ∨ c = 95) ∧ Stops hex r := by
  obtain ⟨w, r, h, h1, h2⟩ := run_split (fun c => okDigit hex c = true ∨ c = 95) s
  refine ⟨w, r, h, fun c hc => (h1 c hc).imp (fun h => (okDigit_iff hex c).mp h) id, fun c t e => ?_⟩
  have := h2 c t e
  simp only [not_or, Bool.not_eq_true] at this
  exact this

theorem mant_inv (hex : Bool) (s : Bytes) (hu : underscoreLoop hex .start s = true) :
    ∃ w r a b dot, s = w ++ r ∧ mantLoop hex s false [] [] = (a, b, dot, r) ∧ ((a = [] ∧ b = []) ∨ ∃ n j, Mantissa (baseOf hex) w n j) ∧
      ∃ i : Prev, i ≠ .under ∧ underscoreLoop hex i r = true := by
  obtain ⟨w, r, rfl, hw, hr⟩ := run_start hex s
  -- the digits before the point
  have first : (w = [] ∧ underscoreLoop hex .start r = true) ∨ ∃ n k, Grouped (baseOf hex) w n k ∧ underscoreLoop hex .digit r = true :=
    run_grouped (Nat.le_refl _) hr w hw .start (by simp) hu
  have hloop : ∃ a, (∀ r, mantLoop hex (w ++ r) false [] [] = mantLoop hex r false a []) ∧ (w = [] → a = []) := by
    rcases first with ⟨rfl, -⟩ | ⟨n, k, g, -⟩
    · exact ⟨[], fun r => rfl, fun _ => rfl⟩
    · obtain ⟨ds, -, -, -, h4⟩ := g.digits
      exact ⟨ds, fun r => by simpa using h4 r false [] [], fun h => absurd h g.ne_nil⟩
  obtain ⟨a, ha, hw0⟩ := hloop
  by_cases h46 : r.head? = some 46
  · obtain ⟨s2, rfl⟩ : ∃ s2, r = 46 :: s2 := by
      match r with
      | [] => cases h46
      | c :: t => exact ⟨t, by rw [Option.some.inj h46]⟩
    obtain ⟨w2, r2, rfl, hw2, hr2⟩ := run_start hex s2
    have hu2 : underscoreLoop hex .other (w2 ++ r2) = true := by
      have := first.elim (fun h => h.2) (fun ⟨_, _, h⟩ => h.2)
      rcases first with ⟨-, h⟩ | ⟨_, _, -, h⟩ <;>
      · rw [underscore_other (point_other hex) (by decide)] at h
        simpa using h
    rcases run_grouped (Nat.le_refl _) hr2 w2 hw2 .other (by simp) hu2 with ⟨rfl, h2⟩ | ⟨m, j, f, h2⟩
    · refine ⟨w ++ [46], r2, a, [], true, by simp, ?_, ?_, .other, by simp, h2⟩
      · rw [ha, List.nil_append, mant_dot]
        exact mant_stop hr2 true (.inl rfl) a []
      · rcases first with ⟨h, -⟩ | ⟨n, k, g, -⟩
        · exact .inl ⟨hw0 h, rfl⟩
        · exact .inr ⟨n, 0, .point g⟩
    · obtain ⟨es, -, -, -, k4⟩ := f.digits
      refine ⟨w ++ [46] ++ w2, r2, a, es, true, by simp, ?_, ?_, .digit, by simp, h2⟩
      · rw [ha, mant_dot, k4]
        simpa using mant_stop hr2 true (.inl rfl) a es
      · rcases first with ⟨rfl, -⟩ | ⟨n, k, g, -⟩
        · exact .inr ⟨m, j, .frac f⟩
        · exact .inr ⟨_, j, .both g f⟩
  · refine ⟨w, r, a, [], false, rfl, ?_, ?_, ?_⟩
    · rw [ha]
      exact mant_stop hr false (.inr h46) a []
    · rcases first with ⟨h, -⟩ | ⟨n, k, g, -⟩
      · exact .inl ⟨hw0 h, rfl⟩
      · exact .inr ⟨n, 0, .int g⟩
    · rcases first with ⟨-, h⟩ | ⟨n, k, -, h⟩
      · exact ⟨.start, by simp, h⟩
      · exact ⟨.digit, by simp, h⟩

theorem expLoop_end (s : Bytes) (e : Nat) (h : (expLoop s e).2 = []) : ∀ c ∈ s, (∃ d, DigitOf 10 c d) ∨ c = 95 := by
  induction s generalizing e with
  | nil => simp
  | cons c s ih =>
    rw [expLoop] at h
    split at h
    · rename_i hc
      rw [List.forall_mem_cons]
      exact ⟨.inr hc, ih _ h⟩
    · split at h
      · rename_i hd
        rw [List.forall_mem_cons]
        exact ⟨.inl ((digit_bytes c).1.mp hd), ih _ h⟩
      · cases h

theorem exp_inv (hex : Bool) (t : Bytes) (e : Int) (h : expPart t = some (e, [])) (hu : underscoreLoop hex .other t = true) : ∃ e', ExpText t e' := by
  have hb : 10 ≤ baseOf hex := by cases hex <;> decide
  have grp : ∀ c s, decByte c = true → (expLoop (c :: s) 0).2 = [] → underscoreLoop hex .other (c :: s) = true → ∃ n k, Grouped 10 (c :: s) n k := by
    intro c s _ h hu
    rcases run_grouped hb (r := []) (by intro c t h; cases h) (c :: s) (expLoop_end _ _ h) .other (by simp) (by simpa using hu) with ⟨h, -⟩ | ⟨n, k, g, -⟩
    · cases h
    · exact ⟨n, k, g⟩
  unfold expPart at h
  cases hds : dropSign t with
  | nil => rw [hds] at h; cases h
  | cons c s =>
    rw [hds] at h
    dsimp only at h
    split at h
    · rename_i hc
      have hrest : (expLoop (c :: s) 0).2 = [] := (Prod.ext_iff.mp (Option.some.inj h)).2
      unfold dropSign at hds
      split at hds
      · subst hds
        rw [underscore_other (sign_other hex).1 (by decide)] at hu
        obtain ⟨n, k, g⟩ := grp c s hc hrest (by simpa using hu)
        exact ⟨_, .plus g⟩
      · subst hds
        rw [underscore_other (sign_other hex).2 (by decide)] at hu
        obtain ⟨n, k, g⟩ := grp c s hc hrest (by simpa using hu)
        exact ⟨_, .minus g⟩
      · subst hds
        obtain ⟨n, k, g⟩ := grp c s hc hrest hu
        exact ⟨_, .plain g⟩
    · cases h

theorem letter_cases (c : UInt8) : (lowerByte c = 101 ↔ c = 101 ∨ c = 69) ∧ (lowerByte c = 112 ↔ c = 112 ∨ c = 80) :=
  bytes_all (P := fun c => (lowerByte c = 101 ↔ c = 101 ∨ c = 69) ∧ (lowerByte c = 112 ↔ c = 112 ∨ c = 80)) (by decide +kernel) c

/-- every text that is read is a literal -/
theorem readFloat_inv (s : Bytes) (v : ℚ) (h : readFloat s = some v) (hd : dropSign s = s) (hu : underscoreOK s = true) : ∃ v' e, RealText s v' e := by
  cases hh : isHex s with
  | false =>
    -- decimal
    by_cases hpre : ∃ c t, s = 48 :: c :: t ∧ (lowerByte c = 98 ∨ lowerByte c = 111 ∨ lowerByte c = 120)
    · exfalso
      obtain ⟨c, t, rfl, hc⟩ := hpre
      have k : ∀ c : UInt8, (lowerByte c = 98 ∨ lowerByte c = 111 ∨ lowerByte c = 120) → okDigit false c = false ∧ c ≠ 95 ∧ c ≠ 46 ∧ lowerByte c ≠ 101 :=
        bytes_all (by decide +kernel)
      obtain ⟨k1, k2, k3, k4⟩ := k c hc
      have hm : mantLoop false (48 :: c :: t) false [] [] = ([0], [], false, c :: t) := by
        rw [mant_digit (hex := false) (c := 48) (d := 0) ⟨by decide, .inl ⟨by decide, rfl⟩⟩]
        refine mant_stop ?_ false (.inr (by simpa using k3)) [0] []
        intro c' t' e
        rw [← (List.cons.inj e).1]
        exact ⟨k1, k2⟩
      rw [readFloat_of _ false hh [0] [] false (c :: t) (by simpa using hm) (by simp)] at h
      unfold afterMant at h
      dsimp only at h
      rw [if_neg (by simpa using k4)] at h
      cases h
    · have hok : underscoreOK s = underscoreLoop false .start s := underscoreOK_dec s hd fun c t e hc => hpre ⟨c, t, e, hc⟩
      rw [hok] at hu
      obtain ⟨w, r, a, b, dot, rfl, hm, hab, i, hi, hr⟩ := mant_inv false s hu
      rcases hab with hab | ⟨n, j, m⟩
      · unfold readFloat at h
        rw [hh] at h
        simp only [Bool.false_eq_true, if_false, hm, hab.1, hab.2, and_self, if_true] at h
        cases h
      · by_cases hab : a = [] ∧ b = []
        · unfold readFloat at h
          rw [hh] at h
          simp only [Bool.false_eq_true, if_false, hm, hab.1, hab.2, and_self, if_true] at h
          cases h
        rw [readFloat_of _ false hh a b dot r (by simpa using hm) hab] at h
        unfold afterMant at h
        match r with
        | [] => exact ⟨_, _, by rw [List.append_nil]; exact .dec m⟩
        | c :: t =>
          dsimp only at h
          by_cases hc : lowerByte c = 101
          · rw [if_pos (show lowerByte c = if false = true then 112 else 101 from hc)] at h
            obtain ⟨k, -⟩ := letter_stops false c t hc
            obtain ⟨k1, k2⟩ := k c t rfl
            rw [underscore_other k1 k2, Bool.and_eq_true] at hr
            split at h
            · rename_i e he
              obtain ⟨e', x⟩ := exp_inv false t e he hr.2
              have := RealText.decExp m ((letter_cases c).1.mp hc) x
              exact ⟨_, _, by simpa using this⟩
            · cases h
          · rw [if_neg (show ¬ lowerByte c = if false = true then 112 else 101 from hc)] at h
            cases h
  | true =>
    rw [underscoreOK_hex s hd hh] at hu
    obtain ⟨x, t0, rfl, hx⟩ : ∃ x t0, s = 48 :: x :: t0 ∧ (x = 120 ∨ x = 88) := by
      unfold isHex at hh
      split at hh
      · rename_i c y t
        exact ⟨c, y :: t, rfl, (prefix_cases c).2.2.mp (by simpa using hh)⟩
      · cases hh
    have hu : underscoreLoop true .digit t0 = true := hu
    -- an underscore after the prefix
    obtain ⟨u, t1, rfl, hu1, hu2, hloop⟩ : ∃ u t1, t0 = u ++ t1 ∧ (u = [] ∨ u = [95] ∧ t1.head? ≠ some 46) ∧ underscoreLoop true .start t1 = true ∧
        mantLoop true t0 false [] [] = mantLoop true t1 false [] [] := by
      match t0 with
      | [] => exact ⟨[], [], rfl, .inl rfl, rfl, rfl⟩
      | c :: t =>
        by_cases hc : c = 95
        · subst hc
          rw [underscore_under, Bool.and_eq_true] at hu
          refine ⟨[95], t, rfl, .inr ⟨rfl, ?_⟩, ?_, mant_under _ _ _ _ _⟩
          · intro h
            match t with
            | [] => cases h
            | d :: t =>
              rw [Option.some.inj h] at hu
              rw [underscore_other (point_other true) (by decide)] at hu
              exact absurd hu.2 (by simp)
          · match t with
            | [] => cases hu.2
            | d :: t =>
              by_cases hd : okDigit true d = true
              · rw [underscore_digit hd] at hu ⊢
                exact hu.2
              · by_cases h95 : d = 95
                · subst h95
                  rw [underscore_under] at hu
                  exact absurd hu.2 (by simp)
                · rw [underscore_other (by simpa using hd) h95] at hu
                  exact absurd hu.2 (by simp)
        · refine ⟨[], c :: t, rfl, .inl rfl, ?_, rfl⟩
          by_cases hd : okDigit true c = true
          · rw [underscore_digit hd] at hu ⊢
            exact hu
          · rw [underscore_other (by simpa using hd) hc] at hu ⊢
            simpa using hu
    obtain ⟨w, r, a, b, dot, rfl, hm, hab, i, hi, hr⟩ := mant_inv true t1 hu2
    rw [hm] at hloop
    rcases hab with hab | ⟨n, j, m⟩
    · unfold readFloat at h
      rw [hh] at h
      simp only [if_true, List.drop_succ_cons, List.drop_zero, hloop, hab.1, hab.2, and_self] at h
      cases h
    · by_cases hab : a = [] ∧ b = []
      · unfold readFloat at h
        rw [hh] at h
        simp only [if_true, List.drop_succ_cons, List.drop_zero, hloop, hab.1, hab.2, and_self] at h
        cases h
      rw [readFloat_of _ true hh a b dot r (by simpa using hloop) hab] at h
      unfold afterMant at h
      match r with
      | [] => dsimp only at h; rw [if_pos rfl] at h; cases h
      | c :: t =>
        dsimp only at h
        by_cases hc : lowerByte c = 112
        · rw [if_pos (show lowerByte c = if true = true then 112 else 101 from hc)] at h
          obtain ⟨k, -⟩ := letter_stops true c t hc
          obtain ⟨k1, k2⟩ := k c t rfl
          rw [underscore_other k1 k2, Bool.and_eq_true] at hr
          split at h
          · rename_i e he
            obtain ⟨e', y⟩ := exp_inv true t e he hr.2
            have hu1 : u = [] ∨ u = [95] ∧ w.head? ≠ some 46 := by
              refine hu1.imp id fun ⟨h1, h2⟩ => ⟨h1, ?_⟩
              obtain ⟨c', t', rfl, -⟩ := mantissa_head m
              simpa using h2
            have := RealText.hex hx hu1 m ((letter_cases c).2.mp hc) y
            exact ⟨_, _, by simpa using this⟩
          · cases h
        · rw [if_neg (show ¬ lowerByte c = if true = true then 112 else 101 from hc)] at h
          cases h

end Egts
