import Verif.Spec.JsonParse
import Verif.Model.JsonText
import Verif.Props.Json
import Verif.Props.StorageCalls
set_option autoImplicit false
/- C84: the text of a record is JSON and is read as its document. -/
namespace Egts
open JsonP

/-- what follows a value: nothing, or the end of the array, object or member, or a line break -/
def Stop (rest : Bytes) : Prop := rest = [] ∨ ∃ c r, rest = c :: r ∧ (c = 44 ∨ c = 93 ∨ c = 125 ∨ c = 10)

/-! ### numbers -/

theorem Stop.noDigit {rest : Bytes} (h : Stop rest) : getDigits rest = ([], rest) := by
  rcases h with rfl | ⟨c, r, rfl, rfl | rfl | rfl | rfl⟩ <;> simp [getDigits, isDigit]

theorem digits_append (t rest : Bytes) (h : getDigits rest = ([], rest)) :
    getDigits (t ++ rest) = ((getDigits t).1, (getDigits t).2 ++ rest) := by
  induction t with
  | nil => simpa [getDigits] using h
  | cons c t ih =>
    simp only [List.cons_append, getDigits]
    by_cases hc : isDigit c
    · simp [hc, ih]
    · simp [hc]

theorem getInt_append (t rest : Bytes) (n : Nat) (r : Bytes) (h : getDigits rest = ([], rest)) (hi : getInt t = some (n, r)) :
    getInt (t ++ rest) = some (n, r ++ rest) := by
  unfold getInt at hi ⊢
  rw [digits_append t rest h]
  rcases hd : getDigits t with ⟨l, r'⟩
  rw [hd] at hi
  match l, hi with
  | 0 :: _ :: _, hi => cases hi
  | [0], hi => simp only [Option.some.injEq, Prod.mk.injEq] at hi ⊢; exact ⟨hi.1, by rw [hi.2]⟩
  | (k + 1) :: l, hi => simp only [Option.some.injEq, Prod.mk.injEq] at hi ⊢; exact ⟨hi.1, by rw [hi.2]⟩

theorem Stop.getFrac {rest : Bytes} (h : Stop rest) : getFrac rest = some (0, rest) := by
  rcases h with rfl | ⟨c, r, rfl, rfl | rfl | rfl | rfl⟩ <;> rfl
theorem Stop.getExp {rest : Bytes} (h : Stop rest) : getExp rest = some (1, rest) := by
  rcases h with rfl | ⟨c, r, rfl, rfl | rfl | rfl | rfl⟩ <;> rfl

theorem getFrac_append (t rest : Bytes) (q : Rat) (r : Bytes) (h : Stop rest) (hi : getFrac t = some (q, r)) :
    getFrac (t ++ rest) = some (q, r ++ rest) := by
  unfold JsonP.getFrac at hi
  split at hi
  · next s =>
    simp only [List.cons_append, JsonP.getFrac]
    rw [digits_append s rest h.noDigit]
    rcases hd : getDigits s with ⟨l, r'⟩
    rw [hd] at hi
    match l, hi with
    | k :: l, hi => simp only [Option.some.injEq, Prod.mk.injEq] at hi ⊢; exact ⟨hi.1, by rw [hi.2]⟩
  · next hn =>
    simp only [Option.some.injEq, Prod.mk.injEq] at hi
    obtain ⟨rfl, rfl⟩ := hi
    match t, hn with
    | [], _ => exact h.getFrac
    | c :: t, hn =>
      simp only [List.cons_append]
      unfold JsonP.getFrac
      split
      · next s he => simp only [List.cons.injEq] at he; exact absurd (by rw [he.1]) (hn t)
      · rfl

theorem expSign_append (t rest : Bytes) (h : t ≠ []) : expSign (t ++ rest) = ((expSign t).1, (expSign t).2 ++ rest) := by
  match t with
  | c :: b =>
    by_cases h1 : c = 43
    · subst h1; rfl
    by_cases h2 : c = 45
    · subst h2; rfl
    have e : ∀ u : Bytes, expSign (c :: u) = (false, c :: u) := by
      intro u
      unfold expSign
      split
      · next he => simp only [List.cons.injEq] at he; exact absurd he.1 h1
      · next he => simp only [List.cons.injEq] at he; exact absurd he.1 h2
      · rfl
    rw [List.cons_append, e, e]; rfl

theorem getPower_append (t rest : Bytes) (q : Rat) (r : Bytes) (h : Stop rest) (hi : getPower t = some (q, r)) :
    getPower (t ++ rest) = some (q, r ++ rest) := by
  unfold getPower at hi ⊢
  by_cases ht : t = []
  · subst ht; simp [expSign, getDigits] at hi
  · rw [expSign_append t rest ht]
    simp only
    rw [digits_append _ rest h.noDigit]
    rcases hd : getDigits (expSign t).2 with ⟨l, r'⟩
    rw [hd] at hi
    match l, hi with
    | k :: l, hi => simp only [Option.some.injEq, Prod.mk.injEq] at hi ⊢; exact ⟨hi.1, by rw [hi.2]⟩

theorem getExp_append (t rest : Bytes) (q : Rat) (r : Bytes) (h : Stop rest) (hi : getExp t = some (q, r)) :
    getExp (t ++ rest) = some (q, r ++ rest) := by
  unfold JsonP.getExp at hi
  split at hi
  · next s => exact getPower_append s rest q r h hi
  · next s => exact getPower_append s rest q r h hi
  · next hn1 hn2 =>
    simp only [Option.some.injEq, Prod.mk.injEq] at hi
    obtain ⟨rfl, rfl⟩ := hi
    match t, hn1, hn2 with
    | [], _, _ => exact h.getExp
    | c :: t, hn1, hn2 =>
      simp only [List.cons_append]
      unfold JsonP.getExp
      split
      · next s he => simp only [List.cons.injEq] at he; exact absurd (by rw [he.1]) (hn1 t)
      · next s he => simp only [List.cons.injEq] at he; exact absurd (by rw [he.1]) (hn2 t)
      · rfl

theorem getUnsigned_append (t rest : Bytes) (q : Rat) (r : Bytes) (h : Stop rest) (hi : getUnsigned t = some (q, r)) :
    getUnsigned (t ++ rest) = some (q, r ++ rest) := by
  unfold getUnsigned at hi ⊢
  split at hi
  · cases hi
  · next n r1 h1 =>
    rw [getInt_append t rest n r1 h.noDigit h1]
    simp only
    split at hi
    · cases hi
    · next q1 r2 h2 =>
      rw [getFrac_append r1 rest q1 r2 h h2]
      simp only
      split at hi
      · cases hi
      · next e r3 h3 =>
        rw [getExp_append r2 rest e r3 h h3]
        simp only [Option.some.injEq, Prod.mk.injEq] at hi ⊢
        exact ⟨hi.1, by rw [hi.2]⟩

/-- the first character of an unsigned number is a digit -/
theorem getUnsigned_head {t : Bytes} {x : Rat × Bytes} (h : getUnsigned t = some x) : ∃ c s, t = c :: s ∧ isDigit c = true := by
  unfold getUnsigned at h
  split at h
  · cases h
  · next n r h1 =>
    match t with
    | [] => simp [getInt, getDigits] at h1
    | c :: s =>
      refine ⟨c, s, rfl, ?_⟩
      by_contra hc
      simp [getInt, getDigits, hc] at h1

theorem getNumber_head {t : Bytes} {x : Rat × Bytes} (h : getNumber t = some x) :
    ∃ c s, t = c :: s ∧ (isDigit c = true ∨ c = 45) := by
  unfold getNumber at h
  split at h
  · next s => exact ⟨45, s, rfl, .inr rfl⟩
  · obtain ⟨c, s, h1, h2⟩ := getUnsigned_head h
    exact ⟨c, s, h1, .inl h2⟩

theorem getNumber_append (t rest : Bytes) (q : Rat) (r : Bytes) (h : Stop rest) (hi : getNumber t = some (q, r)) :
    getNumber (t ++ rest) = some (q, r ++ rest) := by
  obtain ⟨c, s, rfl, hc⟩ := getNumber_head hi
  by_cases h45 : c = 45
  · subst h45
    simp only [getNumber, List.cons_append, Option.map_eq_some_iff, Prod.exists] at hi ⊢
    obtain ⟨q', r', h1, h2⟩ := hi
    simp only [Prod.mk.injEq] at h2
    exact ⟨q', r' ++ rest, getUnsigned_append s rest q' r' h h1, by rw [← h2.1, ← h2.2]⟩
  · have e : ∀ u : Bytes, getNumber (c :: u) = getUnsigned (c :: u) := by
      intro u
      unfold getNumber
      split
      · next he => simp only [List.cons.injEq] at he; exact absurd he.1 h45
      · rfl
    rw [e] at hi
    rw [List.cons_append, e, ← List.cons_append]
    exact getUnsigned_append _ rest q r h hi

/-- decimal getDigits of a number -/
theorem decText_digits (n : Nat) : ∃ l, getDigits (decText n) = (l, []) ∧ value l = n ∧ l ≠ [] ∧ (∀ x y, l = 0 :: x :: y → False) ∧
    (∀ d ∈ l, d < 10) := by
  induction n using decText.induct with
  | case1 n h =>
    have hb : (UInt8.ofNat (48 + n)).toNat = 48 + n := by rw [UInt8.toNat_ofNat']; omega
    refine ⟨[n], ?_, by simp [value], by simp, by simp, by simpa using h⟩
    rw [decText, if_pos h]
    simp only [getDigits, isDigit, hb]
    rw [if_pos (by simp; omega)]
    simp
  | case2 n h ih =>
    obtain ⟨l, h1, h2, h3, h4, h5⟩ := ih
    have hb : (UInt8.ofNat (48 + n % 10)).toNat = 48 + n % 10 := by rw [UInt8.toNat_ofNat']; omega
    refine ⟨l ++ [n % 10], ?_, ?_, by simp, ?_, ?_⟩
    · rw [decText, if_neg h]
      have key : ∀ (t u : Bytes) (l : List Nat), getDigits t = (l, []) → getDigits (t ++ u) = (l ++ (getDigits u).1, (getDigits u).2) := by
        intro t
        induction t with
        | nil => intro u l h; simp [getDigits] at h; subst h; simp
        | cons c t ih =>
          intro u l h
          simp only [List.cons_append, getDigits] at h ⊢
          by_cases hc : isDigit c
          · simp only [hc, if_true, Prod.mk.injEq] at h ⊢
            rw [ih u (getDigits t).1 (by rw [← h.2])]
            simp [← h.1]
          · simp [hc] at h
      rw [key _ _ _ h1]
      simp only [getDigits, isDigit, hb]
      rw [if_pos (by simp; omega)]
      simp
    · simp only [value, List.foldl_append, List.foldl_cons, List.foldl_nil]
      have : List.foldl (fun n d => 10 * n + d) 0 l = n / 10 := h2
      rw [this]; omega
    · intro x y he
      match l, h3 with
      | [a], _ =>
        simp only [List.cons_append, List.nil_append, List.cons.injEq] at he
        simp only [value, List.foldl_cons, List.foldl_nil] at h2
        omega
      | a :: b :: l, _ =>
        simp only [List.cons_append, List.cons.injEq] at he
        exact h4 b l (by rw [he.1])
    · intro d hd
      rcases List.mem_append.mp hd with hd | hd
      · exact h5 d hd
      · simp at hd; omega

theorem getUnsigned_dec (n : Nat) : getUnsigned (decText n) = some ((n : Rat), []) := by
  obtain ⟨l, h1, h2, h3, h4, -⟩ := decText_digits n
  have hi : getInt (decText n) = some (n, []) := by
    unfold getInt
    rw [h1]
    match l, h3, h4 with
    | [0], _, _ => simp only [Option.some.injEq, Prod.mk.injEq, and_true]; exact h2
    | 0 :: x :: y, _, h4 => exact (h4 x y rfl).elim
    | (k + 1) :: l, _, _ => simp only [Option.some.injEq, Prod.mk.injEq, and_true]; exact h2
  unfold getUnsigned
  rw [hi]
  simp [JsonP.getFrac, JsonP.getExp]

theorem getNumber_int (n : Int) : getNumber (intText n) = some ((n : Rat), []) := by
  unfold intText
  by_cases h : n < 0
  · rw [if_pos h]
    simp only [getNumber, getUnsigned_dec, Option.map_some, Option.some.injEq, Prod.mk.injEq, and_true]
    have : (n : Rat) = -((n.natAbs : Nat) : Rat) := by
      have : n = -((n.natAbs : Nat) : Int) := by omega
      rw [← Int.cast_natCast, ← Int.cast_neg, ← this]
    exact this.symm
  · rw [if_neg h]
    have hu := getUnsigned_dec n.natAbs
    obtain ⟨c, s, h1, h2⟩ := getUnsigned_head hu
    have : getNumber (decText n.natAbs) = getUnsigned (decText n.natAbs) := by
      rw [h1]
      unfold getNumber
      split
      · next he => simp only [List.cons.injEq] at he; rw [he.1] at h2; simp [isDigit] at h2
      · rfl
    rw [this, hu]
    have hn : ((n.natAbs : Nat) : Rat) = n := by
      rw [← Int.cast_natCast]; congr 1; omega
    rw [hn]

/-! ### strings -/

/-- a byte that stands for itself in a string -/
def Plain (c : UInt8) : Prop := 32 ≤ c.toNat ∧ c ≠ 34 ∧ c ≠ 92

theorem getChars_plain (f : Nat) (c : UInt8) (s : Bytes) (h : Plain c) :
    getChars (f + 1) (c :: s) = (getChars f s).map fun (t, r) => ([c] ++ t, r) := by
  obtain ⟨h1, h2, h3⟩ := h
  rw [getChars]
  · rw [if_neg (by omega)]
  all_goals (intros; first | exact absurd ‹c = 34› h2 | exact absurd ‹c = 92› h3)

theorem getChars_plains (l : Bytes) (f : Nat) (s : Bytes) (h : ∀ c ∈ l, Plain c) :
    getChars (f + l.length) (l ++ s) = (getChars f s).map fun (t, r) => (l ++ t, r) := by
  induction l with
  | nil =>
    simp only [List.length_nil, Nat.add_zero, List.nil_append]
    cases getChars f s <;> rfl
  | cons c l ih =>
    rw [List.length_cons, ← Nat.add_assoc, List.cons_append, getChars_plain _ _ _ (h c (by simp)),
      ih (fun x hx => h x (by simp [hx]))]
    cases getChars f s <;> rfl

theorem hexDigit_val (n : Nat) (h : n < 16) : hexVal (hexDigit n) = some n := by
  have : ∀ k : Fin 16, hexVal (hexDigit k.val) = some k.val := by decide
  exact this ⟨n, h⟩

theorem utf8_ascii (n : Nat) (h : n < 128) : utf8 n = [UInt8.ofNat n] := by
  have hv : (Char.ofNat n).val.toNat = n := by
    have hval : n.isValidChar := .inl (by omega)
    rw [Char.ofNat, dif_pos hval]
    rfl
  unfold utf8 String.utf8EncodeChar
  simp only [hv]
  rw [if_pos (by omega)]

/-- an escaped character is read as itself -/
theorem getChars_u (f n : Nat) (a b c d : UInt8) (s : Bytes) (h : hex4 a b c d = some n) (hn : n < 0xD800 ∨ 0xDFFF < n) :
    getChars (f + 1) (92 :: 117 :: a :: b :: c :: d :: s) = (getChars f s).map fun (t, r) => (utf8 n ++ t, r) := by
  rw [getChars]
  simp only [h]
  rw [if_pos hn]

theorem getChars_ascii (bf : Bool) (f : Nat) (a : UInt8) (s : Bytes) (h : a.toNat < 0x80) :
    getChars (f + 1) (escAscii bf a ++ s) = (getChars f s).map fun (t, r) => ([a] ++ t, r) := by
  unfold escAscii
  split
  · next h1 => rcases h1 with rfl | rfl <;> rfl
  split
  · next h1 => rw [h1.1]; rfl
  split
  · next h1 => rw [h1.1]; rfl
  split
  · next h1 => rw [h1]; rfl
  split
  · next h1 => rw [h1]; rfl
  split
  · next h1 => rw [h1]; rfl
  split
  · have he : hex4 48 48 (hexDigit (a.toNat / 16)) (hexDigit (a.toNat % 16)) = some a.toNat := by
      unfold hex4
      rw [hexDigit_val _ (by omega), hexDigit_val _ (by omega)]
      simp only [show hexVal 48 = some 0 from rfl, Option.some.injEq]
      omega
    have := getChars_u f _ _ _ _ _ s he (.inl (by omega))
    rw [utf8_ascii _ h, UInt8.ofNat_toNat] at this
    exact this
  · next h1 h2 h3 h4 h5 h6 h7 =>
    exact getChars_plain f a s ⟨by omega, fun e => h1 (.inl e), fun e => h1 (.inr e)⟩

theorem runeLen_high (s : Bytes) : ∀ b ∈ s.take (runeLen s), 128 ≤ b.toNat := by
  unfold runeLen
  match s with
  | [] => simp
  | [a] => simp
  | a :: b :: r =>
    simp only
    by_cases h1 : 0xC2 ≤ a.toNat ∧ a.toNat ≤ 0xDF
    · rw [if_pos h1]
      split
      · next h2 =>
        simp only [Bool.and_eq_true, decide_eq_true_eq] at h2
        intro x hx; simp at hx; rcases hx with rfl | rfl <;> omega
      · simp
    rw [if_neg h1]
    have hb : ∀ {m k n : Nat} {Q : Prop}, (if m = k then n else 0x80) ≤ b.toNat ∧ Q → 128 ≤ n → 128 ≤ b.toNat := by
      intro m k n Q h hn
      have := h.1
      split at this <;> omega
    by_cases h2 : 0xE0 ≤ a.toNat ∧ a.toNat ≤ 0xEF
    · rw [if_pos h2]
      match r with
      | [] => simp
      | c :: r =>
        simp only
        by_cases h : (if a.toNat = 0xE0 then 0xA0 else 0x80) ≤ b.toNat ∧ b.toNat ≤ (if a.toNat = 0xED then 0x9F else 0xBF) ∧
            (0x80 ≤ c.toNat && c.toNat ≤ 0xBF : Bool) = true
        · rw [if_pos h]
          have := hb h (by omega)
          simp only [Bool.and_eq_true, decide_eq_true_eq] at h
          intro x hx; simp at hx; rcases hx with rfl | rfl | rfl <;> omega
        · rw [if_neg h]; simp
    rw [if_neg h2]
    by_cases h3 : 0xF0 ≤ a.toNat ∧ a.toNat ≤ 0xF4
    · rw [if_pos h3]
      match r with
      | [] => simp
      | [c] => simp
      | c :: d :: r =>
        simp only
        by_cases h : (if a.toNat = 0xF0 then 0x90 else 0x80) ≤ b.toNat ∧ b.toNat ≤ (if a.toNat = 0xF4 then 0x8F else 0xBF) ∧
            (0x80 ≤ c.toNat && c.toNat ≤ 0xBF : Bool) = true ∧ (0x80 ≤ d.toNat && d.toNat ≤ 0xBF : Bool) = true
        · rw [if_pos h]
          have := hb h (by omega)
          simp only [Bool.and_eq_true, decide_eq_true_eq] at h
          intro x hx; simp at hx; rcases hx with rfl | rfl | rfl | rfl <;> omega
        · rw [if_neg h]; simp
    · rw [if_neg h3]; simp

theorem getChars_text (bf : Bool) (s : Bytes) : ∀ (f : Nat) (rest : Bytes), (escText bf s).length < f →
    getChars f (escText bf s ++ 34 :: rest) = some (toUtf8 s, rest) := by
  induction s using escText.induct with
  | case1 =>
    intro f rest h
    obtain ⟨f, rfl⟩ : ∃ g, f = g + 1 := ⟨f - 1, by omega⟩
    simp [escText, toUtf8, getChars]
  | case2 a r h ih =>
    intro f rest hf
    rw [escText, if_pos h] at hf ⊢
    rw [toUtf8, if_pos h]
    obtain ⟨f, rfl⟩ : ∃ g, f = g + 1 := ⟨f - 1, by omega⟩
    have hl : 1 ≤ (escAscii bf a).length := by
      unfold escAscii
      repeat' split
      all_goals simp [asc]
    rw [List.length_append] at hf
    rw [List.append_assoc, getChars_ascii bf f a _ h, ih f rest (by omega)]
    rfl
  | case3 a r h hr ih =>
    intro f rest hf
    rw [escText, if_neg h, if_pos hr] at hf ⊢
    rw [toUtf8, if_neg h, if_pos hr]
    obtain ⟨f, rfl⟩ : ∃ g, f = g + 1 := ⟨f - 1, by omega⟩
    rw [List.length_append] at hf
    have hl : (asc "\\ufffd").length = 6 := rfl
    have := getChars_u f 0xFFFD 102 102 102 100 (escText bf r ++ 34 :: rest) (by decide) (.inr (by omega))
    rw [ih f rest (by omega)] at this
    exact this
  | case4 a r h hr ih =>
    intro f rest hf
    rw [escText, if_neg h, if_neg hr] at hf ⊢
    rw [toUtf8, if_neg h, if_neg hr]
    have hh := runeLen_high (a :: r)
    generalize (a :: r).take (runeLen (a :: r)) = x at hf hh ⊢
    generalize (a :: r).drop (runeLen (a :: r)) = y at ih hf ⊢
    rw [List.length_append] at hf
    unfold escRune at hf ⊢
    split at hf
    · next hx =>
      rw [if_pos hx]
      have hl : (asc "\\u2028").length = 6 := rfl
      obtain ⟨f, rfl⟩ : ∃ g, f = g + 1 := ⟨f - 1, by omega⟩
      have := getChars_u f 0x2028 50 48 50 56 (escText bf y ++ 34 :: rest) (by decide) (.inl (by omega))
      rw [ih f rest (by omega)] at this
      rw [hx]
      exact this
    split at hf
    · next hx0 hx =>
      rw [if_neg hx0, if_pos hx]
      have hl : (asc "\\u2029").length = 6 := rfl
      obtain ⟨f, rfl⟩ : ∃ g, f = g + 1 := ⟨f - 1, by omega⟩
      have := getChars_u f 0x2029 50 48 50 57 (escText bf y ++ 34 :: rest) (by decide) (.inl (by omega))
      rw [ih f rest (by omega)] at this
      rw [hx]
      exact this
    · next hx0 hx1 =>
      rw [if_neg hx0, if_neg hx1, List.append_assoc]
      obtain ⟨g, rfl⟩ : ∃ g, f = g + x.length := ⟨f - x.length, by omega⟩
      have hp : ∀ c ∈ x, Plain c := by
        intro c hc
        have := hh c hc
        refine ⟨by omega, ?_, ?_⟩ <;> rintro rfl <;> simp at this
      rw [getChars_plains x g _ hp, ih g rest (by omega)]
      rfl

/-- a string is read as its text with invalid bytes replaced -/
theorem getString_quote (F : JsonFmt) (s rest : Bytes) : getString (quoteText F s ++ rest) = some (toUtf8 s, rest) := by
  have : quoteText F s ++ rest = 34 :: (escText F.shortBF s ++ 34 :: rest) := by simp [quoteText]
  rw [this]
  exact getChars_text _ _ _ _ (by simp)

theorem getString_key (k rest : Bytes) (h : ∀ c ∈ k, Plain c) : getString (34 :: (k ++ 34 :: rest)) = some (k, rest) := by
  have : (k ++ 34 :: rest).length + 1 = (rest.length + 1 + 1) + k.length := by simp; omega
  show getChars ((k ++ 34 :: rest).length + 1) (k ++ 34 :: rest) = _
  rw [this, getChars_plains k _ _ h]
  simp [getChars]

/-! ### values -/

/-- the text is read as the document, whatever follows; it begins like a value -/
structure Writes (t : Bytes) (j : Json) : Prop where
  head : ∃ c s, t = c :: s ∧ c ≠ 0x20 ∧ c ≠ 0x09 ∧ c ≠ 0x0A ∧ c ≠ 0x0D ∧ c ≠ 93 ∧ c ≠ 125
  read : ∀ (f : Nat) (rest : Bytes), Stop rest → t.length ≤ f → getValue f (t ++ rest) = some (j, rest)

theorem ws_id {c : UInt8} {s : Bytes} (h : c ≠ 0x20 ∧ c ≠ 0x09 ∧ c ≠ 0x0A ∧ c ≠ 0x0D) : ws (c :: s) = c :: s := by
  rw [ws, if_neg]
  rintro (h1 | h1 | h1 | h1)
  · exact h.1 h1
  · exact h.2.1 h1
  · exact h.2.2.1 h1
  · exact h.2.2.2 h1

theorem writes_null : Writes (asc "null") .null where
  head := ⟨110, asc "ull", rfl, by decide⟩
  read f rest _ hf := by
    obtain ⟨f, rfl⟩ : ∃ g, f = g + 1 := ⟨f - 1, by have : (asc "null").length = 4 := rfl; omega⟩
    rw [getValue]
    have : ws (asc "null" ++ rest) = 110 :: 117 :: 108 :: 108 :: rest := rfl
    rw [this]
    rfl

theorem writes_number {t : Bytes} {q : Rat} (h : getNumber t = some (q, [])) : Writes t (.num q) := by
  obtain ⟨c, s, rfl, hc⟩ := getNumber_head h
  have hn : (48 ≤ c.toNat ∧ c.toNat ≤ 57) ∨ c.toNat = 45 := by
    rcases hc with hc | rfl
    · left; simpa [isDigit] using hc
    · right; rfl
  have ne : ∀ x : UInt8, (x.toNat < 45 ∨ 57 < x.toNat) → c ≠ x := by
    rintro x hx rfl; omega
  refine ⟨⟨c, s, rfl, ne _ (by decide), ne _ (by decide), ne _ (by decide), ne _ (by decide), ne _ (by decide), ne _ (by decide)⟩, ?_⟩
  intro f rest hr hf
  obtain ⟨f, rfl⟩ : ∃ g, f = g + 1 := ⟨f - 1, by rw [List.length_cons] at hf; omega⟩
  have hr' := getNumber_append _ rest q [] hr h
  have hw : ws ((c :: s) ++ rest) = c :: (s ++ rest) := ws_id ⟨ne _ (by decide), ne _ (by decide), ne _ (by decide), ne _ (by decide)⟩
  rw [getValue, hw]
  rw [List.cons_append, List.nil_append] at hr'
  split
  all_goals try (next he => simp only [List.cons.injEq] at he; exact absurd he.1 (ne _ (by decide)))
  rw [hr']; rfl

theorem writes_int (n : Int) : Writes (intText n) (.num n) := writes_number (getNumber_int n)
theorem writes_nat (n : Nat) : Writes (intText n) (.num n) := by
  have := writes_int n
  rwa [Int.cast_natCast] at this

theorem writes_string (F : JsonFmt) (s : Bytes) : Writes (quoteText F s) (jstr s) where
  head := ⟨34, escText F.shortBF s ++ [34], by simp [quoteText], by decide⟩
  read f rest _ hf := by
    have e : quoteText F s = 34 :: (escText F.shortBF s ++ [34]) := by simp [quoteText]
    obtain ⟨f, rfl⟩ : ∃ g, f = g + 1 := ⟨f - 1, by rw [e, List.length_cons] at hf; omega⟩
    have hg := getString_quote F s rest
    rw [e] at hg ⊢
    rw [getValue]
    have hw : ws (34 :: (escText F.shortBF s ++ [34]) ++ rest) = 34 :: ((escText F.shortBF s ++ [34]) ++ rest) := ws_id (by decide)
    rw [hw]
    rw [List.cons_append] at hg
    simp only [hg]
    rfl

theorem stop_comma (r : Bytes) : Stop (44 :: r) := .inr ⟨44, r, rfl, .inl rfl⟩
theorem stop_arr (r : Bytes) : Stop (93 :: r) := .inr ⟨93, r, rfl, .inr (.inl rfl)⟩
theorem stop_obj (r : Bytes) : Stop (125 :: r) := .inr ⟨125, r, rfl, .inr (.inr (.inl rfl))⟩

theorem ws_comma (r : Bytes) : ws (44 :: r) = 44 :: r := ws_id (by decide)
theorem ws_arr (r : Bytes) : ws (93 :: r) = 93 :: r := ws_id (by decide)
theorem ws_obj (r : Bytes) : ws (125 :: r) = 125 :: r := ws_id (by decide)
theorem ws_colon (r : Bytes) : ws (58 :: r) = 58 :: r := ws_id (by decide)

theorem commaSep_cons (x y : Bytes) (l : List Bytes) : commaSep (x :: y :: l) = x ++ [44] ++ commaSep (y :: l) := rfl

theorem getElems_text {l : List (Bytes × Json)} (hl : l ≠ []) (h : ∀ p ∈ l, Writes p.1 p.2) (f : Nat) (rest : Bytes)
    (hf : (commaSep (l.map (·.1))).length + 1 ≤ f) :
    getElems f (commaSep (l.map (·.1)) ++ 93 :: rest) = some (l.map (·.2), rest) := by
  induction l generalizing f with
  | nil => exact absurd rfl hl
  | cons p l ih =>
    obtain ⟨f, rfl⟩ : ∃ g, f = g + 1 := ⟨f - 1, by omega⟩
    have hp := h p (by simp)
    match l, ih with
    | [], _ =>
      simp only [List.map_cons, List.map_nil, commaSep] at hf ⊢
      rw [getElems, hp.read f _ (stop_arr rest) (by omega)]
      simp only [ws_arr]
    | q :: l, ih =>
      simp only [List.map_cons, commaSep_cons, List.length_append, List.length_cons, List.length_nil] at hf ⊢
      have := ih (by simp) (fun x hx => h x (by simp [hx])) f (by simp only [List.map_cons]; omega)
      simp only [List.map_cons] at this
      rw [getElems]
      simp only [List.append_assoc, List.cons_append, List.nil_append]
      rw [hp.read f _ (stop_comma _) (by omega)]
      simp only [ws_comma, this]
      rfl

theorem writes_slice {α : Type} (t : α → Bytes) (g : α → Json) (l : List α) (h : ∀ x ∈ l, Writes (t x) (g x)) :
    Writes (sliceText t l) (jslice g l) := by
  unfold sliceText jslice
  by_cases he : l.isEmpty
  · rw [if_pos he, if_pos he]; exact writes_null
  rw [if_neg he, if_neg he]
  have hl : l ≠ [] := by rintro rfl; exact he rfl
  have e1 : l.map t = (l.map fun x => (t x, g x)).map (·.1) := by simp
  have e2 : l.map g = (l.map fun x => (t x, g x)).map (·.2) := by simp
  refine ⟨⟨91, commaSep (l.map t) ++ [93], by simp, by decide⟩, ?_⟩
  intro f rest _ hf
  obtain ⟨f, rfl⟩ : ∃ g, f = g + 1 := ⟨f - 1, by simp at hf; omega⟩
  rw [getValue]
  simp only [List.cons_append, List.nil_append, List.append_assoc]
  rw [ws_id (by decide)]
  have hh := getElems_text (l := l.map fun x => (t x, g x)) (by simpa using hl) (by
    intro p hp
    obtain ⟨x, hx, rfl⟩ := List.mem_map.mp hp
    exact h x hx) f rest (by rw [← e1]; simp at hf; omega)
  rw [← e1, ← e2] at hh
  have hx : ∃ c s, commaSep (l.map t) ++ 93 :: rest = c :: s ∧ ws (c :: s) = c :: s ∧ c ≠ 93 := by
    match l, hl, h with
    | x :: l, _, h =>
      obtain ⟨c, s, h1, h2⟩ := (h x List.mem_cons_self).head
      have hc : ∃ s, commaSep ((x :: l).map t) ++ 93 :: rest = c :: s := by
        match l with
        | [] => exact ⟨s ++ 93 :: rest, by simp [commaSep, h1]⟩
        | y :: l => exact ⟨_, by simp only [List.map_cons, commaSep_cons, h1, List.cons_append]; rfl⟩
      obtain ⟨s', hs'⟩ := hc
      exact ⟨c, s', hs', ws_id ⟨h2.1, h2.2.1, h2.2.2.1, h2.2.2.2.1⟩, h2.2.2.2.2.1⟩
  obtain ⟨c, s, h1, h2, h3⟩ := hx
  rw [h1] at hh ⊢
  simp only [h2]
  split
  · next r he => exact absurd (List.cons.inj he).1 h3
  · rw [hh]; rfl

theorem getMembers_text {l : List (Bytes × Bytes × Json)} (hl : l ≠ []) (h : ∀ p ∈ l, (∀ c ∈ p.1, Plain c) ∧ Writes p.2.1 p.2.2)
    (f : Nat) (rest : Bytes)
    (hf : (commaSep (l.map fun p => [34] ++ p.1 ++ [34, 58] ++ p.2.1)).length + 1 ≤ f) :
    getMembers f (commaSep (l.map fun p => [34] ++ p.1 ++ [34, 58] ++ p.2.1) ++ 125 :: rest) =
      some (l.map (fun p => (p.1, p.2.2)), rest) := by
  induction l generalizing f with
  | nil => exact absurd rfl hl
  | cons p l ih =>
    obtain ⟨f, rfl⟩ : ∃ g, f = g + 1 := ⟨f - 1, by omega⟩
    obtain ⟨hk, hp⟩ := h p (by simp)
    match l, ih with
    | [], _ =>
      simp only [List.map_cons, List.map_nil, commaSep, List.length_append, List.length_cons, List.length_nil] at hf ⊢
      rw [getMembers]
      simp only [List.append_assoc, List.cons_append, List.nil_append]
      rw [ws_id (by decide), getString_key _ _ hk]
      simp only [ws_colon]
      rw [hp.read f _ (stop_obj rest) (by omega)]
      simp only [ws_obj]
    | q :: l, ih =>
      simp only [List.map_cons, commaSep_cons, List.length_append, List.length_cons, List.length_nil] at hf ⊢
      have := ih (by simp) (fun x hx => h x (by simp [hx])) f (by simp only [List.map_cons]; omega)
      simp only [List.map_cons] at this
      rw [getMembers]
      simp only [List.append_assoc, List.cons_append, List.nil_append] at this ⊢
      rw [ws_id (by decide), getString_key _ _ hk]
      simp only [ws_colon]
      rw [hp.read f _ (stop_comma _) (by omega)]
      simp only [ws_comma, this]
      rfl

theorem writes_obj (l : List (Bytes × Bytes × Json)) (hl : l ≠ []) (h : ∀ p ∈ l, (∀ c ∈ p.1, Plain c) ∧ Writes p.2.1 p.2.2) :
    Writes (objText (l.map fun p => (p.1, p.2.1))) (.obj (l.map fun p => (p.1, p.2.2))) := by
  have e1 : objText (l.map fun p => (p.1, p.2.1)) = [123] ++ commaSep (l.map fun p => [34] ++ p.1 ++ [34, 58] ++ p.2.1) ++ [125] := by
    unfold objText; rw [List.map_map]; rfl
  rw [e1]
  refine ⟨⟨123, _, rfl, by decide⟩, ?_⟩
  intro f rest _ hf
  obtain ⟨f, rfl⟩ : ∃ g, f = g + 1 := ⟨f - 1, by simp at hf; omega⟩
  have hh := getMembers_text hl h f rest (by
    simp only [List.length_append, List.length_cons, List.length_nil] at hf; omega)
  rw [getValue]
  simp only [List.append_assoc, List.cons_append, List.nil_append] at hh ⊢
  rw [ws_id (by decide)]
  have hx : ∃ s, commaSep (l.map fun p => 34 :: (p.1 ++ 34 :: 58 :: p.2.1)) ++ 125 :: rest = 34 :: s := by
    match l, hl with
    | [p], _ => exact ⟨_, by simp only [List.map_cons, List.map_nil, commaSep, List.cons_append]; rfl⟩
    | p :: q :: l, _ => exact ⟨_, by simp only [List.map_cons, commaSep_cons, List.cons_append]; rfl⟩
  obtain ⟨s, hs⟩ := hx
  rw [hs] at hh ⊢
  have hw : ws (34 :: s) = 34 :: s := ws_id (by decide)
  simp only [hw, hh]
  rfl

/-! ### C84 -/

/-- the record with its float64 values replaced by those of their decimal texts -/
def NavRecord.mapFloats (dv : F64 → Rat) (r : NavRecord) : NavRecord := { r with
  LiquidSensors := r.LiquidSensors.map fun q => { q with ValueL := dv q.ValueL }
  LocStates := r.LocStates.map fun s => { s with Latitude := dv s.Latitude, Longitude := dv s.Longitude } }

/-- the numbers written for the float64 values of the record are rounded to these values again (as those of
`strconv.FormatFloat(x, 'f', -1, 64)` are) -/
def NavRecord.FloatsOk (dv : F64 → Rat) (r : NavRecord) : Prop :=
  (∀ s ∈ r.LocStates, rnd (dv s.Latitude) = s.Latitude ∧ rnd (dv s.Longitude) = s.Longitude) ∧
  ∀ q ∈ r.LiquidSensors, rnd (dv q.ValueL) = q.ValueL

theorem jslice_map {α β : Type} (f : β → Json) (g : α → β) (l : List α) : jslice f (l.map g) = jslice (fun x => f (g x)) l := by
  unfold jslice
  cases l <;> simp

theorem plain_iff (c : UInt8) : Plain c ↔ (32 ≤ c.toNat ∧ c ≠ 34 ∧ c ≠ 92) := Iff.rfl
instance (c : UInt8) : Decidable (Plain c) := decidable_of_iff _ (plain_iff c).symm

theorem writes_an (a : AnSensor) : Writes a.text a.json :=
  writes_obj [(asc "sensor_number", intText a.SensorNumber.toNat, .num a.SensorNumber.toNat), (asc "value", intText a.Value.toNat, .num a.Value.toNat)]
    (by simp) (by
      simp only [List.forall_mem_cons, List.not_mem_nil, false_implies, implies_true, and_true]
      exact ⟨⟨by decide, writes_nat _⟩, by decide, writes_nat _⟩)

section
variable {F : JsonFmt} {dv : F64 → Rat} (hF : ∀ x, getNumber (F.float x) = some (dv x, []))
include hF

theorem writes_liquid (q : LiquidSensor) : Writes (q.text F) ({ q with ValueL := dv q.ValueL } : LiquidSensor).json :=
  writes_obj [(asc "sensor_number", intText q.SensorNumber.toNat, .num q.SensorNumber.toNat),
      (asc "module_number", intText q.ModuleNumber.toNat, .num q.ModuleNumber.toNat),
      (asc "error_flag", quoteText F q.ErrorFlag, jstr q.ErrorFlag), (asc "value_unit", quoteText F q.ValueUnit, jstr q.ValueUnit),
      (asc "value_mm", intText q.ValueMm.toNat, .num q.ValueMm.toNat), (asc "value_l", F.float q.ValueL, .num (dv q.ValueL))]
    (by simp) (by
      simp only [List.forall_mem_cons, List.not_mem_nil, false_implies, implies_true, and_true]
      exact ⟨⟨by decide, writes_nat _⟩, ⟨by decide, writes_nat _⟩, ⟨by decide, writes_string _ _⟩, ⟨by decide, writes_string _ _⟩,
        ⟨by decide, writes_nat _⟩, by decide, writes_number (hF _)⟩)

theorem writes_loc (s : LocState) : Writes (s.text F) ({ s with Latitude := dv s.Latitude, Longitude := dv s.Longitude } : LocState).json :=
  writes_obj [(asc "lat", F.float s.Latitude, .num (dv s.Latitude)), (asc "lng", F.float s.Longitude, .num (dv s.Longitude)),
      (asc "speed", intText s.Speed.toNat, .num s.Speed.toNat), (asc "navigation_dt", quoteText F s.NavigationDt, jstr s.NavigationDt)]
    (by simp) (by
      simp only [List.forall_mem_cons, List.not_mem_nil, false_implies, implies_true, and_true]
      exact ⟨⟨by decide, writes_number (hF _)⟩, ⟨by decide, writes_number (hF _)⟩, ⟨by decide, writes_nat _⟩, by decide, writes_string _ _⟩)

theorem writes_record (r : NavRecord) : Writes (r.text F) (r.mapFloats dv).json := by
  have := writes_obj [(asc "server_id", quoteText F r.ServerID, jstr r.ServerID), (asc "IMEI", quoteText F r.IMEI, jstr r.IMEI),
      (asc "client_id", intText r.ClientID.toNat, .num r.ClientID.toNat),
      (asc "received_dt", quoteText F r.ReceivedDt, jstr r.ReceivedDt), (asc "packet_id", intText r.PacketID.toNat, .num r.PacketID.toNat),
      (asc "navigation_unix_time", intText r.NavigationTimestamp, .num r.NavigationTimestamp),
      (asc "an_sensors", sliceText AnSensor.text r.AnSensors, jslice AnSensor.json r.AnSensors),
      (asc "liquid_sensors", sliceText (LiquidSensor.text F) r.LiquidSensors,
        jslice (fun q => ({ q with ValueL := dv q.ValueL } : LiquidSensor).json) r.LiquidSensors),
      (asc "loc_states", sliceText (LocState.text F) r.LocStates,
        jslice (fun s => ({ s with Latitude := dv s.Latitude, Longitude := dv s.Longitude } : LocState).json) r.LocStates),
      (asc "loc_states_count", intText r.LocStatesCount.toInt, .num r.LocStatesCount.toInt)]
    (by simp) (by
      simp only [List.forall_mem_cons, List.not_mem_nil, false_implies, implies_true, and_true]
      exact ⟨⟨by decide, writes_string _ _⟩, ⟨by decide, writes_string _ _⟩, ⟨by decide, writes_nat _⟩, ⟨by decide, writes_string _ _⟩,
        ⟨by decide, writes_nat _⟩, ⟨by decide, writes_int _⟩, ⟨by decide, writes_slice _ _ _ fun a _ => writes_an a⟩,
        ⟨by decide, writes_slice _ _ _ fun q _ => writes_liquid hF q⟩, ⟨by decide, writes_slice _ _ _ fun s _ => writes_loc hF s⟩,
        by decide, writes_int _⟩)
  unfold NavRecord.json NavRecord.mapFloats
  simp only [jslice_map]
  exact this

/-- C84: whatever a record contains (IMEIs are arbitrary bytes from the network), the text given to the storages is a JSON text
and is read as the document of the record. `hF` is all that is assumed of the formatting of float64 values: it gives JSON
numbers, `dv x` is the number written for `x`. -/
theorem record_text (r : NavRecord) : parse (r.text F) = some (r.mapFloats dv).json := by
  have := (writes_record hF r).read ((r.text F).length + 1) [] (.inl rfl) (by omega)
  rw [List.append_nil] at this
  unfold parse
  rw [this]
  rfl

omit hF in
theorem mapFloats_rnd {r : NavRecord} (h : r.FloatsOk dv) : (r.mapFloats dv).mapFloats rnd = r := by
  obtain ⟨hr, hq⟩ := h
  have h1 : (r.LiquidSensors.map fun q => ({ q with ValueL := rnd (dv q.ValueL) } : LiquidSensor)) = r.LiquidSensors := by
    refine (List.map_congr_left fun q hq' => ?_).trans (List.map_id' _)
    rw [hq q hq']
  have h2 : (r.LocStates.map fun s => ({ s with Latitude := rnd (dv s.Latitude), Longitude := rnd (dv s.Longitude) } : LocState)) =
      r.LocStates := by
    refine (List.map_congr_left fun s hs => ?_).trans (List.map_id' _)
    rw [(hr s hs).1, (hr s hs).2]
  unfold NavRecord.mapFloats
  simp only [List.map_map]
  have e1 := h1
  have e2 := h2
  simp only [Function.comp_def]
  rw [e1, e2]

/-- C84: a reader that reads numbers as float64 gets the values of the record. -/
theorem record_text_float (r : NavRecord) (h : r.FloatsOk dv) :
    ∃ r' : NavRecord, parse (r.text F) = some r'.json ∧ r'.mapFloats rnd = r :=
  ⟨r.mapFloats dv, record_text hF r, mapFloats_rnd h⟩

end

theorem mapFloats_texts {dv : F64 → Rat} {r : NavRecord} (h : r.TextsOk) : (r.mapFloats dv).TextsOk := by
  obtain ⟨h1, h2, h3, h4, h5⟩ := h
  refine ⟨h1, h2, h3, ?_, ?_⟩
  · intro s hs
    obtain ⟨s', hs', rfl⟩ := List.mem_map.mp hs
    exact h4 s' hs'
  · intro s hs
    obtain ⟨s', hs', rfl⟩ := List.mem_map.mp hs
    exact h5 s' hs'

/-- C67 (partial) for the text itself: two records with the same text are the same, if their texts are UTF-8 and float64 values
can be read back. -/
theorem text_lossless_partial {F : JsonFmt} {dv : F64 → Rat} (hF : ∀ x, getNumber (F.float x) = some (dv x, []))
    (r r' : NavRecord) (hr : r.TextsOk) (hr' : r'.TextsOk) (hf : r.FloatsOk dv) (hf' : r'.FloatsOk dv)
    (h : r.text F = r'.text F) : r = r' := by
  have hp : (r.mapFloats dv).json = (r'.mapFloats dv).json :=
    Option.some.inj ((record_text hF r).symm.trans ((congrArg parse h).trans (record_text hF r')))
  have he := json_lossless_partial _ _ (mapFloats_texts hr) (mapFloats_texts hr') hp
  rw [← mapFloats_rnd hf, ← mapFloats_rnd hf', he]

/-! ### the text is UTF-8 -/

theorem ValidUtf8.append {s t : Bytes} (hs : ValidUtf8 s) (ht : ValidUtf8 t) : ValidUtf8 (s ++ t) := by
  obtain ⟨a, rfl⟩ := hs
  obtain ⟨b, rfl⟩ := ht
  exact ⟨a ++ b, by rw [List.flatMap_append]⟩

theorem validUtf8_escText (bf : Bool) (s : Bytes) : ValidUtf8 (escText bf s) := by
  induction s using escText.induct with
  | case1 => rw [escText]; exact ascii_valid [] (by simp)
  | case2 a r h ih =>
    rw [escText, if_pos h]
    refine .append (ascii_valid _ ?_) ih
    revert h; revert a; refine byte_forall _ ?_
    cases bf <;> decide +kernel
  | case3 a r h hr ih =>
    rw [escText, if_neg h, if_pos hr]
    exact .append (ascii_valid _ (by decide)) ih
  | case4 a r h hr ih =>
    rw [escText, if_neg h, if_neg hr]
    refine .append ?_ ih
    unfold escRune
    split
    · exact ascii_valid _ (by decide)
    split
    · exact ascii_valid _ (by decide)
    · obtain ⟨c, hc⟩ := runeLen_some _ hr
      exact ⟨[c], by rw [hc]; simp⟩

theorem validUtf8_quote (F : JsonFmt) (s : Bytes) : ValidUtf8 (quoteText F s) :=
  .append (.append (ascii_valid _ (by decide)) (validUtf8_escText _ s)) (ascii_valid _ (by decide))

theorem validUtf8_dec (n : Nat) : ValidUtf8 (decText n) := by
  induction n using decText.induct with
  | case1 n h =>
    rw [decText, if_pos h]
    exact ascii_valid _ (by simp only [List.mem_singleton, forall_eq]; rw [UInt8.toNat_ofNat']; omega)
  | case2 n h ih =>
    rw [decText, if_neg h]
    exact .append ih (ascii_valid _ (by simp only [List.mem_singleton, forall_eq]; rw [UInt8.toNat_ofNat']; omega))

theorem validUtf8_int (n : Int) : ValidUtf8 (intText n) := by
  unfold intText
  split
  · exact .append (s := [45]) (ascii_valid _ (by decide)) (validUtf8_dec _)
  · exact validUtf8_dec _

theorem validUtf8_comma (l : List Bytes) (h : ∀ x ∈ l, ValidUtf8 x) : ValidUtf8 (commaSep l) := by
  induction l with
  | nil => exact ascii_valid _ (by simp [commaSep])
  | cons x l ih =>
    match l, ih with
    | [], _ => exact h x (by simp)
    | y :: l, ih =>
      rw [commaSep_cons]
      exact .append (.append (h x (by simp)) (ascii_valid _ (by decide))) (ih fun z hz => h z (List.mem_cons_of_mem _ hz))

theorem validUtf8_obj (m : List (Bytes × Bytes)) (h : ∀ kv ∈ m, ValidUtf8 kv.1 ∧ ValidUtf8 kv.2) : ValidUtf8 (objText m) := by
  refine .append (.append (ascii_valid _ (by decide)) (validUtf8_comma _ ?_)) (ascii_valid _ (by decide))
  intro x hx
  obtain ⟨kv, hk, rfl⟩ := List.mem_map.mp hx
  exact .append (.append (.append (ascii_valid _ (by decide)) (h kv hk).1) (ascii_valid _ (by decide))) (h kv hk).2

theorem validUtf8_slice {α : Type} (f : α → Bytes) (l : List α) (h : ∀ x ∈ l, ValidUtf8 (f x)) : ValidUtf8 (sliceText f l) := by
  unfold sliceText
  split
  · exact ascii_valid _ (by decide)
  · refine .append (.append (ascii_valid _ (by decide)) (validUtf8_comma _ ?_)) (ascii_valid _ (by decide))
    intro x hx
    obtain ⟨y, hy, rfl⟩ := List.mem_map.mp hx
    exact h y hy

/-- C84: the text is UTF-8, whatever bytes the texts of the record have. -/
theorem record_text_utf8 (F : JsonFmt) (hF : ∀ x, ∀ b ∈ F.float x, b.toNat < 128) (r : NavRecord) : ValidUtf8 (r.text F) := by
  have f := fun x => ascii_valid _ (hF x)
  have i := validUtf8_int
  have q := validUtf8_quote F
  refine validUtf8_obj _ ?_
  simp only [List.forall_mem_cons, List.not_mem_nil, false_implies, implies_true, and_true]
  refine ⟨⟨ascii_valid _ (by decide), q _⟩, ⟨ascii_valid _ (by decide), q _⟩, ⟨ascii_valid _ (by decide), i _⟩,
    ⟨ascii_valid _ (by decide), q _⟩, ⟨ascii_valid _ (by decide), i _⟩, ⟨ascii_valid _ (by decide), i _⟩,
    ⟨ascii_valid _ (by decide), validUtf8_slice _ _ fun a _ => validUtf8_obj _ ?_⟩,
    ⟨ascii_valid _ (by decide), validUtf8_slice _ _ fun a _ => validUtf8_obj _ ?_⟩,
    ⟨ascii_valid _ (by decide), validUtf8_slice _ _ fun a _ => validUtf8_obj _ ?_⟩, ascii_valid _ (by decide), i _⟩
  · simp only [List.forall_mem_cons, List.not_mem_nil, false_implies, implies_true, and_true]
    exact ⟨⟨ascii_valid _ (by decide), i _⟩, ascii_valid _ (by decide), i _⟩
  · simp only [List.forall_mem_cons, List.not_mem_nil, false_implies, implies_true, and_true]
    exact ⟨⟨ascii_valid _ (by decide), i _⟩, ⟨ascii_valid _ (by decide), i _⟩, ⟨ascii_valid _ (by decide), q _⟩,
      ⟨ascii_valid _ (by decide), q _⟩, ⟨ascii_valid _ (by decide), i _⟩, ascii_valid _ (by decide), f _⟩
  · simp only [List.forall_mem_cons, List.not_mem_nil, false_implies, implies_true, and_true]
    exact ⟨⟨ascii_valid _ (by decide), f _⟩, ⟨ascii_valid _ (by decide), f _⟩, ⟨ascii_valid _ (by decide), i _⟩,
      ascii_valid _ (by decide), q _⟩

/-! ### a formatter that meets the hypotheses: rounds down to two decimal places (exact for multiples of 1/4) -/

def twoPlaces (x : F64) : Bytes :=
  let n := (|x| * 100).floor.toNat
  (if x < 0 then [45] else []) ++ decText (n / 100) ++ [46, UInt8.ofNat (48 + n / 10 % 10), UInt8.ofNat (48 + n % 10)]

def twoPlacesVal (x : F64) : Rat :=
  let n := (|x| * 100).floor.toNat
  let v : Rat := (n / 100 : Nat) + (n % 100 : Nat) / 100
  if x < 0 then -v else v

theorem twoPlaces_ok (x : F64) : getNumber (twoPlaces x) = some (twoPlacesVal x, []) := by
  have hu : ∀ n : Nat, getUnsigned (decText (n / 100) ++ [46, UInt8.ofNat (48 + n / 10 % 10), UInt8.ofNat (48 + n % 10)]) =
      some (((n / 100 : Nat) : Rat) + ((n % 100 : Nat) : Rat) / 100, []) := by
    intro n
    have b1 : (UInt8.ofNat (48 + n / 10 % 10)).toNat = 48 + n / 10 % 10 := by rw [UInt8.toNat_ofNat']; omega
    have b2 : (UInt8.ofNat (48 + n % 10)).toNat = 48 + n % 10 := by rw [UInt8.toNat_ofNat']; omega
    have hi : getInt (decText (n / 100)) = some (n / 100, []) := by
      have := getUnsigned_dec (n / 100)
      unfold getUnsigned at this
      split at this
      · cases this
      · next k r h =>
        obtain ⟨l, h1, h2, h3, h4, -⟩ := decText_digits (n / 100)
        unfold getInt
        rw [h1]
        match l, h3, h4 with
        | [0], _, _ => simp only [Option.some.injEq, Prod.mk.injEq, and_true]; exact h2
        | 0 :: x :: y, _, h4 => exact (h4 x y rfl).elim
        | (k + 1) :: l, _, _ => simp only [Option.some.injEq, Prod.mk.injEq, and_true]; exact h2
    unfold getUnsigned
    rw [getInt_append _ _ _ _ (by simp [getDigits, isDigit]) hi]
    have hd : getDigits [UInt8.ofNat (48 + n / 10 % 10), UInt8.ofNat (48 + n % 10)] = ([n / 10 % 10, n % 10], []) := by
      simp only [getDigits, isDigit, b1, b2]
      rw [if_pos (by simp; omega), if_pos (by simp; omega)]
      simp
    simp only [List.nil_append, JsonP.getFrac, hd, JsonP.getExp, Option.some.injEq, Prod.mk.injEq, and_true, mul_one, value,
      List.foldl_cons, List.foldl_nil, List.length_cons, List.length_nil]
    have : 10 * (10 * 0 + n / 10 % 10) + n % 10 = n % 100 := by omega
    rw [this]
    norm_num
  unfold twoPlaces twoPlacesVal
  simp only
  by_cases h : x < 0
  · rw [if_pos h, if_pos h]
    simp only [List.cons_append, List.nil_append, getNumber, hu, Option.map_some]
  · rw [if_neg h, if_neg h]
    have h1 := hu (|x| * 100).floor.toNat
    rw [List.nil_append]
    obtain ⟨c, s, hc, hd⟩ := getUnsigned_head h1
    rw [hc] at h1 ⊢
    rw [← h1]
    unfold getNumber
    split
    · next s he =>
      rw [(List.cons.inj he).1] at hd
      simp [isDigit] at hd
    · rfl

/-- the hypotheses of `record_text_float` and `record_text_utf8` are met by a record with an IMEI that is not UTF-8 and a
position -/
example : ∃ (F : JsonFmt) (dv : F64 → Rat) (r : NavRecord), (∀ x, getNumber (F.float x) = some (dv x, [])) ∧
    r.IMEI = [0xFF, 34, 60] ∧ r.LocStates ≠ [] ∧ r.FloatsOk dv := by
  refine ⟨⟨twoPlaces, true⟩, twoPlacesVal, { IMEI := [0xFF, 34, 60], LocStates := [{ Latitude := 22.75, Longitude := -3.5 }] },
    twoPlaces_ok, rfl, by simp, ?_⟩
  simp only [NavRecord.FloatsOk, List.mem_singleton, forall_eq, List.not_mem_nil, false_implies, implies_true, and_true]
  decide +kernel

end Egts
