import Verif.Model.CmdLine
import Verif.Spec.CmdLine
import Mathlib.Tactic.Linarith
import Mathlib.Tactic.Ring
set_option autoImplicit false
/- C111: integers on the command line -/
namespace Egts

/-- digits that go on: from the value so far to the value at the end, number of digits -/
inductive More (b : Nat) : Bytes → Nat → Nat → Nat → Prop
  | nil {n : Nat} : More b [] n n 0
  | dig {s : Bytes} {n m k : Nat} {c : UInt8} {d : Nat} (h : DigitOf b c d) (r : More b s (b * n + d) m k) : More b (c :: s) n m (k + 1)
  | und {s : Bytes} {n m k : Nat} {c : UInt8} {d : Nat} (h : DigitOf b c d) (r : More b s (b * n + d) m k) : More b (95 :: c :: s) n m (k + 1)

theorem More.append {b : Nat} {s : Bytes} {n m k : Nat} (h : More b s n m k) {t : Bytes} {m' j : Nat} (h' : More b t m m' j) :
    More b (s ++ t) n m' (k + j) := by
  induction h with
  | nil => simpa using h'
  | dig hd _ ih => have := More.dig hd (ih h'); rw [Nat.add_right_comm] at this; exact this
  | und hd _ ih => have := More.und hd (ih h'); rw [Nat.add_right_comm] at this; exact this

theorem Grouped.toMore {b : Nat} {s : Bytes} {n k : Nat} (h : Grouped b s n k) : ∃ c t d j, s = c :: t ∧ DigitOf b c d ∧ More b t d n j ∧ k = j + 1 := by
  induction h with
  | one hd => exact ⟨_, _, _, _, rfl, hd, .nil, rfl⟩
  | next _ hd ih =>
    obtain ⟨c, t, d, j, rfl, h1, h2, rfl⟩ := ih
    exact ⟨c, _, d, _, rfl, h1, h2.append (.dig hd .nil), rfl⟩
  | under _ hd ih =>
    obtain ⟨c, t, d, j, rfl, h1, h2, rfl⟩ := ih
    exact ⟨c, _, d, _, rfl, h1, h2.append (.und hd .nil), rfl⟩

theorem Grouped.append {b : Nat} {s : Bytes} {n k : Nat} (g : Grouped b s n k) {t : Bytes} {m j : Nat} (h : More b t n m j) :
    Grouped b (s ++ t) m (k + j) := by
  induction h generalizing s k with
  | nil => simpa using g
  | dig hd _ ih =>
    have := ih (g.next hd)
    rw [List.append_assoc] at this
    rw [Nat.add_assoc, Nat.add_comm 1] at this; exact this
  | und hd _ ih =>
    have := ih (g.under hd)
    rw [List.append_assoc] at this
    rw [Nat.add_assoc, Nat.add_comm 1] at this; exact this

theorem grouped_iff {b : Nat} {s : Bytes} {n k : Nat} : Grouped b s n k ↔ ∃ c t d j, s = c :: t ∧ DigitOf b c d ∧ More b t d n j ∧ k = j + 1 := by
  refine ⟨Grouped.toMore, ?_⟩
  rintro ⟨c, t, d, j, rfl, h1, h2, rfl⟩
  have := (Grouped.one h1).append h2
  rw [Nat.add_comm j 1]; exact this

/-- what may follow a digit or a base prefix -/
theorem more_zero {b : Nat} {s : Bytes} {m k : Nat} : More b s 0 m k ↔ (s = [] ∧ m = 0 ∧ k = 0) ∨ ∃ u t, (u = [] ∨ u = [95]) ∧ s = u ++ t ∧ Grouped b t m k := by
  constructor
  · intro h
    cases h with
    | nil => exact .inl ⟨rfl, rfl, rfl⟩
    | dig hd r => exact .inr ⟨[], _, .inl rfl, rfl, grouped_iff.mpr ⟨_, _, _, _, rfl, hd, by simpa using r, rfl⟩⟩
    | und hd r => exact .inr ⟨[95], _, .inr rfl, rfl, grouped_iff.mpr ⟨_, _, _, _, rfl, hd, by simpa using r, rfl⟩⟩
  · rintro (⟨rfl, rfl, rfl⟩ | ⟨u, t, hu, rfl, g⟩)
    · exact .nil
    · obtain ⟨c, t, d, j, rfl, h1, h2, rfl⟩ := g.toMore
      rcases hu with rfl | rfl
      · exact .dig h1 (by simpa using h2)
      · exact .und h1 (by simpa using h2)

/-- all bytes -/
theorem bytes_all {P : UInt8 → Prop} (h : ∀ n : Fin 256, P (UInt8.ofNat n.val)) (c : UInt8) : P c := by
  have := h ⟨c.toNat, c.toNat_lt⟩
  simpa using this

theorem digitVal_iff (c : UInt8) (d : Nat) : digitVal c = some d ↔ DigitOf 36 c d := by
  have h : ∀ c : UInt8, ∀ d < 36, digitVal c = some d ↔ (d < 10 ∧ c.toNat = 48 + d ∨ 10 ≤ d ∧ (c.toNat = 55 + d ∨ c.toNat = 87 + d)) :=
    bytes_all (by decide +kernel)
  have h' : ∀ c : UInt8, ∀ d, digitVal c = some d → d < 36 := by
    intro c
    have : ∀ c : UInt8, (digitVal c).all (· < 36) = true := bytes_all (by decide +kernel)
    intro d hd
    have := this c
    rw [hd] at this
    simpa using this
  constructor
  · intro e; exact ⟨h' c d e, (h c d (h' c d e)).mp e⟩
  · rintro ⟨h1, h2⟩; exact (h c d h1).mpr h2

theorem DigitOf.mono {b b' : Nat} {c : UInt8} {d : Nat} (h : DigitOf b c d) (hb : b ≤ b') : DigitOf b' c d := ⟨h.1.trans_le hb, h.2⟩

theorem DigitOf.val {b : Nat} {c : UInt8} {d : Nat} (h : DigitOf b c d) (hb : b ≤ 36) : digitVal c = some d := (digitVal_iff c d).mpr (h.mono hb)

theorem digit_bytes (c : UInt8) : (decByte c = true ↔ ∃ d, DigitOf 10 c d) ∧ ((decByte c || hexByte c) = true ↔ ∃ d, DigitOf 16 c d) ∧ (c = 95 → digitVal c = none) := by
  have h : ∀ c : UInt8, (decByte c = true ↔ ∃ d < 10, DigitOf 10 c d) ∧ ((decByte c || hexByte c) = true ↔ ∃ d < 16, DigitOf 16 c d) ∧ (c = 95 → digitVal c = none) := by
    exact bytes_all (by unfold DigitOf; decide +kernel)
  obtain ⟨h1, h2, h3⟩ := h c
  refine ⟨h1.trans ⟨fun ⟨d, _, h⟩ => ⟨d, h⟩, fun ⟨d, h⟩ => ⟨d, h.1, h⟩⟩, h2.trans ⟨fun ⟨d, _, h⟩ => ⟨d, h⟩, fun ⟨d, h⟩ => ⟨d, h.1, h⟩⟩, h3⟩

/-- is it a digit for `underscoreOK`? -/
def okDigit (hex : Bool) (c : UInt8) : Bool := decByte c || (hex && hexByte c)

theorem okDigit_iff (hex : Bool) (c : UInt8) : okDigit hex c = true ↔ ∃ d, DigitOf (if hex then 16 else 10) c d := by
  cases hex
  · simpa [okDigit] using (digit_bytes c).1
  · simpa [okDigit] using (digit_bytes c).2.1

theorem okDigit_of {hex : Bool} {b : Nat} {c : UInt8} {d : Nat} (h : DigitOf b c d) (hb : b ≤ if hex then 16 else 10) : okDigit hex c = true :=
  (okDigit_iff hex c).mpr ⟨d, h.mono hb⟩

theorem digit_ne {b : Nat} {c : UInt8} {d : Nat} (h : DigitOf b c d) (hb : b ≤ 36) : c ≠ 95 := by
  intro e
  have := (digit_bytes c).2.2 e
  rw [h.val hb] at this
  cases this

theorem underscore_digit {hex : Bool} {c : UInt8} (h : okDigit hex c = true) (i : Prev) (s : Bytes) :
    underscoreLoop hex i (c :: s) = underscoreLoop hex .digit s := by
  rw [underscoreLoop]; exact if_pos h

theorem underscore_under (hex : Bool) (i : Prev) (s : Bytes) : underscoreLoop hex i (95 :: s) = (i == .digit && underscoreLoop hex .under s) := by
  rw [underscoreLoop, if_neg (by cases hex <;> decide), if_pos rfl]

/-- without underscores there is nothing to check -/
theorem underscore_free (hex : Bool) (s : Bytes) (h : 95 ∉ s) (i : Prev) (hi : i ≠ .under) : underscoreLoop hex i s = true := by
  induction s generalizing i with
  | nil => cases i <;> simp_all [underscoreLoop]
  | cons c s ih =>
    simp only [List.mem_cons, not_or] at h
    rw [underscoreLoop]
    split
    · exact ih h.2 _ (by simp)
    · rw [if_neg (Ne.symm h.1)]
      simp [hi, ih h.2 .other (by simp)]

/-- the digits of an integer after the first one -/
theorem uintLoop_iff (b : Nat) (hex : Bool) (hb : 2 ≤ b) (hh : b ≤ if hex then 16 else 10) (s : Bytes) (n m : Nat) (hn : n < 2 ^ 64) :
    (uintLoop b s n = some m ∧ underscoreLoop hex .digit s = true) ↔ (∃ k, More b s n m k) ∧ m < 2 ^ 64 := by
  have hb36 : b ≤ 36 := by cases hex <;> simp at hh <;> omega
  -- one digit at the front
  have one : ∀ (t : Bytes) (c : UInt8) (n : Nat), n < 2 ^ 64 → c ≠ 95 →
      (∀ n, n < 2 ^ 64 → ((uintLoop b t n = some m ∧ underscoreLoop hex .digit t = true) ↔ (∃ k, More b t n m k) ∧ m < 2 ^ 64)) →
      ∀ i : Prev, ((uintLoop b (c :: t) n = some m ∧ underscoreLoop hex i (c :: t) = true) ↔ (∃ d k, DigitOf b c d ∧ More b t (b * n + d) m k) ∧ m < 2 ^ 64) := by
    intro t c n hn hc ih i
    rw [uintLoop, if_neg hc]
    constructor
    · intro ⟨h1, h2⟩
      cases hd : digitVal c with
      | none => rw [hd] at h1; cases h1
      | some d =>
        rw [hd] at h1
        dsimp only at h1
        by_cases hbd : b ≤ d
        · rw [if_pos hbd] at h1; cases h1
        · rw [if_neg hbd] at h1
          by_cases hr : 2 ^ 64 ≤ n * b + d
          · rw [if_pos hr] at h1; cases h1
          · rw [if_neg hr, Nat.mul_comm] at h1
            have hD : DigitOf b c d := ⟨by omega, ((digitVal_iff c d).mp hd).2⟩
            rw [underscore_digit (okDigit_of hD hh)] at h2
            obtain ⟨⟨k, hk⟩, hm⟩ := (ih _ (by rw [Nat.mul_comm]; omega)).mp ⟨h1, h2⟩
            exact ⟨⟨d, k, hD, hk⟩, hm⟩
    · rintro ⟨⟨d, k, hD, hk⟩, hm⟩
      have hle : ∀ {s n m k}, More b s n m k → n ≤ m := by
        intro s n m k h
        induction h with
        | nil => exact Nat.le_refl _
        | dig _ _ ih => exact le_trans (by nlinarith) ih
        | und _ _ ih => exact le_trans (by nlinarith) ih
      have := hle hk
      rw [hD.val hb36]
      dsimp only
      rw [if_neg (by have := hD.1; omega), if_neg (by rw [Nat.mul_comm]; omega), underscore_digit (okDigit_of hD hh), Nat.mul_comm]
      exact (ih _ (by omega)).mpr ⟨⟨k, hk⟩, hm⟩
  induction hl : s.length using Nat.strong_induction_on generalizing s n with
  | _ L IH =>
    match s with
    | [] =>
      simp only [uintLoop, underscoreLoop, Option.some.injEq]
      constructor
      · rintro ⟨rfl, -⟩; exact ⟨⟨0, .nil⟩, hn⟩
      · rintro ⟨⟨k, h⟩, -⟩; cases h; exact ⟨rfl, rfl⟩
    | c :: t =>
      by_cases hc : c = 95
      · subst hc
        rw [underscore_under]
        match t with
        | [] =>
          constructor
          · rintro ⟨-, h⟩; cases h
          · rintro ⟨⟨k, h⟩, -⟩
            cases h with
            | dig hd _ => exact absurd rfl (digit_ne hd hb36)
        | c :: t =>
          rw [uintLoop, if_pos rfl]
          by_cases hc : c = 95
          · subst hc
            rw [underscore_under]
            constructor
            · rintro ⟨-, h⟩; cases h
            · rintro ⟨⟨k, h⟩, -⟩
              cases h with
              | dig hd _ => exact absurd rfl (digit_ne hd hb36)
              | und hd _ => exact absurd rfl (digit_ne hd hb36)
          · have := one t c n hn hc (fun n hn => IH t.length (by simp at hl; omega) t n hn rfl) .under
            simp only [BEq.rfl, Bool.true_and]
            rw [this]
            refine and_congr_left fun _ => ⟨?_, ?_⟩
            · rintro ⟨d, k, hd, hk⟩; exact ⟨_, .und hd hk⟩
            · rintro ⟨k, h⟩
              cases h with
              | dig hd _ => exact absurd rfl (digit_ne hd hb36)
              | und hd r => exact ⟨_, _, hd, r⟩
      · rw [one t c n hn hc (fun n hn => IH t.length (by simp at hl; omega) t n hn rfl) .digit]
        refine and_congr_left fun _ => ⟨?_, ?_⟩
        · rintro ⟨d, k, hd, hk⟩; exact ⟨_, .dig hd hk⟩
        · rintro ⟨k, h⟩
          cases h with
          | dig hd r => exact ⟨_, _, hd, r⟩
          | und hd _ => exact absurd rfl hc

theorem parseUint_iff0 (s : Bytes) (n : Nat) : goParseUint s = some n ↔
    s ≠ [] ∧ uintLoop (uintBase s).1 (uintBase s).2 0 = some n ∧ underscoreOK s = true := by
  unfold goParseUint
  by_cases hs : s = []
  · simp [hs]
  rw [if_neg hs]
  cases hu : uintLoop (uintBase s).1 (uintBase s).2 0 with
  | none => simp
  | some m =>
    have hfree : s.contains 95 = false → underscoreOK s = true := by
      intro h
      have h95 : 95 ∉ s := by simpa using h
      have hds : 95 ∉ dropSign s := by
        unfold dropSign
        split <;> simp_all
      unfold underscoreOK
      split
      · rename_i c t e
        rw [e] at hds
        split
        · exact underscore_free _ _ (fun h => hds (by simp [h])) _ (by simp)
        · rw [e]; exact underscore_free _ _ hds _ (by simp)
      · exact underscore_free _ _ hds _ (by simp)
    dsimp only
    cases hc : s.contains 95 with
    | false => simp [hfree hc, hs]
    | true =>
      cases underscoreOK s <;> simp [hs]

theorem prefix_cases (c : UInt8) : (lowerByte c = 98 ↔ c = 98 ∨ c = 66) ∧ (lowerByte c = 111 ↔ c = 111 ∨ c = 79) ∧ (lowerByte c = 120 ↔ c = 120 ∨ c = 88) :=
  bytes_all (P := fun c => (lowerByte c = 98 ↔ c = 98 ∨ c = 66) ∧ (lowerByte c = 111 ↔ c = 111 ∨ c = 79) ∧ (lowerByte c = 120 ↔ c = 120 ∨ c = 88))
    (by decide +kernel) c

/-- a number with a prefix -/
theorem parse_prefixed {b : Nat} {hex : Bool} {r : Bytes} {n : Nat} (hr : r ≠ [])
    (hb : 2 ≤ b) (hh : b ≤ if hex then 16 else 10) :
    (uintLoop b r 0 = some n ∧ underscoreLoop hex .digit r = true) ↔ (∃ u s k, (u = [] ∨ u = [95]) ∧ r = u ++ s ∧ Grouped b s n k) ∧ n < 2 ^ 64 := by
  rw [uintLoop_iff b hex hb hh r 0 n (by norm_num)]
  refine and_congr_left fun _ => ?_
  constructor
  · rintro ⟨k, h⟩
    rcases more_zero.mp h with ⟨h, -⟩ | ⟨u, t, hu, rfl, g⟩
    · exact absurd h hr
    · exact ⟨u, t, k, hu, rfl, g⟩
  · rintro ⟨u, t, k, hu, rfl, g⟩
    exact ⟨k, more_zero.mpr (.inr ⟨u, t, hu, rfl, g⟩)⟩

theorem Grouped.head {b : Nat} {s : Bytes} {n k : Nat} (g : Grouped b s n k) : ∃ c t d, s = c :: t ∧ DigitOf b c d := by
  obtain ⟨c, t, d, j, h, h1, -, -⟩ := g.toMore
  exact ⟨c, t, d, h, h1⟩

theorem Grouped.ne_nil {b : Nat} {s : Bytes} {n k : Nat} (g : Grouped b s n k) : s ≠ [] := by
  obtain ⟨c, t, d, rfl, -⟩ := g.head
  simp

theorem digit_letter {c : UInt8} {d : Nat} (h : DigitOf 10 c d) : ∀ b, (c, b) ∉ basePrefix := by
  have : 48 ≤ c.toNat ∧ c.toNat ≤ 57 := by have := h.1; rcases h.2 with h | h <;> omega
  intro b hb
  simp only [basePrefix, List.mem_cons, Prod.mk.injEq, List.not_mem_nil, or_false] at hb
  rcases hb with ⟨rfl, -⟩ | ⟨rfl, -⟩ | ⟨rfl, -⟩ | ⟨rfl, -⟩ | ⟨rfl, -⟩ | ⟨rfl, -⟩ <;> revert this <;> decide

/-- C111: the texts of unsigned integers -/
theorem parseUint_iff (s : Bytes) (n : Nat) : goParseUint s = some n ↔ NatText s n ∧ n < 2 ^ 64 := by
  rw [parseUint_iff0]
  -- how a literal starts
  have start : ∀ {s n}, NatText s n → (∃ c t, s = c :: t ∧ decByte c = true) := by
    intro s n h
    cases h with
    | zero => exact ⟨48, [], rfl, rfl⟩
    | dec g _ =>
      obtain ⟨c, t, d, rfl, hd⟩ := g.head
      exact ⟨c, t, rfl, (digit_bytes c).1.mpr ⟨d, hd⟩⟩
    | oct hu g => exact ⟨48, _, rfl, rfl⟩
    | pre hc hu g => exact ⟨48, _, rfl, rfl⟩
  match s with
  | [] =>
    constructor
    · rintro ⟨h, -⟩; exact absurd rfl h
    · rintro ⟨h, -⟩; obtain ⟨c, t, e, -⟩ := start h; cases e
  | c :: t =>
    by_cases h0 : c = 48
    · subst h0
      -- octal without a letter
      have octal : ∀ t, (∀ x r b, t = x :: r → (x, b) ∈ basePrefix → r = []) → uintBase (48 :: t) = (8, t) →
          underscoreOK (48 :: t) = (match t with
            | x :: _ => if lowerByte x = 98 ∨ lowerByte x = 111 ∨ lowerByte x = 120 then underscoreOK (48 :: t) else underscoreLoop false .digit t
            | [] => true) →
          ((48 :: t ≠ [] ∧ uintLoop (uintBase (48 :: t)).1 (uintBase (48 :: t)).2 0 = some n ∧ underscoreOK (48 :: t) = true) ↔ NatText (48 :: t) n ∧ n < 2 ^ 64) := by
        intro t hp hbase hok
        rw [hbase]
        by_cases hx : ∃ x r b, t = x :: r ∧ (x, b) ∈ basePrefix
        · obtain ⟨x, r, b, rfl, hb⟩ := hx
          obtain rfl := hp x r b rfl hb
          have hbad : uintLoop 8 [x] 0 = none := by
            simp only [basePrefix, List.mem_cons, Prod.mk.injEq, List.not_mem_nil, or_false] at hb
            rcases hb with ⟨rfl, -⟩ | ⟨rfl, -⟩ | ⟨rfl, -⟩ | ⟨rfl, -⟩ | ⟨rfl, -⟩ | ⟨rfl, -⟩ <;> decide +kernel
          dsimp only
          rw [hbad]
          constructor
          · rintro ⟨-, h, -⟩; cases h
          · rintro ⟨h, -⟩
            exfalso
            generalize hs : [48, x] = s at h
            cases h with
            | zero => cases hs
            | dec g hh => rw [← hs] at hh; exact hh rfl
            | oct hu g =>
              rcases hu with rfl | rfl
              · have := (List.cons.inj hs).2
                obtain ⟨c, t, d, rfl, hd⟩ := g.head
                rw [← (List.cons.inj this).1] at hd
                exact digit_letter (hd.mono (by norm_num)) b hb
              · have := (List.cons.inj hs).2
                have := (List.cons.inj this).2
                exact g.ne_nil this.symm
            | pre hc hu g =>
              have := (List.cons.inj (List.cons.inj hs).2).2
              exact g.ne_nil (List.append_eq_nil_iff.mp this.symm).2
        · have hlow : ∀ x r, t = x :: r → ¬ (lowerByte x = 98 ∨ lowerByte x = 111 ∨ lowerByte x = 120) := by
            rintro x r rfl h
            apply hx
            obtain ⟨p1, p2, p3⟩ := prefix_cases x
            rw [p1, p2, p3] at h
            rcases h with (rfl | rfl) | (rfl | rfl) | (rfl | rfl)
            · exact ⟨_, r, 2, rfl, by simp [basePrefix]⟩
            · exact ⟨_, r, 2, rfl, by simp [basePrefix]⟩
            · exact ⟨_, r, 8, rfl, by simp [basePrefix]⟩
            · exact ⟨_, r, 8, rfl, by simp [basePrefix]⟩
            · exact ⟨_, r, 16, rfl, by simp [basePrefix]⟩
            · exact ⟨_, r, 16, rfl, by simp [basePrefix]⟩
          have hok' : underscoreOK (48 :: t) = underscoreLoop false .digit t := by
            rw [hok]
            cases t with
            | nil => rfl
            | cons x r => exact if_neg (hlow x r rfl)
          dsimp only
          rw [hok']
          rw [show (48 :: t ≠ [] ∧ uintLoop 8 t 0 = some n ∧ underscoreLoop false .digit t = true) ↔
            (uintLoop 8 t 0 = some n ∧ underscoreLoop false .digit t = true) by simp,
            uintLoop_iff 8 false (by norm_num) (by norm_num) t 0 n (by norm_num)]
          refine and_congr_left fun _ => ?_
          constructor
          · rintro ⟨k, h⟩
            rcases more_zero.mp h with ⟨rfl, rfl, rfl⟩ | ⟨u, t, hu, rfl, g⟩
            · exact .zero
            · exact .oct hu g
          · intro h
            generalize hs : 48 :: t = s at h
            cases h with
            | zero => cases hs; exact ⟨0, .nil⟩
            | dec g hh => rw [← hs] at hh; exact absurd rfl hh
            | oct hu g =>
              have := (List.cons.inj hs).2
              exact ⟨_, more_zero.mpr (.inr ⟨_, _, hu, this, g⟩)⟩
            | pre hc hu g => exact absurd ⟨_, _, _, (List.cons.inj hs).2, hc⟩ hx
      match t with
      | [] => exact octal [] (by simp) rfl rfl
      | [x] => exact octal [x] (by rintro y r b h -; exact (List.cons.inj h).2.symm) rfl (by
          dsimp only
          split
          · rfl
          · rename_i h
            show (if _ then _ else underscoreLoop false .start [48, x]) = _
            rw [if_neg h, underscore_digit rfl])
      | x :: y :: r =>
        -- a prefix
        have pre : ∀ (b : Nat) (hex : Bool), (x, b) ∈ basePrefix → 2 ≤ b → (b ≤ if hex then 16 else 10) → uintBase (48 :: x :: y :: r) = (b, y :: r) →
            underscoreOK (48 :: x :: y :: r) = underscoreLoop hex .digit (y :: r) →
            ((48 :: x :: y :: r ≠ [] ∧ uintLoop (uintBase (48 :: x :: y :: r)).1 (uintBase (48 :: x :: y :: r)).2 0 = some n ∧
              underscoreOK (48 :: x :: y :: r) = true) ↔ NatText (48 :: x :: y :: r) n ∧ n < 2 ^ 64) := by
          intro b hex hx hb hh e1 e2
          rw [e1, e2]
          dsimp only
          rw [show (48 :: x :: y :: r ≠ [] ∧ uintLoop b (y :: r) 0 = some n ∧ underscoreLoop hex .digit (y :: r) = true) ↔
            (uintLoop b (y :: r) 0 = some n ∧ underscoreLoop hex .digit (y :: r) = true) by simp, parse_prefixed (by simp) hb hh]
          refine and_congr_left fun _ => ?_
          constructor
          · rintro ⟨u, s, k, hu, e, g⟩
            rw [e]
            have := NatText.pre hx hu g
            simpa using this
          · intro h
            generalize hs : 48 :: x :: y :: r = s at h
            cases h with
            | zero => cases hs
            | dec g hh => rw [← hs] at hh; exact absurd rfl hh
            | oct hu g =>
              exfalso
              have := (List.cons.inj hs).2
              rcases hu with rfl | rfl
              · obtain ⟨c, t, d, rfl, hd⟩ := g.head
                rw [← (List.cons.inj this).1] at hd
                exact digit_letter (hd.mono (by norm_num)) b hx
              · have := (List.cons.inj this).1
                rw [this] at hx
                simp [basePrefix] at hx
            | pre hc hu g =>
              have := (List.cons.inj hs).2
              obtain ⟨e1, e2⟩ := List.cons.inj this
              subst e1
              rename_i b' _ _ _
              have : b' = b := by
                simp only [basePrefix, List.mem_cons, Prod.mk.injEq, List.not_mem_nil, or_false] at hc hx
                rcases hc with ⟨rfl, rfl⟩ | ⟨rfl, rfl⟩ | ⟨rfl, rfl⟩ | ⟨rfl, rfl⟩ | ⟨rfl, rfl⟩ | ⟨rfl, rfl⟩ <;> (simp at hx; exact hx.symm)
              exact ⟨_, _, _, hu, e2, this ▸ g⟩
        obtain ⟨p1, p2, p3⟩ := prefix_cases x
        by_cases h1 : lowerByte x = 98
        · refine pre 2 false (by rcases p1.mp h1 with rfl | rfl <;> simp [basePrefix]) (by norm_num) (by norm_num) ?_ ?_
          · simp [uintBase, h1]
          · simp [underscoreOK, dropSign, h1]
        · by_cases h2 : lowerByte x = 111
          · refine pre 8 false (by rcases p2.mp h2 with rfl | rfl <;> simp [basePrefix]) (by norm_num) (by norm_num) ?_ ?_
            · simp [uintBase, h2]
            · simp [underscoreOK, dropSign, h2]
          · by_cases h3 : lowerByte x = 120
            · refine pre 16 true (by rcases p3.mp h3 with rfl | rfl <;> simp [basePrefix]) (by norm_num) (by norm_num) ?_ ?_
              · simp [uintBase, h3]
              · simp [underscoreOK, dropSign, h3]
            · refine octal _ ?_ ?_ ?_
              · intro x' r' b e hb
                exfalso
                obtain ⟨rfl, -⟩ := List.cons.inj e
                simp only [basePrefix, List.mem_cons, Prod.mk.injEq, List.not_mem_nil, or_false] at hb
                rcases hb with ⟨rfl, -⟩ | ⟨rfl, -⟩ | ⟨rfl, -⟩ | ⟨rfl, -⟩ | ⟨rfl, -⟩ | ⟨rfl, -⟩ <;>
                  first | exact h1 (by decide) | exact h2 (by decide) | exact h3 (by decide)
              · simp [uintBase, h1, h2, h3]
              · simp only [h1, h2, h3, or_self, if_false]
                show (if lowerByte x = 98 ∨ lowerByte x = 111 ∨ lowerByte x = 120 then _ else underscoreLoop false .start (48 :: x :: y :: r)) = _
                rw [if_neg (by simp [h1, h2, h3])]
                exact underscore_digit (hex := false) (c := 48) rfl _ _
    · -- decimal
      have hbase : uintBase (c :: t) = (10, c :: t) := by
        unfold uintBase
        split <;> simp_all
      rw [hbase]
      dsimp only
      by_cases hd : decByte c = true
      · have hne : c ≠ 95 := by rintro rfl; cases hd
        obtain ⟨d, hD⟩ := (digit_bytes c).1.mp hd
        have hsign : dropSign (c :: t) = c :: t := by
          unfold dropSign
          split
          · rename_i h; rw [(List.cons.inj h).1] at hd; cases hd
          · rename_i h; rw [(List.cons.inj h).1] at hd; cases hd
          · rfl
        have hok : underscoreOK (c :: t) = underscoreLoop false .digit t := by
          unfold underscoreOK
          rw [hsign]
          split
          · rename_i h; exact absurd (List.cons.inj h).1 h0
          · exact underscore_digit (okDigit_of hD (by simp)) _ _
        have hloop : uintLoop 10 (c :: t) 0 = uintLoop 10 t d := by
          have h1 := hD.1
          rw [uintLoop, if_neg hne, hD.val (by norm_num)]
          dsimp only
          rw [if_neg (by omega), if_neg (by omega), Nat.zero_mul, Nat.zero_add]
        rw [hok, hloop, show (c :: t ≠ [] ∧ uintLoop 10 t d = some n ∧ underscoreLoop false .digit t = true) ↔
            (uintLoop 10 t d = some n ∧ underscoreLoop false .digit t = true) by simp,
            uintLoop_iff 10 false (by norm_num) (by norm_num) t d n (by have := hD.1; omega)]
        refine and_congr_left fun _ => ?_
        constructor
        · rintro ⟨k, h⟩
          exact .dec (grouped_iff.mpr ⟨c, t, d, k, rfl, hD, h, rfl⟩) (by simpa using h0)
        · intro h
          generalize hs : c :: t = s at h
          cases h with
          | zero => exact absurd (List.cons.inj hs).1 h0
          | dec g _ =>
            obtain ⟨c', t', d', j, e, h1, h2, -⟩ := g.toMore
            rw [e] at hs
            obtain ⟨rfl, rfl⟩ := List.cons.inj hs
            have := h1.val (by norm_num)
            rw [hD.val (by norm_num)] at this
            cases this
            exact ⟨j, h2⟩
          | oct hu g => exact absurd (List.cons.inj hs).1 h0
          | pre hc hu g => exact absurd (List.cons.inj hs).1 h0
      · constructor
        · rintro ⟨-, h1, h2⟩
          exfalso
          -- a letter, a sign or an underscore
          by_cases hu : c = 95
          · subst hu
            have : underscoreOK (95 :: t) = underscoreLoop false .start (95 :: t) := rfl
            rw [this, underscore_under] at h2
            cases h2
          · rw [uintLoop, if_neg hu] at h1
            cases hv : digitVal c with
            | none => rw [hv] at h1; cases h1
            | some d =>
              rw [hv] at h1
              dsimp only at h1
              by_cases hb : 10 ≤ d
              · rw [if_pos hb] at h1; cases h1
              · have := (digitVal_iff c d).mp hv
                exact hd ((digit_bytes c).1.mpr ⟨d, by omega, this.2⟩)
        · rintro ⟨h, -⟩
          obtain ⟨c', t', e, h⟩ := start h
          rw [← (List.cons.inj e).1] at h
          exact absurd h hd

theorem natText_head {s : Bytes} {n : Nat} (h : NatText s n) : ∃ c t, s = c :: t ∧ decByte c = true := by
  cases h with
  | zero => exact ⟨48, [], rfl, rfl⟩
  | dec g _ =>
    obtain ⟨c, t, d, rfl, hd⟩ := g.head
    exact ⟨c, t, rfl, (digit_bytes c).1.mpr ⟨d, hd⟩⟩
  | oct hu g => exact ⟨48, _, rfl, rfl⟩
  | pre hc hu g => exact ⟨48, _, rfl, rfl⟩

/-- C111: `-pid`, `-oid`, `-liquid` and `-timeout` take exactly the integer literals of Go with an optional sign that fit an int64, as the numbers
they denote -/
theorem parseInt_iff (s : Bytes) (v : Int64) : goParseInt s = some v ↔ IntText s v.toInt := by
  have hv := v.le_toInt
  have hv' := v.toInt_lt
  have inj : ∀ a b : Int, a = b → (-2^63 ≤ a ∧ a < 2^63) → (Int64.ofInt a).toInt = b := by
    rintro a _ rfl ⟨h1, h2⟩
    exact Int64.toInt_ofInt_of_le h1 h2
  have nosign : ∀ {c t}, ¬ (c = 43 ∨ c = 45) → ∀ {v : Int}, IntText (c :: t) v → ∃ n : Nat, v = n ∧ NatText (c :: t) n := by
    intro c t hc v h
    generalize hs : c :: t = s at h
    cases h with
    | plain h => exact ⟨_, rfl, h⟩
    | plus h => exact absurd (.inl (List.cons.inj hs).1) hc
    | minus h => exact absurd (.inr (List.cons.inj hs).1) hc
  have nonat : ∀ {c t n}, (c = 43 ∨ c = 45) → ¬ NatText (c :: t) n := by
    rintro c t n hc h
    obtain ⟨c', t', e, hd⟩ := natText_head h
    rw [← (List.cons.inj e).1] at hd
    rcases hc with rfl | rfl <;> cases hd
  -- texts without a minus
  have pos : ∀ t : Bytes, (match goParseUint t with
      | some n => if n < 2 ^ 63 then some (Int64.ofInt n) else none
      | none => none) = some v ↔ ∃ n : Nat, v.toInt = n ∧ NatText t n := by
    intro t
    cases hu : goParseUint t with
    | none =>
      simp only [reduceCtorEq, false_iff]
      rintro ⟨n, e, h⟩
      have := (parseUint_iff t n).mpr ⟨h, by omega⟩
      rw [hu] at this; cases this
    | some n =>
      obtain ⟨h1, h2⟩ := (parseUint_iff t n).mp hu
      dsimp only
      constructor
      · intro h
        split at h
        · cases h
          rename_i hlt
          exact ⟨n, inj _ _ rfl ⟨by omega, by exact_mod_cast hlt⟩, h1⟩
        · cases h
      · rintro ⟨m, e, h⟩
        have := (parseUint_iff t m).mpr ⟨h, by omega⟩
        rw [hu] at this
        cases this
        rw [if_pos (by omega), ← e]
        simp
  have neg : ∀ t : Bytes, (match goParseUint t with
      | some n => if n ≤ 2 ^ 63 then some (Int64.ofInt (-(n : Int))) else none
      | none => none) = some v ↔ ∃ n : Nat, v.toInt = -(n : Int) ∧ NatText t n := by
    intro t
    cases hu : goParseUint t with
    | none =>
      simp only [reduceCtorEq, false_iff]
      rintro ⟨n, e, h⟩
      have := (parseUint_iff t n).mpr ⟨h, by omega⟩
      rw [hu] at this; cases this
    | some n =>
      obtain ⟨h1, h2⟩ := (parseUint_iff t n).mp hu
      dsimp only
      constructor
      · intro h
        split at h
        · cases h
          exact ⟨n, inj _ _ rfl ⟨by omega, by omega⟩, h1⟩
        · cases h
      · rintro ⟨m, e, h⟩
        have := (parseUint_iff t m).mpr ⟨h, by omega⟩
        rw [hu] at this
        cases this
        rw [if_pos (by omega), ← e]
        simp
  unfold goParseInt
  split
  · rename_i t
    refine (neg t).trans ?_
    constructor
    · rintro ⟨n, e, h⟩; rw [e]; exact .minus h
    · intro h
      generalize hw : v.toInt = w at h
      generalize hs : 45 :: t = s at h
      cases h with
      | plain h => rw [← hs] at h; exact absurd h (nonat (.inr rfl))
      | plus h => cases hs
      | minus h => cases hs; exact ⟨_, rfl, h⟩
  · rename_i hne
    refine (pos (dropSign s)).trans ?_
    match s with
    | [] =>
      constructor
      · rintro ⟨n, -, h⟩; obtain ⟨c, t, e, -⟩ := natText_head h; cases e
      · intro h
        generalize hw : v.toInt = w at h
        cases h with
        | plain h => obtain ⟨c, t, e, -⟩ := natText_head h; cases e
    | c :: t =>
      by_cases hp : c = 43
      · subst hp
        show (∃ n : Nat, v.toInt = n ∧ NatText t n) ↔ _
        constructor
        · rintro ⟨n, e, h⟩; rw [e]; exact .plus h
        · intro h
          generalize hw : v.toInt = w at h
          generalize hs : 43 :: t = s at h
          cases h with
          | plain h => rw [← hs] at h; exact absurd h (nonat (.inl rfl))
          | plus h => cases hs; exact ⟨_, rfl, h⟩
          | minus h => cases hs
      · have hc : ¬ (c = 43 ∨ c = 45) := by
          rintro (h | rfl)
          · exact hp h
          · exact hne t rfl
        have : dropSign (c :: t) = c :: t := by
          unfold dropSign
          split
          · rename_i h; exact absurd (.inl (List.cons.inj h).1) hc
          · rename_i h; exact absurd (.inr (List.cons.inj h).1) hc
          · rfl
        rw [this]
        constructor
        · rintro ⟨n, e, h⟩; rw [e]; exact .plain h
        · intro h
          obtain ⟨n, e, h⟩ := nosign hc h
          exact ⟨n, e, h⟩

/-- 10, but 010 is 8 and 0x_1F is 31; the largest number, and one more; misplaced underscores -/
example : goParseInt (asc "10") = some 10 ∧ goParseInt (asc "010") = some 8 ∧ goParseInt (asc "-0x_1F") = some (-31) ∧ goParseInt (asc "1_000") = some 1000 ∧
    goParseInt (asc "9223372036854775807") = some 9223372036854775807 ∧ goParseInt (asc "9223372036854775808") = none ∧
    goParseInt (asc "-9223372036854775808") = some (-9223372036854775808) ∧ goParseInt (asc "_1") = none ∧ goParseInt (asc "1__0") = none ∧
    goParseInt (asc "1.0") = none ∧ goParseInt (asc "09") = none ∧ goParseInt (asc "") = none ∧ goParseInt (asc " 1") = none := by decide +kernel
example : IntText (asc "010") 8 :=
  .plain (.oct (u := []) (.inl rfl) (s := [49, 48]) (k := 2) (.next (.one (c := 49) (d := 1) ⟨by norm_num, .inl ⟨by norm_num, rfl⟩⟩) (c := 48) (d := 0) ⟨by norm_num, .inl ⟨by norm_num, rfl⟩⟩))

end Egts
