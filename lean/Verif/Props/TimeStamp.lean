import Verif.Props.CmdFlags
import Verif.Props.Time
import Verif.Spec.TimeStamp
set_option autoImplicit false
/- C112: time stamps on the command line -/
namespace Egts

theorem decimal_iff (s : Bytes) (n : Nat) : decimal s = some n ↔ (∀ c ∈ s, decByte c = true) ∧ n = s.foldl (fun n b => 10 * n + (b.toNat - 48)) 0 := by
  have e : decimal s = if s.all decByte then some (s.foldl (fun n b => 10 * n + (b.toNat - 48)) 0) else none := rfl
  rw [e]
  constructor
  · intro h
    split at h
    · rename_i hs
      exact ⟨fun c hc => (List.all_eq_true.mp hs) c hc, (Option.some.inj h).symm⟩
    · cases h
  · rintro ⟨h, rfl⟩
    rw [if_pos (List.all_eq_true.mpr h)]

theorem foldl_dec (s : Bytes) (n : Nat) : s.foldl (fun n b => 10 * n + (b.toNat - 48)) n = n * 10 ^ s.length + s.foldl (fun n b => 10 * n + (b.toNat - 48)) 0 := by
  induction s generalizing n with
  | nil => simp
  | cons c s ih =>
    rw [List.foldl_cons, List.foldl_cons, ih (10 * n + _), ih (10 * 0 + _), List.length_cons, Nat.pow_succ]
    ring

theorem foldl_lt (s : Bytes) (h : ∀ c ∈ s, decByte c = true) : s.foldl (fun n b => 10 * n + (b.toNat - 48)) 0 < 10 ^ s.length := by
  induction s with
  | nil => simp
  | cons c s ih =>
    rw [List.forall_mem_cons] at h
    rw [List.foldl_cons, foldl_dec, List.length_cons, Nat.pow_succ]
    have h1 := ih h.2
    have h2 : c.toNat - 48 ≤ 9 := by
      have := h.1
      unfold decByte at this
      simp only [Bool.and_eq_true, decide_eq_true_eq] at this
      omega
    have : (10 * 0 + (c.toNat - 48)) * 10 ^ s.length ≤ 9 * 10 ^ s.length := Nat.mul_le_mul_right _ (by omega)
    omega

theorem skipByte_iff (c : UInt8) (s r : Bytes) : skipByte c s = some r ↔ s = c :: r := by
  unfold skipByte
  split
  · rename_i d s
    constructor
    · intro h
      split at h
      · rename_i e
        rw [e, Option.some.inj h]
      · cases h
    · intro h
      rw [(List.cons.inj h).1, (List.cons.inj h).2, if_pos rfl]
  · simp

theorem digits1 {c : UInt8} {n : Nat} : decimal [c] = some n ↔ decByte c = true ∧ n = c.toNat - 48 := by
  rw [decimal_iff]
  simp

theorem digits2 {c d : UInt8} {n : Nat} : decimal [c, d] = some n ↔ (decByte c = true ∧ decByte d = true) ∧ n = 10 * (c.toNat - 48) + (d.toNat - 48) := by
  rw [decimal_iff]
  simp

theorem getnum_fixed (s r : Bytes) (n : Nat) : getnum true s = some (n, r) ↔ ∃ t, s = t ++ r ∧ DigitText 2 t n := by
  constructor
  · intro h
    unfold getnum at h
    split at h
    · rename_i c d s
      cases hc : decByte c <;> rw [hc] at h
      · cases h
      cases hd : decByte d <;> rw [hd] at h
      · cases h
      cases h
      exact ⟨[c, d], rfl, rfl, digits2.mpr ⟨⟨hc, hd⟩, rfl⟩⟩
    · rw [Bool.or_true] at h; cases h
    · cases h
  · rintro ⟨t, rfl, hl, hd⟩
    match t, hl with
    | [c, d], _ =>
      obtain ⟨⟨h1, h2⟩, rfl⟩ := digits2.mp hd
      show (if (!decByte c) = true then none else if decByte d = true then _ else _) = _
      rw [h1, h2]
      rfl

theorem getnum_free (s r : Bytes) (n : Nat) : getnum false s = some (n, r) ↔
    ∃ t, s = t ++ r ∧ (DigitText 2 t n ∨ DigitText 1 t n ∧ ∀ c u, r = c :: u → decByte c = false) := by
  constructor
  · intro h
    unfold getnum at h
    split at h
    · rename_i c d s
      cases hc : decByte c <;> rw [hc] at h
      · cases h
      cases hd : decByte d <;> rw [hd] at h
      · cases h
        exact ⟨[c], rfl, .inr ⟨⟨rfl, digits1.mpr ⟨hc, rfl⟩⟩, by rintro c' u e; rw [← (List.cons.inj e).1]; exact hd⟩⟩
      · cases h
        exact ⟨[c, d], rfl, .inl ⟨rfl, digits2.mpr ⟨⟨hc, hd⟩, rfl⟩⟩⟩
    · rename_i c
      cases hc : decByte c <;> rw [hc] at h
      · cases h
      · cases h
        exact ⟨[c], rfl, .inr ⟨⟨rfl, digits1.mpr ⟨hc, rfl⟩⟩, by simp⟩⟩
    · cases h
  · rintro ⟨t, rfl, ⟨hl, hd⟩ | ⟨⟨hl, hd⟩, hr⟩⟩
    · match t, hl with
      | [c, d], _ =>
        obtain ⟨⟨h1, h2⟩, rfl⟩ := digits2.mp hd
        show (if (!decByte c) = true then none else if decByte d = true then _ else _) = _
        rw [h1, h2]
        rfl
    · match t, hl with
      | [c], _ =>
        obtain ⟨h1, rfl⟩ := digits1.mp hd
        match r with
        | [] =>
          show (if (!decByte c || false) = true then none else _) = _
          rw [h1]
          rfl
        | d :: u =>
          show (if (!decByte c) = true then none else if decByte d = true then _ else _) = _
          rw [h1, hr d u rfl]
          rfl

theorem getYear_iff (s r : Bytes) (n : Nat) : getYear s = some (n, r) ↔ ∃ t, s = t ++ r ∧ DigitText 4 t n := by
  have key : ∀ a b c d : UInt8, ∀ n, decimal [a, b, c, d] = some n ↔ (decByte a && decByte b && decByte c && decByte d) = true ∧
      n = 1000 * (a.toNat - 48) + 100 * (b.toNat - 48) + 10 * (c.toNat - 48) + (d.toNat - 48) := by
    intro a b c d n
    rw [decimal_iff]
    simp only [List.mem_cons, List.not_mem_nil, or_false, forall_eq_or_imp, forall_eq, List.foldl_cons, List.foldl_nil, Bool.and_eq_true]
    constructor
    · rintro ⟨h, rfl⟩; exact ⟨by simp [h], by omega⟩
    · rintro ⟨h, rfl⟩; exact ⟨by simp [h], by omega⟩
  constructor
  · intro h
    unfold getYear at h
    split at h
    · rename_i a b c d s
      split at h
      · rename_i hc
        cases h
        exact ⟨[a, b, c, d], rfl, rfl, (key _ _ _ _ _).mpr ⟨hc, rfl⟩⟩
      · cases h
    · cases h
  · rintro ⟨t, rfl, hl, hd⟩
    match t, hl with
    | [a, b, c, d], _ =>
      obtain ⟨h, rfl⟩ := (key _ _ _ _ _).mp hd
      show (if _ then _ else _) = _
      rw [if_pos h]
      rfl

/-- nanoseconds of the digits of a fraction -/
theorem fraction_value (ds : Bytes) (n : Nat) (h : decimal ds = some n) :
    (((ds.take 9).foldl (fun n b => 10 * n + (b.toNat - 48)) 0 * 10 ^ (9 - (ds.take 9).length) : Nat) : ℤ) = ⌊(n : ℚ) / 10 ^ ds.length * 1000000000⌋ := by
  obtain ⟨hd, rfl⟩ := (decimal_iff ds n).mp h
  symm
  rw [Int.floor_eq_iff]
  have p : (0 : ℚ) < 10 ^ ds.length := by positivity
  by_cases hl : ds.length ≤ 9
  · rw [List.take_of_length_le hl]
    have e : (1000000000 : ℚ) = 10 ^ ds.length * 10 ^ (9 - ds.length) := by
      rw [← pow_add, Nat.add_sub_cancel' hl]; norm_num
    rw [e]
    push_cast
    constructor
    · apply le_of_eq; field_simp
    · have : ((ds.foldl (fun n b => 10 * n + (b.toNat - 48)) 0 : ℕ) : ℚ) / 10 ^ ds.length * (10 ^ ds.length * 10 ^ (9 - ds.length)) =
          ((ds.foldl (fun n b => 10 * n + (b.toNat - 48)) 0 : ℕ) : ℚ) * 10 ^ (9 - ds.length) := by field_simp
      rw [this]
      linarith
  · have hl9 : (ds.take 9).length = 9 := by rw [List.length_take]; omega
    rw [hl9, Nat.sub_self, Nat.pow_zero, Nat.mul_one]
    have hs : ds.foldl (fun n b => 10 * n + (b.toNat - 48)) 0 = (ds.take 9).foldl (fun n b => 10 * n + (b.toNat - 48)) 0 * 10 ^ (ds.length - 9) +
        (ds.drop 9).foldl (fun n b => 10 * n + (b.toNat - 48)) 0 := by
      conv_lhs => rw [← List.take_append_drop 9 ds, List.foldl_append, foldl_dec]
      rw [List.length_drop]
    have hlt := foldl_lt (ds.drop 9) (fun c hc => hd c (List.mem_of_mem_drop hc))
    rw [List.length_drop] at hlt
    rw [hs]
    generalize (ds.take 9).foldl (fun n b => 10 * n + (b.toNat - 48)) 0 = a
    generalize (ds.drop 9).foldl (fun n b => 10 * n + (b.toNat - 48)) 0 = b at *
    have e : (10 : ℚ) ^ ds.length = 1000000000 * 10 ^ (ds.length - 9) := by
      rw [show (1000000000 : ℚ) = 10 ^ 9 by norm_num, ← pow_add, Nat.add_sub_cancel' (by omega)]
    have q : (0 : ℚ) < 10 ^ (ds.length - 9) := by positivity
    have hb : (b : ℚ) < 10 ^ (ds.length - 9) := by exact_mod_cast hlt
    have hb0 : (0 : ℚ) ≤ b := by positivity
    have e2 : ((a * 10 ^ (ds.length - 9) + b : ℕ) : ℚ) / 10 ^ ds.length * 1000000000 = a + b / 10 ^ (ds.length - 9) := by
      rw [e]; push_cast; field_simp
    rw [e2]
    have h1 : (b : ℚ) / 10 ^ (ds.length - 9) < 1 := by rw [div_lt_one q]; exact hb
    have h0 : 0 ≤ (b : ℚ) / 10 ^ (ds.length - 9) := by positivity
    push_cast
    constructor <;> linarith

theorem takeWhile_all (l : Bytes) : ∀ x ∈ l.takeWhile decByte, decByte x = true := by
  induction l with
  | nil => simp
  | cons c l ih =>
    cases h : decByte c with
    | false => simp [h]
    | true => rw [List.takeWhile_cons_of_pos h, List.forall_mem_cons]; exact ⟨h, ih⟩

/-- no digit follows -/
def NoDigit (r : Bytes) : Prop := ∀ c u, r = c :: u → decByte c = false

theorem digitRun (ds r : Bytes) (h : ∀ c ∈ ds, decByte c = true) (hr : NoDigit r) : (ds ++ r).takeWhile decByte = ds ∧ (ds ++ r).dropWhile decByte = r := by
  induction ds with
  | nil =>
    match r with
    | [] => exact ⟨rfl, rfl⟩
    | c :: u =>
      have hc := hr c u rfl
      simp [hc]
  | cons c ds ih =>
    rw [List.forall_mem_cons] at h
    simp [h.1, ih h.2]

/-- what `getFraction` does, given that neither a digit nor a point with a digit follows -/
theorem getFraction_iff (s r : Bytes) (ns : Nat) (hr : ∀ c u, r = c :: u → decByte c = false ∧ c ≠ 46 ∧ c ≠ 44) :
    getFraction s = (ns, r) ↔ ∃ t f, s = t ++ r ∧ FractionText (fun c => c = 46 ∨ c = 44) t f ∧ (ns : ℤ) = ⌊f * 1000000000⌋ := by
  constructor
  · intro h
    unfold getFraction at h
    split at h
    · rename_i c d s
      split at h
      · rename_i hc
        obtain ⟨h1, h2⟩ := Prod.ext_iff.mp h
        dsimp only at h1 h2
        have hall : ∀ x ∈ (d :: s).takeWhile decByte, decByte x = true := fun x hx => takeWhile_all _ x hx
        have hdec : decimal ((d :: s).takeWhile decByte) = some (((d :: s).takeWhile decByte).foldl (fun n b => 10 * n + (b.toNat - 48)) 0) :=
          (decimal_iff _ _).mpr ⟨hall, rfl⟩
        refine ⟨c :: (d :: s).takeWhile decByte, _, ?_, .inr ⟨c, _, _, rfl, hc.1, ?_, hdec, rfl⟩, ?_⟩
        · rw [← h2, List.cons_append, List.takeWhile_append_dropWhile]
        · rw [List.takeWhile_cons_of_pos hc.2]; simp
        · rw [← fraction_value _ _ hdec, ← h1]
      · cases h
        exact ⟨[], 0, rfl, .inl ⟨rfl, rfl⟩, by simp⟩
    · cases h
      exact ⟨[], 0, rfl, .inl ⟨rfl, rfl⟩, by simp⟩
  · rintro ⟨t, f, rfl, ⟨rfl, rfl⟩ | ⟨p, ds, n, rfl, hp, hne, hd, rfl⟩, hn⟩
    · have hn : ns = 0 := by simpa using hn
      subst hn
      rw [List.nil_append]
      match r with
      | [] => rfl
      | [c] => rfl
      | c :: d :: u =>
        have := hr c _ rfl
        show (if (c = 46 ∨ c = 44) ∧ decByte d = true then _ else _) = _
        rw [if_neg (by simp [this.2.1, this.2.2])]
    · have hall := ((decimal_iff ds n).mp hd).1
      obtain ⟨h1, h2⟩ := digitRun ds r hall (fun c u e => (hr c u e).1)
      rw [← fraction_value ds n hd] at hn
      have hn : ns = _ := Int.ofNat.inj hn
      obtain ⟨d, u, hu⟩ := List.exists_cons_of_ne_nil hne
      have e : p :: ds ++ r = p :: d :: (u ++ r) := by rw [hu]; rfl
      have e' : d :: (u ++ r) = ds ++ r := by rw [hu]; rfl
      rw [e]
      unfold getFraction
      dsimp only
      rw [if_pos ⟨hp, hall d (by rw [hu]; simp)⟩, e', h1, h2, hn]

theorem zoneNum_strict (c d : UInt8) (v : Int) : zoneNum true c d = some v ↔ PlainNum [c, d] v := by
  unfold zoneNum PlainNum
  have t : ∀ c : UInt8, decByte c = true → 48 ≤ c.toNat := by
    intro c h; unfold decByte at h; simp only [Bool.and_eq_true, decide_eq_true_eq] at h; exact h.1
  constructor
  · intro h
    cases hc : decByte c <;> rw [hc] at h
    · cases h
    cases hd : decByte d <;> rw [hd] at h
    · cases h
    cases h
    refine ⟨_, digits2.mpr ⟨⟨hc, hd⟩, rfl⟩, ?_⟩
    have := t c hc
    have := t d hd
    omega
  · rintro ⟨n, h, rfl⟩
    obtain ⟨⟨hc, hd⟩, rfl⟩ := digits2.mp h
    rw [hc, hd]
    have := t c hc
    have := t d hd
    simp only [if_true]
    congr 1
    omega

theorem zoneNum_loose (c d : UInt8) (v : Int) : zoneNum false c d = some v ↔ SignedNum [c, d] v := by
  have t : ∀ c : UInt8, decByte c = true → 48 ≤ c.toNat := by
    intro c h; unfold decByte at h; simp only [Bool.and_eq_true, decide_eq_true_eq] at h; exact h.1
  by_cases hc : decByte c = true
  · have e : zoneNum false c d = zoneNum true c d := by
      unfold zoneNum
      rw [hc]
      rfl
    rw [e, zoneNum_strict]
    constructor
    · exact .inl
    · rintro (h | ⟨s, -, ⟨e, -⟩ | ⟨e, -⟩⟩)
      · exact h
      · rw [(List.cons.inj e).1] at hc; exact absurd hc (by decide)
      · rw [(List.cons.inj e).1] at hc; exact absurd hc (by decide)
  · have e : zoneNum false c d = if c = 43 then if decByte d then some ((d.toNat : Int) - 48) else none
        else if c = 45 then if decByte d then some (-((d.toNat : Int) - 48)) else none else none := by
      unfold zoneNum
      rw [if_neg hc]
      rfl
    rw [e]
    constructor
    · intro h
      split at h
      · rename_i h43
        split at h
        · rename_i hd
          cases h
          refine .inr ⟨[d], by simp, .inl ⟨by rw [h43], _, digits1.mpr ⟨hd, rfl⟩, ?_⟩⟩
          have := t d hd
          omega
        · cases h
      · split at h
        · rename_i h45
          split at h
          · rename_i hd
            cases h
            refine .inr ⟨[d], by simp, .inr ⟨by rw [h45], _, digits1.mpr ⟨hd, rfl⟩, ?_⟩⟩
            have := t d hd
            omega
          · cases h
        · cases h
    · rintro (⟨n, h, -⟩ | ⟨s, -, ⟨e, n, h, hv⟩ | ⟨e, n, h, hv⟩⟩)
      · exact absurd (digits2.mp h).1.1 hc
      · obtain ⟨rfl, e'⟩ := List.cons.inj e
        rw [← e'] at h
        obtain ⟨hd, rfl⟩ := digits1.mp h
        have := t d hd
        rw [if_pos rfl, if_pos hd, hv]
        congr 1
        omega
      · obtain ⟨rfl, e'⟩ := List.cons.inj e
        rw [← e'] at h
        obtain ⟨hd, rfl⟩ := digits1.mp h
        have := t d hd
        rw [if_neg (by decide), if_pos rfl, if_pos hd]
        congr 1
        omega

/-- numbers of an offset, for both versions -/
def ZoneNum (strict : Bool) : Bytes → Int → Prop := if strict then PlainNum else SignedNum

theorem zoneNum_iff (strict : Bool) (c d : UInt8) (v : Int) : zoneNum strict c d = some v ↔ ZoneNum strict [c, d] v := by
  cases strict
  · exact zoneNum_loose c d v
  · exact zoneNum_strict c d v

theorem goZone_iff (strict : Bool) (s : Bytes) (off : Int) : (goNotation strict).zone s off ↔
    s = [90] ∧ off = 0 ∨ OffsetText (fun h m => strict = true → h ≤ 24 ∧ m ≤ 60) (ZoneNum strict) s off := by
  cases strict
  · simp [goNotation, ZoneNum]
  · simp [goNotation, ZoneNum]

theorem getZone_iff (strict : Bool) (s : Bytes) (off : Int) : getZone strict s = some (off, []) ↔ (goNotation strict).zone s off := by
  rw [goZone_iff]
  have body : ∀ sg h1 h2 m1 m2 r, sg ≠ 90 → (getZone strict (sg :: h1 :: h2 :: 58 :: m1 :: m2 :: r) = some (off, []) ↔
      r = [] ∧ ∃ h m, zoneNum strict h1 h2 = some h ∧ zoneNum strict m1 m2 = some m ∧ (strict = true → h ≤ 24 ∧ m ≤ 60) ∧
        (sg = 43 ∧ off = (h * 60 + m) * 60 ∨ sg = 45 ∧ off = -((h * 60 + m) * 60))) := by
    intro sg h1 h2 m1 m2 r hsg
    unfold getZone
    split
    · rename_i heq
      exact absurd (List.cons.inj heq).1 hsg
    · rename_i heq
      simp only [List.cons.injEq, true_and] at heq
      obtain ⟨rfl, rfl, rfl, rfl, rfl, rfl⟩ := heq
      split
      · rename_i h m e1 e2
        rw [e1, e2]
        constructor
        · intro hh
          split at hh
          · cases hh
          rename_i hs
          have hok : strict = true → h ≤ 24 ∧ m ≤ 60 := by
            rintro rfl
            simp only [Bool.true_and, Bool.or_eq_true, decide_eq_true_eq] at hs
            omega
          split at hh
          · rename_i h43
            cases hh
            exact ⟨rfl, h, m, rfl, rfl, hok, .inl ⟨h43, rfl⟩⟩
          · split at hh
            · rename_i h45
              cases hh
              exact ⟨rfl, h, m, rfl, rfl, hok, .inr ⟨h45, rfl⟩⟩
            · cases hh
        · rintro ⟨rfl, h', m', e1', e2', hok, hv⟩
          cases e1'
          cases e2'
          have hs : ¬ (strict && (decide (24 < h) || decide (60 < m))) = true := by
            cases strict
            · simp
            · have := hok rfl
              simp only [Bool.true_and, Bool.or_eq_true, decide_eq_true_eq]
              omega
          rw [if_neg hs]
          rcases hv with ⟨rfl, rfl⟩ | ⟨rfl, rfl⟩
          · rfl
          · rfl
      · rename_i hn
        constructor
        · intro hh; cases hh
        · rintro ⟨-, h, m, e1, e2, -⟩
          exact absurd e2 (hn h m e1)
    · rename_i hn
      exact absurd rfl (hn sg h1 h2 m1 m2 r)
  constructor
  · intro h
    by_cases h90 : s.head? = some 90
    · match s with
      | [] => cases h90
      | c :: t =>
        have : c = 90 := by simpa using h90
        subst this
        have e : getZone strict (90 :: t) = some (0, t) := rfl
        rw [e] at h
        cases h
        exact .inl ⟨rfl, rfl⟩
    · right
      have hs : ∃ sg h1 h2 m1 m2 r, s = sg :: h1 :: h2 :: 58 :: m1 :: m2 :: r := by
        unfold getZone at h
        split at h
        · exact absurd rfl h90
        · exact ⟨_, _, _, _, _, _, rfl⟩
        · cases h
      obtain ⟨sg, h1, h2, m1, m2, r, rfl⟩ := hs
      obtain ⟨rfl, hh, m, e1, e2, hok, hv⟩ := (body sg h1 h2 m1 m2 r (by simpa using h90)).mp h
      exact ⟨sg, [h1, h2], [m1, m2], hh, m, rfl, rfl, rfl, (zoneNum_iff _ _ _ _).mp e1, (zoneNum_iff _ _ _ _).mp e2, hok, hv⟩
  · rintro (⟨rfl, rfl⟩ | ⟨sg, th, tm, h, m, rfl, l1, l2, e1, e2, hok, hv⟩)
    · rfl
    · match th, tm, l1, l2 with
      | [h1, h2], [m1, m2], _, _ =>
        refine (body sg h1 h2 m1 m2 [] ?_).mpr ⟨rfl, h, m, (zoneNum_iff _ _ _ _).mpr e1, (zoneNum_iff _ _ _ _).mpr e2, hok, hv⟩
        rintro rfl
        rcases hv with ⟨h, -⟩ | ⟨h, -⟩ <;> exact absurd h (by decide)

/-! ### The calendar -/

theorem yearSum (y : Nat) : ((((List.range y).map yearLen).sum : Nat) : Int) = 365 * ((y : Int) - 1) + leapsBefore y + 366 := by
  induction y with
  | zero => decide
  | succ y ih =>
    rw [List.range_succ, List.map_append, List.sum_append, Nat.cast_add, ih]
    match y with
    | 0 => decide
    | y + 1 =>
      have := yearStart_succ (y + 1) (by omega)
      unfold yearStart at this
      unfold leapsBefore
      simp only [List.map_cons, List.map_nil, List.sum_cons, List.sum_nil]
      push_cast
      omega

theorem monthSum (y m d : Nat) (h1 : 1 ≤ m) (h2 : m ≤ 12) : ((monthLens y).take (m - 1)).sum = daysBeforeMonth m + (if 2 < m ∧ LeapYear y then 1 else 0) ∧
    ((monthLens y).getD (m - 1) 0 < d ↔ daysInMonth y m < d) := by
  unfold daysInMonth
  by_cases hl : LeapYear y
  · have hl' := (isLeap_iff y).mpr hl
    have e : monthLens y = [31, 29, 31, 30, 31, 30, 31, 31, 30, 31, 30, 31] := by simp [monthLens, hl']
    rw [e]
    interval_cases m <;> simp [hl, daysBeforeMonth]
  · have hl' : ¬ isLeap y = true := fun hh => hl ((isLeap_iff y).mp hh)
    have e : monthLens y = [31, 28, 31, 30, 31, 30, 31, 31, 30, 31, 30, 31] := by simp [monthLens, hl']
    rw [e]
    interval_cases m <;> simp [hl, daysBeforeMonth]

theorem daysBefore_spec (y m d : Nat) (h1 : 1 ≤ m) (h2 : m ≤ 12) (hd : 1 ≤ d) :
    ((daysBefore y m + (d - 1) : Nat) : Int) - 734138 = dayNumber y m d - 14610 := by
  unfold daysBefore dayNumber
  rw [(monthSum y m d h1 h2).1]
  have := yearSum y
  generalize ((List.range y).map yearLen).sum = Y at *
  split <;> omega

/-- `time.Parse` step by step -/
theorem timeParse_steps (strict : Bool) (v : Bytes) (ns : Int) : timeParse strict v = some ns ↔
    ∃ year v1 v2 month v3 v4 day v5 v6 hour v7 v8 min v9 v10 sec v11 off,
      getYear v = some (year, v1) ∧ skipByte 45 v1 = some v2 ∧ getnum true v2 = some (month, v3) ∧ ¬ (month = 0 ∨ 12 < month) ∧
      skipByte 45 v3 = some v4 ∧ getnum true v4 = some (day, v5) ∧ skipByte 84 v5 = some v6 ∧ getnum false v6 = some (hour, v7) ∧ ¬ 24 ≤ hour ∧
      skipByte 58 v7 = some v8 ∧ getnum true v8 = some (min, v9) ∧ ¬ 60 ≤ min ∧ skipByte 58 v9 = some v10 ∧ getnum true v10 = some (sec, v11) ∧
      ¬ 60 ≤ sec ∧ getZone strict (getFraction v11).2 = some (off, []) ∧ ¬ (day < 1 ∨ (monthLens year).getD (month - 1) 0 < day) ∧
      ns = ((((daysBefore year month + (day - 1) : Nat) : Int) - 734138) * 86400 + hour * 3600 + min * 60 + sec - off) * 1000000000 + (getFraction v11).1 := by
  unfold timeParse
  constructor
  · intro h
    obtain ⟨⟨year, v1⟩, e1, h⟩ := Option.bind_eq_some_iff.mp h
    obtain ⟨v2, e2, h⟩ := Option.bind_eq_some_iff.mp h
    obtain ⟨⟨month, v3⟩, e3, h⟩ := Option.bind_eq_some_iff.mp h
    dsimp only at h
    by_cases c1 : month = 0 ∨ 12 < month
    · rw [if_pos c1] at h; cases h
    rw [if_neg c1] at h
    obtain ⟨v4, e4, h⟩ := Option.bind_eq_some_iff.mp h
    obtain ⟨⟨day, v5⟩, e5, h⟩ := Option.bind_eq_some_iff.mp h
    obtain ⟨v6, e6, h⟩ := Option.bind_eq_some_iff.mp h
    obtain ⟨⟨hour, v7⟩, e7, h⟩ := Option.bind_eq_some_iff.mp h
    dsimp only at h
    by_cases c2 : 24 ≤ hour
    · rw [if_pos c2] at h; cases h
    rw [if_neg c2] at h
    obtain ⟨v8, e8, h⟩ := Option.bind_eq_some_iff.mp h
    obtain ⟨⟨min, v9⟩, e9, h⟩ := Option.bind_eq_some_iff.mp h
    dsimp only at h
    by_cases c3 : 60 ≤ min
    · rw [if_pos c3] at h; cases h
    rw [if_neg c3] at h
    obtain ⟨v10, e10, h⟩ := Option.bind_eq_some_iff.mp h
    obtain ⟨⟨sec, v11⟩, e11, h⟩ := Option.bind_eq_some_iff.mp h
    dsimp only at h
    by_cases c4 : 60 ≤ sec
    · rw [if_pos c4] at h; cases h
    rw [if_neg c4] at h
    obtain ⟨⟨off, v12⟩, e12, h⟩ := Option.bind_eq_some_iff.mp h
    dsimp only at h
    by_cases c5 : v12 ≠ []
    · rw [if_pos c5] at h; cases h
    rw [if_neg c5] at h
    by_cases c6 : day < 1 ∨ (monthLens year).getD (month - 1) 0 < day
    · rw [if_pos c6] at h; cases h
    rw [if_neg c6] at h
    have c5 : v12 = [] := by simpa using c5
    subst c5
    exact ⟨year, v1, v2, month, v3, v4, day, v5, v6, hour, v7, v8, min, v9, v10, sec, v11, off, e1, e2, e3, c1, e4, e5, e6, e7, c2, e8, e9, c3, e10, e11, c4,
      e12, c6, (Option.some.inj h).symm⟩
  · rintro ⟨year, v1, v2, month, v3, v4, day, v5, v6, hour, v7, v8, min, v9, v10, sec, v11, off, e1, e2, e3, c1, e4, e5, e6, e7, c2, e8, e9, c3, e10, e11, c4,
      e12, c6, rfl⟩
    refine Option.bind_eq_some_iff.mpr ⟨(year, v1), e1, Option.bind_eq_some_iff.mpr ⟨v2, e2, Option.bind_eq_some_iff.mpr ⟨(month, v3), e3, ?_⟩⟩⟩
    dsimp only
    rw [if_neg c1]
    refine Option.bind_eq_some_iff.mpr ⟨v4, e4, Option.bind_eq_some_iff.mpr ⟨(day, v5), e5, Option.bind_eq_some_iff.mpr ⟨v6, e6,
      Option.bind_eq_some_iff.mpr ⟨(hour, v7), e7, ?_⟩⟩⟩⟩
    dsimp only
    rw [if_neg c2]
    refine Option.bind_eq_some_iff.mpr ⟨v8, e8, Option.bind_eq_some_iff.mpr ⟨(min, v9), e9, ?_⟩⟩
    dsimp only
    rw [if_neg c3]
    refine Option.bind_eq_some_iff.mpr ⟨v10, e10, Option.bind_eq_some_iff.mpr ⟨(sec, v11), e11, ?_⟩⟩
    dsimp only
    rw [if_neg c4]
    refine Option.bind_eq_some_iff.mpr ⟨(off, []), e12, ?_⟩
    dsimp only
    rw [if_neg (by simp), if_neg c6]

/-- an offset begins with Z or a sign -/
theorem zone_head {strict : Bool} {s : Bytes} {off : Int} (h : (goNotation strict).zone s off) :
    ∀ c u, s = c :: u → decByte c = false ∧ c ≠ 46 ∧ c ≠ 44 := by
  intro c u e
  rcases (goZone_iff strict s off).mp h with ⟨rfl, -⟩ | ⟨sg, th, tm, hh, m, rfl, -, -, -, -, -, hv⟩
  · rw [← (List.cons.inj e).1]; decide
  · have : sg = c := (List.cons.inj e).1
    rw [← this]
    rcases hv with ⟨rfl, -⟩ | ⟨rfl, -⟩ <;> decide

theorem floor_instant (T : Int) (f : ℚ) : ⌊((T : ℚ) + f - 1262304000) * 1000000000⌋ = (T - 1262304000) * 1000000000 + ⌊f * 1000000000⌋ := by
  rw [← Int.floor_intCast_add]
  congr 1
  push_cast
  ring

/-- **C112.** The time stamps that packet-gen takes: exactly those in the notation of the Go library, and the instant is the one they denote, to the
nanosecond (nanoseconds are counted from 2010-01-01T00:00:00Z, 1262304000 seconds after 1970). -/
theorem timeParse_iff (strict : Bool) (text : Bytes) (ns : Int) : timeParse strict text = some ns ↔
    ∃ t, IsStamp (goNotation strict) text t ∧ ns = ⌊(t - 1262304000) * 1000000000⌋ := by
  rw [timeParse_steps]
  constructor
  · rintro ⟨year, v1, v2, month, v3, v4, day, v5, v6, hour, v7, v8, min, v9, v10, sec, v11, off, e1, e2, e3, c1, e4, e5, e6, e7, c2, e8, e9, c3, e10, e11, c4,
      e12, c6, rfl⟩
    obtain ⟨ty, rfl, dy⟩ := (getYear_iff _ _ _).mp e1
    rw [skipByte_iff] at e2 e4 e6 e8 e10
    subst e2
    obtain ⟨tm, rfl, dm⟩ := (getnum_fixed _ _ _).mp e3
    subst e4
    obtain ⟨td, rfl, dd⟩ := (getnum_fixed _ _ _).mp e5
    subst e6
    obtain ⟨th, rfl, dh⟩ := (getnum_free _ _ _).mp e7
    subst e8
    obtain ⟨tmi, rfl, dmi⟩ := (getnum_fixed _ _ _).mp e9
    subst e10
    obtain ⟨ts, rfl, ds⟩ := (getnum_fixed _ _ _).mp e11
    have hz := (getZone_iff strict _ off).mp e12
    obtain ⟨tf, f, e13, hf, hns⟩ := (getFraction_iff v11 (getFraction v11).2 (getFraction v11).1 (zone_head hz)).mp rfl
    rw [not_or] at c1 c6
    have hm1 : 1 ≤ month := by omega
    have hm2 : month ≤ 12 := by omega
    have hd1 : 1 ≤ day := by omega
    have hdate : IsDate year month day := ⟨hm1, hm2, hd1, not_lt.mp fun h => c6.2 ((monthSum year month day hm1 hm2).2.mpr h)⟩
    refine ⟨_, ⟨year, month, day, hour, min, sec, f, off, ⟨ty, tm, td, 84, th, tmi, ts, tf, _, ?_, dy, dm, dd, rfl, ?_, dmi, ds, hf, hz⟩, hdate, by omega, by omega,
      by omega, rfl⟩, ?_⟩
    · rw [List.append_assoc _ tf, ← e13]
      simp
    · rcases dh with h | ⟨h, -⟩
      · exact ⟨2, .inr rfl, h⟩
      · exact ⟨1, .inl rfl, h⟩
    · unfold stampInstant
      rw [floor_instant, ← hns, daysBefore_spec year month day hm1 hm2 hd1]
      ring
  · rintro ⟨t, ⟨y, m, d, h, mi, s, f, off, ⟨ty, tm, td, tee, th, tmi, ts, tf, tz, rfl, dy, dm, dd, htee, ⟨k, hk, dh⟩, dmi, ds, hf, hz⟩, ⟨hm1, hm2, hd1, hd2⟩, hh, hmi, hs,
      rfl⟩, rfl⟩
    have htee : tee = 84 := htee
    subst htee
    have hfr : ∃ n : Nat, getFraction (tf ++ tz) = (n, tz) ∧ (n : ℤ) = ⌊f * 1000000000⌋ := by
      have h0 : 0 ≤ f := by
        rcases hf with ⟨-, rfl⟩ | ⟨p, ds, n, -, -, -, -, rfl⟩
        · exact le_refl _
        · positivity
      have hfl : 0 ≤ ⌊f * 1000000000⌋ := Int.floor_nonneg.mpr (by positivity)
      refine ⟨⌊f * 1000000000⌋.toNat, ?_, Int.toNat_of_nonneg hfl⟩
      exact (getFraction_iff _ tz _ (zone_head hz)).mpr ⟨tf, f, rfl, hf, Int.toNat_of_nonneg hfl⟩
    obtain ⟨n, hfr, hn⟩ := hfr
    refine ⟨y, _, _, m, _, _, d, _, _, h, _, _, mi, _, _, s, tf ++ tz, off,
      (getYear_iff _ _ _).mpr ⟨ty, ?_, dy⟩, (skipByte_iff _ _ _).mpr rfl, (getnum_fixed _ _ _).mpr ⟨tm, rfl, dm⟩, by omega, (skipByte_iff _ _ _).mpr rfl,
      (getnum_fixed _ _ _).mpr ⟨td, rfl, dd⟩, (skipByte_iff _ _ _).mpr rfl, (getnum_free _ _ _).mpr ⟨th, rfl, ?_⟩, by omega, (skipByte_iff _ _ _).mpr rfl,
      (getnum_fixed _ _ _).mpr ⟨tmi, rfl, dmi⟩, by omega, (skipByte_iff _ _ _).mpr rfl, (getnum_fixed _ _ _).mpr ⟨ts, rfl, ds⟩, by omega, ?_, ?_, ?_⟩
    · simp
    · rcases hk with rfl | rfl
      · refine .inr ⟨dh, ?_⟩
        rintro c u e
        rw [← (List.cons.inj e).1]
        decide
      · exact .inl dh
    · rw [hfr]
      exact (getZone_iff strict tz off).mpr hz
    · rw [not_or]
      refine ⟨by omega, ?_⟩
      rw [(monthSum y m d hm1 hm2).2]
      omega
    · rw [hfr, hn]
      unfold stampInstant
      rw [floor_instant, daysBefore_spec y m d hm1 hm2 hd1]
      ring

/-- the notation of RFC 3339 with capital letters is taken by every version of Go -/
theorem capital_go (strict : Bool) (text : Bytes) (t : ℚ) (h : IsStamp rfcCapital text t) : IsStamp (goNotation strict) text t := by
  obtain ⟨y, m, d, hh, mi, s, f, off, ⟨ty, tm, td, tee, th, tmi, ts, tf, tz, h0, dy, dm, dd, ht, ⟨k, hk, dh⟩, dmi, ds, hf, hz⟩, r⟩ := h
  refine ⟨y, m, d, hh, mi, s, f, off, ⟨ty, tm, td, tee, th, tmi, ts, tf, tz, h0, dy, dm, dd, ht, ⟨k, .inr hk, dh⟩, dmi, ds, ?_, ?_⟩, r⟩
  · rcases hf with hf | ⟨p, ds, n, e, hp, r⟩
    · exact .inl hf
    · exact .inr ⟨p, ds, n, e, .inl hp, r⟩
  · rw [goZone_iff]
    rcases hz with hz | ⟨sg, th, tm, h, m, e, l1, l2, e1, e2, hok, hv⟩
    · exact .inl hz
    · refine .inr ⟨sg, th, tm, h, m, e, l1, l2, ?_, ?_, fun _ => by omega, hv⟩
      · cases strict
        · exact .inl e1
        · exact e1
      · cases strict
        · exact .inl e2
        · exact e2

/-- **C112** (partial: only texts with capital T and Z and without a leap second; `timeParse_refuses` shows the others). Every time stamp in RFC 3339
format is taken, and the instant is the one it denotes. -/
theorem rfc3339_taken_partial (strict : Bool) (text : Bytes) (t : ℚ) (h : IsStamp rfcCapital text t) :
    timeParse strict text = some ⌊(t - 1262304000) * 1000000000⌋ :=
  (timeParse_iff strict text _).mpr ⟨t, capital_go strict text t h, rfl⟩

/-- every text that is taken has one meaning, and the same with every version of Go that takes it -/
theorem stamp_unique (strict : Bool) (text : Bytes) (t : ℚ) (h : IsStamp rfcCapital text t) (ns : Int) (hn : timeParse strict text = some ns) :
    ns = ⌊(t - 1262304000) * 1000000000⌋ := by
  rw [rfc3339_taken_partial strict text t h] at hn
  exact (Option.some.inj hn).symm

/-- C112, counterexamples: time stamps of RFC 3339 that are refused (the leap second of its section 5.8, small letters), and texts that are no time
stamps of RFC 3339 and are taken (one digit for the hour, a comma, an offset of 24 hours and 60 minutes). -/
theorem timeParse_refuses (strict : Bool) :
    timeParse strict (asc "1990-12-31T23:59:60Z") = none ∧ timeParse strict (asc "2021-12-16t09:12:00z") = none ∧
    timeParse strict (asc "2021-12-16T9:12:00Z") = timeParse strict (asc "2021-12-16T09:12:00Z") ∧
    timeParse strict (asc "2021-12-16T09:12:00,5Z") = timeParse strict (asc "2021-12-16T09:12:00.5Z") ∧
    timeParse strict (asc "2021-12-16T09:12:00+24:60") = timeParse strict (asc "2021-12-15T08:12:00Z") ∧
    (timeParse strict (asc "2021-12-16T09:12:00Z")).isSome ∧
    ((timeParse strict (asc "2021-12-16T09:12:00+-1:99")).isSome ↔ strict = false) := by
  cases strict <;> decide +kernel

/-- the three texts of the counterexample are time stamps of RFC 3339 except for the ranges of `IsStamp`: small letters -/
theorem small_letters : IsStamp rfcNotation (asc "2021-12-16t09:12:00z") 1639645920 := by
  refine ⟨2021, 12, 16, 9, 12, 0, 0, 0, ⟨asc "2021", asc "12", asc "16", 116, asc "09", asc "12", asc "00", [], asc "z", by decide +kernel, ⟨rfl, by decide⟩, ⟨rfl, by decide⟩,
    ⟨rfl, by decide⟩, .inr rfl, ⟨2, rfl, rfl, by decide⟩, ⟨rfl, by decide⟩, ⟨rfl, by decide⟩, .inl ⟨rfl, rfl⟩, .inl ⟨.inr rfl, rfl⟩⟩, ?_, by decide, by decide, by decide, ?_⟩
  · unfold IsDate; decide
  · unfold stampInstant; decide +kernel

/-- the hypothesis of `rfc3339_taken_partial` is met: a quarter of a second and an offset -/
example : ∃ t, IsStamp rfcCapital (asc "2021-12-16T09:12:00.25+03:30") t := by
  refine ⟨_, 2021, 12, 16, 9, 12, 0, 1 / 4, 12600, ⟨asc "2021", asc "12", asc "16", 84, asc "09", asc "12", asc "00", asc ".25", asc "+03:30", by decide +kernel, ⟨rfl, by decide⟩,
    ⟨rfl, by decide⟩, ⟨rfl, by decide⟩, rfl, ⟨2, rfl, rfl, by decide⟩, ⟨rfl, by decide⟩, ⟨rfl, by decide⟩,
    .inr ⟨46, asc "25", 25, rfl, rfl, by decide, by decide, by decide +kernel⟩,
    .inr ⟨43, asc "03", asc "30", 3, 30, rfl, rfl, rfl, ⟨3, by decide, rfl⟩, ⟨30, by decide, rfl⟩, by decide, .inl ⟨rfl, rfl⟩⟩⟩, ?_, by decide, by decide, by decide, rfl⟩
  unfold IsDate; decide

end Egts
