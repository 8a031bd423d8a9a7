import Verif.Model.JsonIndent
import Verif.Props.JsonText
/- C104: the log storage prints the same document, indented. -/
set_option autoImplicit false
namespace Egts
open JsonP

/-! ### what `indentLoop` does with each kind of byte -/

theorem loop_need (d : Nat) (c : UInt8) (s : Bytes) (h : c ≠ 0x20 ∧ c ≠ 0x09 ∧ c ≠ 0x0A ∧ c ≠ 0x0D) (h1 : c ≠ 93) (h2 : c ≠ 125) :
    indentLoop .out true d (c :: s) = newline (d + 1) ++ indentLoop .out false (d + 1) (c :: s) := by
  have hw : ¬ (c = 0x20 ∨ c = 0x09 ∨ c = 0x0A ∨ c = 0x0D) := by
    rintro (e | e | e | e)
    · exact h.1 e
    · exact h.2.1 e
    · exact h.2.2.1 e
    · exact h.2.2.2 e
  have hc : ¬ (c = 125 ∨ c = 93) := by
    rintro (e | e)
    · exact h2 e
    · exact h1 e
  simp [indentLoop, hw, hc]

theorem loop_open (d : Nat) (c : UInt8) (s : Bytes) (h : c = 123 ∨ c = 91) :
    indentLoop .out false d (c :: s) = c :: indentLoop .out true d s := by
  rcases h with rfl | rfl <;> simp [indentLoop]

theorem loop_close (d : Nat) (c : UInt8) (s : Bytes) (h : c = 125 ∨ c = 93) :
    indentLoop .out false (d + 1) (c :: s) = newline d ++ c :: indentLoop .out false d s := by
  rcases h with rfl | rfl <;> simp [indentLoop]

theorem loop_comma (d : Nat) (s : Bytes) : indentLoop .out false d (44 :: s) = 44 :: (newline d ++ indentLoop .out false d s) := by
  simp [indentLoop]

theorem loop_colon (d : Nat) (s : Bytes) : indentLoop .out false d (58 :: s) = 58 :: 32 :: indentLoop .out false d s := by
  simp [indentLoop]

/-- a byte that is not white space, punctuation or a quotation mark -/
def Inert (c : UInt8) : Prop := c ∉ ([0x20, 0x09, 0x0A, 0x0D, 125, 93, 123, 91, 44, 58, 34] : Bytes)
instance (c : UInt8) : Decidable (Inert c) := by unfold Inert; infer_instance

theorem loop_inert (d : Nat) (t rest : Bytes) (h : ∀ c ∈ t, Inert c) :
    indentLoop .out false d (t ++ rest) = t ++ indentLoop .out false d rest := by
  induction t with
  | nil => rfl
  | cons c t ih =>
    have hc := h c (by simp)
    simp only [Inert, List.mem_cons, List.not_mem_nil, or_false, not_or] at hc
    obtain ⟨h1, h2, h3, h4, h5, h6, h7, h8, h9, h10, h11⟩ := hc
    simp only [List.cons_append]
    rw [indentLoop]
    simp [h1, h2, h3, h4, h5, h6, h7, h8, h9, h10, h11, ih fun x hx => h x (by simp [hx])]

theorem loop_plain (n : Bool) (d : Nat) (t rest : Bytes) (h : ∀ c ∈ t, Plain c) :
    indentLoop .str n d (t ++ rest) = t ++ indentLoop .str n d rest := by
  induction t with
  | nil => rfl
  | cons c t ih =>
    have hc := h c (by simp)
    simp only [List.cons_append]
    rw [indentLoop]
    simp [hc.2.1, hc.2.2, ih fun x hx => h x (by simp [hx])]

theorem loop_quote (d : Nat) (t rest : Bytes) : indentLoop .out false d (34 :: t) = 34 :: indentLoop .str false d t ∧
    indentLoop .str false d (34 :: rest) = 34 :: indentLoop .out false d rest := by
  constructor
  · simp [indentLoop]
  · simp [indentLoop]

theorem loop_escAscii (bf : Bool) (d : Nat) (a : UInt8) (h : a.toNat < 128) (rest : Bytes) :
    indentLoop .str false d (escAscii bf a ++ rest) = escAscii bf a ++ indentLoop .str false d rest := by
  have key : ∀ a : UInt8, a.toNat < 128 → (∀ c ∈ escAscii bf a, Plain c) ∨
      ∃ x y, escAscii bf a = 92 :: x :: y ∧ ∀ c ∈ y, Plain c := by
    have : ∀ n : Fin 128, (∀ c ∈ escAscii bf (UInt8.ofNat n.val), Plain c) ∨
        ((escAscii bf (UInt8.ofNat n.val)).take 1 = [92] ∧ 2 ≤ (escAscii bf (UInt8.ofNat n.val)).length ∧
          ∀ c ∈ (escAscii bf (UInt8.ofNat n.val)).drop 2, Plain c) := by
      cases bf <;> decide +kernel
    intro a ha
    have := this ⟨a.toNat, ha⟩
    rw [UInt8.ofNat_toNat] at this
    rcases this with h | ⟨h1, h2, h3⟩
    · exact .inl h
    · right
      match he : escAscii bf a, h1, h2, h3 with
      | [], h1, h2, _ => simp at h2
      | [x], _, h2, _ => simp at h2
      | x :: y :: z, h1, _, h3 =>
        simp only [List.take_succ_cons, List.take_zero, List.cons.injEq, and_true] at h1
        exact ⟨y, z, by rw [h1], h3⟩
  rcases key a h with h | ⟨x, y, h1, h2⟩
  · exact loop_plain _ _ _ _ h
  · rw [h1]
    simp only [List.cons_append]
    rw [indentLoop]
    simp only [show ((92 : UInt8) = 34) = False from by decide, if_false, if_true]
    rw [indentLoop, loop_plain _ _ _ _ h2]

theorem plain_high {c : UInt8} (h : 128 ≤ c.toNat) : Plain c := by
  refine ⟨by omega, ?_, ?_⟩ <;> · rintro rfl; revert h; decide

theorem loop_escText (bf : Bool) (d : Nat) (s rest : Bytes) :
    indentLoop .str false d (escText bf s ++ rest) = escText bf s ++ indentLoop .str false d rest := by
  induction s using escText.induct with
  | case1 => rw [escText]; rfl
  | case2 a r h ih =>
    rw [escText, if_pos h, List.append_assoc, loop_escAscii bf d a h, ih, List.append_assoc]
  | case3 a r h hr ih =>
    rw [escText, if_neg h, if_pos hr, List.append_assoc, List.append_assoc]
    have : asc "\\ufffd" = [92, 117, 102, 102, 102, 100] := by decide
    rw [this]
    simp [indentLoop, ih]
  | case4 a r h hr ih =>
    rw [escText, if_neg h, if_neg hr, List.append_assoc, List.append_assoc]
    have e1 : asc "\\u2028" = [92, 117, 50, 48, 50, 56] := by decide
    have e2 : asc "\\u2029" = [92, 117, 50, 48, 50, 57] := by decide
    unfold escRune
    rw [e1, e2]
    split
    · simp [indentLoop, ih]
    · split
      · simp [indentLoop, ih]
      · rw [loop_plain _ _ _ _ fun c hc => plain_high (runeLen_high _ c hc), ih]

/-! ### texts whose indented form is read as `j` -/

structure Pretty (t : Bytes) (j : Json) : Prop where
  head : ∃ c s, t = c :: s ∧ c ≠ 0x20 ∧ c ≠ 0x09 ∧ c ≠ 0x0A ∧ c ≠ 0x0D ∧ c ≠ 93 ∧ c ≠ 125
  out : ∀ d, ∃ o, (∀ rest, indentLoop .out false d (t ++ rest) = o ++ indentLoop .out false d rest) ∧ Writes o j

theorem Pretty.first {t : Bytes} {j : Json} (h : Pretty t j) (d : Nat) (rest : Bytes) :
    indentLoop .out true d (t ++ rest) = newline (d + 1) ++ indentLoop .out false (d + 1) (t ++ rest) := by
  obtain ⟨c, s, rfl, h1, h2, h3, h4, h5, h6⟩ := h.head
  exact loop_need d c _ ⟨h1, h2, h3, h4⟩ h5 h6

theorem pretty_inert {t : Bytes} {j : Json} (h : Writes t j) (hi : ∀ c ∈ t, Inert c) : Pretty t j :=
  ⟨h.head, fun d => ⟨t, fun rest => loop_inert d t rest hi, h⟩⟩

theorem pretty_null : Pretty (asc "null") .null := pretty_inert writes_null (by decide)

theorem pretty_string (F : JsonFmt) (s : Bytes) : Pretty (quoteText F s) (jstr s) := by
  refine ⟨(writes_string F s).head, fun d => ⟨quoteText F s, fun rest => ?_, writes_string F s⟩⟩
  unfold quoteText
  simp only [List.append_assoc, List.cons_append, List.nil_append]
  rw [(loop_quote d _ []).1, loop_escText, (loop_quote d [] _).2]

/-! ### numbers -/

theorem digits_split (t : Bytes) : ∃ p, t = p ++ (getDigits t).2 ∧ ∀ c ∈ p, Inert c := by
  induction t with
  | nil => exact ⟨[], rfl, by simp⟩
  | cons c t ih =>
    by_cases hc : isDigit c
    · obtain ⟨p, h1, h2⟩ := ih
      refine ⟨c :: p, by simp only [getDigits, hc, if_true, List.cons_append]; rw [← h1], ?_⟩
      simp only [List.forall_mem_cons]
      refine ⟨?_, h2⟩
      revert hc; revert c; refine byte_forall _ ?_; decide +kernel
    · exact ⟨[], by simp [getDigits, hc], by simp⟩

theorem getInt_split {t r : Bytes} {n : Nat} (h : getInt t = some (n, r)) : ∃ p, t = p ++ r ∧ ∀ c ∈ p, Inert c := by
  obtain ⟨p, h1, h2⟩ := digits_split t
  refine ⟨p, ?_, h2⟩
  unfold getInt at h
  split at h
  · cases h
  · cases h
  · next l r' _ _ he =>
    rw [he] at h1
    simp only [Option.some.injEq, Prod.mk.injEq] at h
    rw [← h.2]; exact h1

theorem getFrac_split {t r : Bytes} {q : Rat} (h : JsonP.getFrac t = some (q, r)) : ∃ p, t = p ++ r ∧ ∀ c ∈ p, Inert c := by
  unfold JsonP.getFrac at h
  split at h
  · next s =>
    obtain ⟨p, h1, h2⟩ := digits_split s
    split at h
    · cases h
    · next l r' _ he =>
      rw [he] at h1
      simp only [Option.some.injEq, Prod.mk.injEq] at h
      refine ⟨46 :: p, by rw [← h.2]; simp only [List.cons_append]; rw [← h1], ?_⟩
      simp only [List.forall_mem_cons]
      exact ⟨by decide, h2⟩
  · simp only [Option.some.injEq, Prod.mk.injEq] at h
    exact ⟨[], h.2, by simp⟩

theorem expSign_split (t : Bytes) : ∃ p, t = p ++ (expSign t).2 ∧ ∀ c ∈ p, Inert c := by
  unfold expSign
  split
  · exact ⟨[43], rfl, by decide⟩
  · exact ⟨[45], rfl, by decide⟩
  · exact ⟨[], rfl, by simp⟩

theorem getPower_split {t r : Bytes} {q : Rat} (h : getPower t = some (q, r)) : ∃ p, t = p ++ r ∧ ∀ c ∈ p, Inert c := by
  unfold getPower at h
  obtain ⟨p1, e1, i1⟩ := expSign_split t
  obtain ⟨p2, e2, i2⟩ := digits_split (expSign t).2
  split at h
  · cases h
  · next l r' _ he =>
    rw [he] at e2
    simp only [Option.some.injEq, Prod.mk.injEq] at h
    refine ⟨p1 ++ p2, ?_, ?_⟩
    · rw [← h.2, List.append_assoc, ← e2]; exact e1
    · intro c hc
      rcases List.mem_append.mp hc with h | h
      · exact i1 c h
      · exact i2 c h

theorem getExp_split {t r : Bytes} {q : Rat} (h : JsonP.getExp t = some (q, r)) : ∃ p, t = p ++ r ∧ ∀ c ∈ p, Inert c := by
  unfold JsonP.getExp at h
  split at h
  · next s =>
    obtain ⟨p, h1, h2⟩ := getPower_split h
    exact ⟨101 :: p, by rw [h1]; rfl, by simp only [List.forall_mem_cons]; exact ⟨by decide, h2⟩⟩
  · next s =>
    obtain ⟨p, h1, h2⟩ := getPower_split h
    exact ⟨69 :: p, by rw [h1]; rfl, by simp only [List.forall_mem_cons]; exact ⟨by decide, h2⟩⟩
  · simp only [Option.some.injEq, Prod.mk.injEq] at h
    exact ⟨[], h.2, by simp⟩

theorem getUnsigned_split {t r : Bytes} {q : Rat} (h : getUnsigned t = some (q, r)) : ∃ p, t = p ++ r ∧ ∀ c ∈ p, Inert c := by
  unfold getUnsigned at h
  split at h
  · cases h
  · next n r1 h1 =>
    split at h
    · cases h
    · next q2 r2 h2 =>
      split at h
      · cases h
      · next q3 r3 h3 =>
        simp only [Option.some.injEq, Prod.mk.injEq] at h
        obtain ⟨p1, e1, i1⟩ := getInt_split h1
        obtain ⟨p2, e2, i2⟩ := getFrac_split h2
        obtain ⟨p3, e3, i3⟩ := getExp_split h3
        refine ⟨p1 ++ p2 ++ p3, by rw [← h.2, List.append_assoc, ← e3, List.append_assoc, ← e2, ← e1], ?_⟩
        intro c hc
        rcases List.mem_append.mp hc with h | h
        · rcases List.mem_append.mp h with h | h
          · exact i1 c h
          · exact i2 c h
        · exact i3 c h

theorem getNumber_inert {t : Bytes} {q : Rat} (h : getNumber t = some (q, [])) : ∀ c ∈ t, Inert c := by
  unfold getNumber at h
  split at h
  · next s =>
    obtain ⟨⟨q', r⟩, h1, h2⟩ := Option.map_eq_some_iff.mp h
    obtain ⟨p, e, i⟩ := getUnsigned_split h1
    simp only [Prod.mk.injEq] at h2
    rw [h2.2, List.append_nil] at e
    rw [e]
    simp only [List.forall_mem_cons]
    exact ⟨by decide, i⟩
  · obtain ⟨p, e, i⟩ := getUnsigned_split h
    rw [List.append_nil] at e
    rw [e]; exact i

theorem pretty_number {t : Bytes} {q : Rat} (h : getNumber t = some (q, [])) : Pretty t (.num q) :=
  pretty_inert (writes_number h) (getNumber_inert h)

theorem pretty_int (n : Int) : Pretty (intText n) (.num n) := pretty_number (getNumber_int n)
theorem pretty_nat (n : Nat) : Pretty (intText n) (.num n) := by
  have := pretty_int n
  rwa [Int.cast_natCast] at this

/-! ### arrays and objects -/

theorem ws_newline (d : Nat) (x : Bytes) : ws (newline d ++ x) = ws x := by
  unfold newline
  rw [List.cons_append, ws, if_pos (by decide)]
  induction 4 * d with
  | zero => rfl
  | succ n ih =>
    rw [List.replicate_succ, List.cons_append, ws, if_pos (by decide)]
    exact ih

theorem getValue_newline (f d : Nat) (x : Bytes) : getValue f (newline d ++ x) = getValue f x := by
  cases f with
  | zero => rw [getValue, getValue]
  | succ f => rw [getValue, getValue, ws_newline]

theorem getValue_space (f : Nat) (x : Bytes) : getValue f (32 :: x) = getValue f x := by
  cases f with
  | zero => rw [getValue, getValue]
  | succ f => rw [getValue, getValue, ws, if_pos (by decide)]

theorem getElems_newline (f d : Nat) (x : Bytes) : getElems f (newline d ++ x) = getElems f x := by
  cases f with
  | zero => rw [getElems, getElems]
  | succ f => rw [getElems, getElems, getValue_newline]

theorem getMembers_newline (f d : Nat) (x : Bytes) : getMembers f (newline d ++ x) = getMembers f x := by
  cases f with
  | zero => rw [getMembers, getMembers]
  | succ f => rw [getMembers, getMembers, ws_newline]

theorem stop_newline (d : Nat) (r : Bytes) : Stop (newline d ++ r) := .inr ⟨10, _, rfl, .inr (.inr (.inr rfl))⟩

/-- the elements of an array -/
theorem pretty_elems {l : List (Bytes × Json)} (hl : l ≠ []) (h : ∀ p ∈ l, Pretty p.1 p.2) (d k : Nat) : ∃ o,
    (∀ rest, indentLoop .out false d (commaSep (l.map (·.1)) ++ rest) = o ++ indentLoop .out false d rest) ∧
    ∀ (f : Nat) (rest : Bytes), o.length + 1 ≤ f → getElems f (o ++ (newline k ++ 93 :: rest)) = some (l.map (·.2), rest) := by
  induction l with
  | nil => exact absurd rfl hl
  | cons p l ih =>
    obtain ⟨o, h1, h2⟩ := (h p (by simp)).out d
    match l, ih with
    | [], _ =>
      refine ⟨o, h1, fun f rest hf => ?_⟩
      obtain ⟨f, rfl⟩ : ∃ g, f = g + 1 := ⟨f - 1, by omega⟩
      rw [getElems, h2.read f _ (stop_newline k _) (by omega)]
      simp only [ws_newline, ws_arr]
      rfl
    | q :: l, ih =>
      obtain ⟨o', h1', h2'⟩ := ih (by simp) fun x hx => h x (by simp [hx])
      refine ⟨o ++ 44 :: (newline d ++ o'), fun rest => ?_, fun f rest hf => ?_⟩
      · have := h1' rest
        simp only [List.map_cons] at this
        simp only [List.map_cons, commaSep_cons, List.append_assoc, List.cons_append, List.nil_append]
        rw [h1, loop_comma, this]
      · obtain ⟨f, rfl⟩ : ∃ g, f = g + 1 := ⟨f - 1, by omega⟩
        simp only [List.length_append, List.length_cons] at hf
        simp only [List.append_assoc, List.cons_append]
        rw [getElems, h2.read f _ (stop_comma _) (by omega)]
        simp only [ws_comma]
        rw [getElems_newline, h2' f rest (by omega)]
        rfl

theorem writes_head_ne {o : Bytes} {j : Json} (h : Writes o j) (rest : Bytes) :
    ∃ c s, ws (o ++ rest) = c :: s ∧ c ≠ 93 ∧ c ≠ 125 := by
  obtain ⟨c, s, rfl, h1, h2, h3, h4, h5, h6⟩ := h.head
  exact ⟨c, s ++ rest, ws_id ⟨h1, h2, h3, h4⟩, h5, h6⟩

theorem getElems_head {f : Nat} {x : Bytes} {y : List Json × Bytes} (h : getElems f x = some y) :
    ∀ r, ws x ≠ 93 :: r := by
  intro r hr
  cases f with
  | zero => rw [getElems] at h; cases h
  | succ f =>
    rw [getElems] at h
    cases f with
    | zero => rw [getValue] at h; cases h
    | succ f =>
      have : getValue (f + 1) x = none := by
        rw [getValue, hr]
        simp [getNumber, getUnsigned, getInt, getDigits, isDigit]
      rw [this] at h
      cases h

theorem pretty_slice {α : Type} (t : α → Bytes) (g : α → Json) (l : List α) (h : ∀ x ∈ l, Pretty (t x) (g x)) :
    Pretty (sliceText t l) (jslice g l) := by
  unfold sliceText jslice
  by_cases he : l.isEmpty
  · rw [if_pos he, if_pos he]; exact pretty_null
  rw [if_neg he, if_neg he]
  have hl : l ≠ [] := by rintro rfl; exact he rfl
  have e1 : l.map t = (l.map fun x => (t x, g x)).map (·.1) := by simp
  have e2 : l.map g = (l.map fun x => (t x, g x)).map (·.2) := by simp
  have hall : ∀ p ∈ l.map fun x => (t x, g x), Pretty p.1 p.2 := by
    intro p hp
    obtain ⟨x, hx, rfl⟩ := List.mem_map.mp hp
    exact h x hx
  refine ⟨⟨91, commaSep (l.map t) ++ [93], by simp, by decide⟩, fun d => ?_⟩
  obtain ⟨o, h1, h2⟩ := pretty_elems (l := l.map fun x => (t x, g x)) (by simpa using hl) hall (d + 1) d
  rw [← e1] at h1
  rw [← e2] at h2
  refine ⟨91 :: (newline (d + 1) ++ (o ++ (newline d ++ [93]))), fun rest => ?_, ⟨91, _, rfl, by decide⟩, fun f rest _ hf => ?_⟩
  · simp only [List.append_assoc, List.cons_append, List.nil_append]
    rw [loop_open d 91 _ (.inr rfl)]
    have hfirst : indentLoop .out true d (commaSep (l.map t) ++ 93 :: rest) =
        newline (d + 1) ++ indentLoop .out false (d + 1) (commaSep (l.map t) ++ 93 :: rest) := by
      match l, hl, h with
      | [x], _, h => exact (h x (by simp)).first d _
      | x :: y :: l, _, h =>
        simp only [List.map_cons, commaSep_cons, List.append_assoc]
        exact (h x (by simp)).first d _
    rw [hfirst, h1, loop_close d 93 rest (.inr rfl)]
  · obtain ⟨f, rfl⟩ : ∃ g, f = g + 1 := ⟨f - 1, by simp at hf; omega⟩
    have hg := h2 f rest (by simp at hf; omega)
    rw [getValue, List.cons_append, ws_id (by decide)]
    simp only [List.append_assoc, List.cons_append, List.nil_append]
    rw [getElems_newline, hg]
    have hne := getElems_head hg
    rw [ws_newline]
    split
    · next r' he' => exact absurd he' (hne r')
    · rfl

/-- the members of an object -/
theorem pretty_members {l : List (Bytes × Bytes × Json)} (hl : l ≠ []) (h : ∀ p ∈ l, (∀ c ∈ p.1, Plain c) ∧ Pretty p.2.1 p.2.2)
    (d k : Nat) : ∃ o,
    (∀ rest, indentLoop .out false d (commaSep (l.map fun p => [34] ++ p.1 ++ [34, 58] ++ p.2.1) ++ rest) =
      o ++ indentLoop .out false d rest) ∧
    (∃ s, o = 34 :: s) ∧
    ∀ (f : Nat) (rest : Bytes), o.length + 1 ≤ f →
      getMembers f (o ++ (newline k ++ 125 :: rest)) = some (l.map (fun p => (p.1, p.2.2)), rest) := by
  induction l with
  | nil => exact absurd rfl hl
  | cons p l ih =>
    obtain ⟨hk, hp⟩ := h p (by simp)
    obtain ⟨o, h1, h2⟩ := hp.out d
    have hm : ∀ rest, indentLoop .out false d (34 :: (p.1 ++ 34 :: 58 :: (p.2.1 ++ rest))) =
        34 :: (p.1 ++ 34 :: 58 :: 32 :: (o ++ indentLoop .out false d rest)) := by
      intro rest
      rw [(loop_quote d _ []).1, loop_plain _ _ _ _ hk, (loop_quote d [] _).2, loop_colon, h1]
    match l, ih with
    | [], _ =>
      refine ⟨34 :: (p.1 ++ 34 :: 58 :: 32 :: o), fun rest => ?_, ⟨_, rfl⟩, fun f rest hf => ?_⟩
      · simp only [List.map_cons, List.map_nil, commaSep, List.append_assoc, List.cons_append, List.nil_append]
        exact hm rest
      · obtain ⟨f, rfl⟩ : ∃ g, f = g + 1 := ⟨f - 1, by omega⟩
        simp only [List.length_append, List.length_cons] at hf
        simp only [List.append_assoc, List.cons_append]
        rw [getMembers, ws_id (by decide), getString_key _ _ hk]
        simp only [ws_colon]
        rw [getValue_space, h2.read f _ (stop_newline k _) (by omega)]
        simp only [ws_newline, ws_obj]
        rfl
    | q :: l, ih =>
      obtain ⟨o', h1', -, h2'⟩ := ih (by simp) fun x hx => h x (by simp [hx])
      refine ⟨34 :: (p.1 ++ 34 :: 58 :: 32 :: (o ++ 44 :: (newline d ++ o'))), fun rest => ?_, ⟨_, rfl⟩, fun f rest hf => ?_⟩
      · have := h1' rest
        simp only [List.map_cons] at this
        simp only [List.map_cons, commaSep_cons]
        simp only [List.append_assoc, List.cons_append, List.nil_append] at this ⊢
        rw [hm, loop_comma, this]
      · obtain ⟨f, rfl⟩ : ∃ g, f = g + 1 := ⟨f - 1, by omega⟩
        simp only [List.length_append, List.length_cons] at hf
        simp only [List.append_assoc, List.cons_append]
        rw [getMembers, ws_id (by decide), getString_key _ _ hk]
        simp only [ws_colon]
        rw [getValue_space, h2.read f _ (stop_comma _) (by omega)]
        simp only [ws_comma]
        rw [getMembers_newline, h2' f rest (by omega)]
        rfl

theorem pretty_obj (l : List (Bytes × Bytes × Json)) (hl : l ≠ []) (h : ∀ p ∈ l, (∀ c ∈ p.1, Plain c) ∧ Pretty p.2.1 p.2.2) :
    Pretty (objText (l.map fun p => (p.1, p.2.1))) (.obj (l.map fun p => (p.1, p.2.2))) := by
  have e1 : objText (l.map fun p => (p.1, p.2.1)) = [123] ++ commaSep (l.map fun p => [34] ++ p.1 ++ [34, 58] ++ p.2.1) ++ [125] := by
    unfold objText; rw [List.map_map]; rfl
  rw [e1]
  refine ⟨⟨123, _, rfl, by decide⟩, fun d => ?_⟩
  obtain ⟨o, h1, ⟨s, hs⟩, h2⟩ := pretty_members hl h (d + 1) d
  refine ⟨123 :: (newline (d + 1) ++ (o ++ (newline d ++ [125]))), fun rest => ?_, ⟨123, _, rfl, by decide⟩, fun f rest _ hf => ?_⟩
  · have hfirst : indentLoop .out true d (commaSep (l.map fun p => [34] ++ p.1 ++ [34, 58] ++ p.2.1) ++ 125 :: rest) =
        newline (d + 1) ++ indentLoop .out false (d + 1) (commaSep (l.map fun p => [34] ++ p.1 ++ [34, 58] ++ p.2.1) ++ 125 :: rest) := by
      match l, hl with
      | [x], _ => exact loop_need d 34 _ (by decide) (by decide) (by decide)
      | x :: y :: l, _ => exact loop_need d 34 _ (by decide) (by decide) (by decide)
    rw [List.append_assoc, List.append_assoc, List.cons_append, List.nil_append, List.cons_append, List.nil_append,
      loop_open d 123 _ (.inl rfl), hfirst, h1, loop_close d 125 rest (.inl rfl)]
    simp only [List.append_assoc, List.cons_append, List.nil_append]
  · obtain ⟨f, rfl⟩ : ∃ g, f = g + 1 := ⟨f - 1, by simp at hf; omega⟩
    have hg := h2 f rest (by simp at hf; omega)
    rw [getValue, List.cons_append, ws_id (by decide)]
    simp only [List.append_assoc, List.cons_append, List.nil_append]
    rw [getMembers_newline, hg, ws_newline, hs, List.cons_append, ws_id (by decide)]
    rfl

/-! ### C104 -/

theorem pretty_an (a : AnSensor) : Pretty a.text a.json :=
  pretty_obj [(asc "sensor_number", intText a.SensorNumber.toNat, .num a.SensorNumber.toNat), (asc "value", intText a.Value.toNat, .num a.Value.toNat)]
    (by simp) (by
      simp only [List.forall_mem_cons, List.not_mem_nil, false_implies, implies_true, and_true]
      exact ⟨⟨by decide, pretty_nat _⟩, by decide, pretty_nat _⟩)

section
variable {F : JsonFmt} {dv : F64 → Rat} (hF : ∀ x, getNumber (F.float x) = some (dv x, []))
include hF

theorem pretty_liquid (q : LiquidSensor) : Pretty (q.text F) ({ q with ValueL := dv q.ValueL } : LiquidSensor).json :=
  pretty_obj [(asc "sensor_number", intText q.SensorNumber.toNat, .num q.SensorNumber.toNat),
      (asc "module_number", intText q.ModuleNumber.toNat, .num q.ModuleNumber.toNat),
      (asc "error_flag", quoteText F q.ErrorFlag, jstr q.ErrorFlag), (asc "value_unit", quoteText F q.ValueUnit, jstr q.ValueUnit),
      (asc "value_mm", intText q.ValueMm.toNat, .num q.ValueMm.toNat), (asc "value_l", F.float q.ValueL, .num (dv q.ValueL))]
    (by simp) (by
      simp only [List.forall_mem_cons, List.not_mem_nil, false_implies, implies_true, and_true]
      exact ⟨⟨by decide, pretty_nat _⟩, ⟨by decide, pretty_nat _⟩, ⟨by decide, pretty_string _ _⟩, ⟨by decide, pretty_string _ _⟩,
        ⟨by decide, pretty_nat _⟩, by decide, pretty_number (hF _)⟩)

theorem pretty_loc (s : LocState) : Pretty (s.text F) ({ s with Latitude := dv s.Latitude, Longitude := dv s.Longitude } : LocState).json :=
  pretty_obj [(asc "lat", F.float s.Latitude, .num (dv s.Latitude)), (asc "lng", F.float s.Longitude, .num (dv s.Longitude)),
      (asc "speed", intText s.Speed.toNat, .num s.Speed.toNat), (asc "navigation_dt", quoteText F s.NavigationDt, jstr s.NavigationDt)]
    (by simp) (by
      simp only [List.forall_mem_cons, List.not_mem_nil, false_implies, implies_true, and_true]
      exact ⟨⟨by decide, pretty_number (hF _)⟩, ⟨by decide, pretty_number (hF _)⟩, ⟨by decide, pretty_nat _⟩, by decide, pretty_string _ _⟩)

theorem pretty_record (r : NavRecord) : Pretty (r.text F) (r.mapFloats dv).json := by
  have := pretty_obj [(asc "server_id", quoteText F r.ServerID, jstr r.ServerID), (asc "IMEI", quoteText F r.IMEI, jstr r.IMEI),
      (asc "client_id", intText r.ClientID.toNat, .num r.ClientID.toNat),
      (asc "received_dt", quoteText F r.ReceivedDt, jstr r.ReceivedDt), (asc "packet_id", intText r.PacketID.toNat, .num r.PacketID.toNat),
      (asc "navigation_unix_time", intText r.NavigationTimestamp, .num r.NavigationTimestamp),
      (asc "an_sensors", sliceText AnSensor.text r.AnSensors, jslice AnSensor.json r.AnSensors),
      (asc "liquid_sensors", sliceText (LiquidSensor.text F) r.LiquidSensors,
        jslice (fun q => ({ q with ValueL := dv q.ValueL } : LiquidSensor).json) r.LiquidSensors),
      (asc "loc_states", sliceText (LocState.text F) r.LocStates,
        jslice (fun s => ({ s with Latitude := dv s.Latitude, Longitude := dv s.Longitude } : LocState).json) r.LocStates),
      (asc "loc_states_count", intText r.LocStatesCount.toInt, .num r.LocStatesCount.toInt)]
    (by simp) (by
      simp only [List.forall_mem_cons, List.not_mem_nil, false_implies, implies_true, and_true]
      exact ⟨⟨by decide, pretty_string _ _⟩, ⟨by decide, pretty_string _ _⟩, ⟨by decide, pretty_nat _⟩, ⟨by decide, pretty_string _ _⟩,
        ⟨by decide, pretty_nat _⟩, ⟨by decide, pretty_int _⟩, ⟨by decide, pretty_slice _ _ _ fun a _ => pretty_an a⟩,
        ⟨by decide, pretty_slice _ _ _ fun q _ => pretty_liquid hF q⟩, ⟨by decide, pretty_slice _ _ _ fun s _ => pretty_loc hF s⟩,
        by decide, pretty_int _⟩)
  unfold NavRecord.json NavRecord.mapFloats
  simp only [jslice_map]
  exact this

/-- C104: what the log storage prints for a record is a JSON text and is read as the document of the record, the one that the
other storages get (`record_text`). -/
theorem log_text_document (r : NavRecord) :
    parse (r.logText F) = some (r.mapFloats dv).json ∧ parse (r.logText F) = parse (r.text F) := by
  obtain ⟨o, h1, h2⟩ := (pretty_record hF r).out 0
  have e : r.logText F = o := by
    have := h1 []
    rw [List.append_nil] at this
    unfold NavRecord.logText indentText
    rw [this, indentLoop, List.append_nil]
  have := h2.read (o.length + 1) [] (.inl rfl) (by omega)
  rw [List.append_nil] at this
  have hp : parse (r.logText F) = some (r.mapFloats dv).json := by
    rw [e]
    unfold parse
    rw [this]
    rfl
  exact ⟨hp, hp.trans (record_text hF r).symm⟩

end

/-- a JSON text without the white space between its tokens -/
def tokensOf : ScanAt → Bytes → Bytes
  | _, [] => []
  | .str, c :: s => c :: tokensOf (if c = 34 then .out else if c = 92 then .esc else .str) s
  | .esc, c :: s => c :: tokensOf .str s
  | .out, c :: s => if c = 0x20 ∨ c = 0x09 ∨ c = 0x0A ∨ c = 0x0D then tokensOf .out s else c :: tokensOf (if c = 34 then .str else .out) s

theorem tokens_newline (d : Nat) (s : Bytes) : tokensOf .out (newline d ++ s) = tokensOf .out s := by
  unfold newline
  rw [List.cons_append, tokensOf, if_pos (by decide)]
  induction 4 * d with
  | zero => rfl
  | succ n ih => rw [List.replicate_succ, List.cons_append, tokensOf, if_pos (by decide)]; exact ih

theorem tokens_indent (st : ScanAt) (n : Bool) (d : Nat) (s : Bytes) : tokensOf st (indentLoop st n d s) = tokensOf st s := by
  induction s generalizing st n d with
  | nil => cases st <;> simp [indentLoop, tokensOf]
  | cons c s ih =>
    cases st with
    | str => simp only [indentLoop, tokensOf, ih]
    | esc => simp only [indentLoop, tokensOf, ih]
    | out =>
      rw [indentLoop]
      by_cases hw : c = 0x20 ∨ c = 0x09 ∨ c = 0x0A ∨ c = 0x0D
      · rw [if_pos hw, ih, tokensOf, if_pos hw]
      rw [if_neg hw]
      have hc : ∀ x : Bytes, tokensOf .out (c :: x) = c :: tokensOf (if c = 34 then .str else .out) x := fun x => by rw [tokensOf, if_neg hw]
      rw [hc]
      by_cases h1 : c = 125 ∨ c = 93
      · have h34 : c ≠ 34 := by rcases h1 with rfl | rfl <;> decide
        rw [if_pos h1]
        cases n
        · rw [if_neg (by decide), tokens_newline, hc, if_neg h34, ih]
        · rw [if_pos rfl, hc, if_neg h34, ih]
      rw [if_neg h1]
      have hpre : ∀ x : Bytes, tokensOf .out ((if n = true then newline (if n = true then d + 1 else d) else []) ++ x) = tokensOf .out x := by
        intro x
        cases n
        · rfl
        · exact tokens_newline _ x
      simp only [hpre]
      by_cases h2 : c = 123 ∨ c = 91
      · have h34 : c ≠ 34 := by rcases h2 with rfl | rfl <;> decide
        rw [if_pos h2, hc, if_neg h34, ih]
      rw [if_neg h2]
      by_cases h3 : c = 44
      · have h34 : c ≠ 34 := by rw [h3]; decide
        rw [if_pos h3, hc, if_neg h34, tokens_newline, ih]
      rw [if_neg h3]
      by_cases h4 : c = 58
      · have h34 : c ≠ 34 := by rw [h4]; decide
        rw [if_pos h4, hc, if_neg h34, tokensOf, if_pos (by decide), ih]
      rw [if_neg h4, hc]
      by_cases h5 : c = 34
      · simp only [h5, if_true, ih]
      · simp only [h5, if_false, ih]

/-- C104: the text printed differs from the text stored by the other storages only in the white space between the tokens. -/
theorem log_text_tokens (F : JsonFmt) (r : NavRecord) : tokensOf .out (r.logText F) = tokensOf .out (r.text F) :=
  tokens_indent .out false 0 _

/-- test: an object with an array, an empty array and a string with punctuation -/
example : indentText (asc "{\"a\":[1,2],\"b\":[],\"c\":\"x,\\\"{}:\"}") =
    asc "{\n    \"a\": [\n        1,\n        2\n    ],\n    \"b\": [],\n    \"c\": \"x,\\\"{}:\"\n}" := by decide +kernel

end Egts
