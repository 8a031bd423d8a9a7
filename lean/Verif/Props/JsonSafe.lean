import Verif.Props.JsonText
set_option autoImplicit false
/- C98: the text of a record is one line without characters that mean something to a browser, whatever the client sends. -/
namespace Egts
open JsonP

/-- a character that neither ends a line (of a text file, a log or a JavaScript program) nor is markup -/
def HarmlessChar (c : Char) : Prop :=
  32 ≤ c.toNat ∧ c ≠ '<' ∧ c ≠ '>' ∧ c ≠ '&' ∧ c.toNat ≠ 0x2028 ∧ c.toNat ≠ 0x2029

/-- a text in UTF-8 of such characters -/
def HarmlessText (s : Bytes) : Prop := ∃ cs : List Char, s = cs.flatMap String.utf8EncodeChar ∧ ∀ c ∈ cs, HarmlessChar c

theorem HarmlessText.append {s t : Bytes} (hs : HarmlessText s) (ht : HarmlessText t) : HarmlessText (s ++ t) := by
  obtain ⟨a, rfl, ha⟩ := hs
  obtain ⟨b, rfl, hb⟩ := ht
  refine ⟨a ++ b, by rw [List.flatMap_append], fun c hc => ?_⟩
  rcases List.mem_append.mp hc with h | h
  · exact ha c h
  · exact hb c h

/-- an ASCII byte other than the control characters, <, > and & -/
def HarmlessByte (b : UInt8) : Prop := 32 ≤ b.toNat ∧ b.toNat < 128 ∧ b ≠ 60 ∧ b ≠ 62 ∧ b ≠ 38
instance (b : UInt8) : Decidable (HarmlessByte b) := by unfold HarmlessByte; infer_instance

theorem char_toNat (v : Nat) (h : v < 0xD800) : (Char.ofNat v).toNat = v := by
  have hval : v.isValidChar := .inl h
  rw [Char.ofNat, dif_pos hval]
  rfl

theorem harmless_ascii (s : Bytes) (h : ∀ b ∈ s, HarmlessByte b) : HarmlessText s := by
  induction s with
  | nil => exact ⟨[], rfl, by simp⟩
  | cons b s ih =>
    refine HarmlessText.append (s := [b]) ?_ (ih fun x hx => h x (by simp [hx]))
    have hb := h b (by simp)
    have hc : (Char.ofNat b.toNat).toNat = b.toNat := char_toNat _ (by have := hb.2.1; omega)
    have hv : (Char.ofNat b.toNat).val.toNat = b.toNat := hc
    refine ⟨[Char.ofNat b.toNat], ?_, ?_⟩
    · rw [List.flatMap_cons, List.flatMap_nil, List.append_nil, String.utf8EncodeChar.eq_1]
      simp only [hv]
      rw [if_pos (by have := hb.2.1; omega)]
      rw [UInt8.ofNat_toNat]
    · simp only [List.mem_singleton, forall_eq]
      obtain ⟨h1, h2, h3, h4, h5⟩ := hb
      have ne : ∀ (c : Char) (d : UInt8), c.toNat = d.toNat → b ≠ d → Char.ofNat b.toNat ≠ c := by
        intro c d hd hn he
        rw [← he, hc] at hd
        exact hn (UInt8.toNat_inj.mp hd)
      exact ⟨by omega, ne _ 60 rfl h3, ne _ 62 rfl h4, ne _ 38 rfl h5, by omega, by omega⟩

theorem harmless_escText (bf : Bool) (s : Bytes) : HarmlessText (escText bf s) := by
  induction s using escText.induct with
  | case1 => rw [escText]; exact harmless_ascii [] (by simp)
  | case2 a r h ih =>
    rw [escText, if_pos h]
    refine .append (harmless_ascii _ ?_) ih
    revert h; revert a; refine byte_forall _ ?_
    cases bf <;> decide +kernel
  | case3 a r h hr ih =>
    rw [escText, if_neg h, if_pos hr]
    exact .append (harmless_ascii _ (by decide)) ih
  | case4 a r h hr ih =>
    rw [escText, if_neg h, if_neg hr]
    refine .append ?_ ih
    unfold escRune
    split
    · exact harmless_ascii _ (by decide)
    split
    · exact harmless_ascii _ (by decide)
    · next h1 h2 =>
      obtain ⟨c, hc⟩ := runeLen_some _ hr
      have hb := runeLen_high (a :: r)
      rw [hc] at h1 h2 hb
      refine ⟨[c], by rw [hc]; simp, ?_⟩
      simp only [List.mem_singleton, forall_eq]
      have hc128 : 128 ≤ c.toNat := by
        by_contra hlt
        have e : String.utf8EncodeChar c = [UInt8.ofNat c.val.toNat] := by
          rw [String.utf8EncodeChar.eq_1]
          rw [if_pos (by have : c.val.toNat = c.toNat := rfl; omega)]
        have := hb _ (by rw [e]; exact List.mem_singleton.mpr rfl)
        have h3 : (UInt8.ofNat c.val.toNat).toNat = c.val.toNat % 256 := UInt8.toNat_ofNat'
        have h4 : c.val.toNat = c.toNat := rfl
        omega
      have ne : ∀ d : Char, d.toNat < 128 → c ≠ d := by rintro d hd rfl; omega
      have ne' : ∀ n : Nat, n < 0xD800 → String.utf8EncodeChar c ≠ String.utf8EncodeChar (Char.ofNat n) → c.toNat ≠ n := by
        intro n hn h he
        exact h (by rw [← he, Char.ofNat_toNat])
      exact ⟨by omega, ne _ (by decide), ne _ (by decide), ne _ (by decide), 
        ne' _ (by omega) (by rw [show String.utf8EncodeChar (Char.ofNat 0x2028) = [226, 128, 168] by decide +kernel]; exact h1),
        ne' _ (by omega) (by rw [show String.utf8EncodeChar (Char.ofNat 0x2029) = [226, 128, 169] by decide +kernel]; exact h2)⟩

theorem harmless_quote (F : JsonFmt) (s : Bytes) : HarmlessText (quoteText F s) :=
  .append (.append (harmless_ascii _ (by decide)) (harmless_escText _ s)) (harmless_ascii _ (by decide))

/-- a printable ASCII character other than the quotation mark, the backslash, <, > and & -/
def LiteralByte (b : UInt8) : Prop := 32 ≤ b.toNat ∧ b.toNat < 128 ∧ b ≠ 34 ∧ b ≠ 92 ∧ b ≠ 60 ∧ b ≠ 62 ∧ b ≠ 38
instance (b : UInt8) : Decidable (LiteralByte b) := by unfold LiteralByte; infer_instance

theorem literal_escText (bf : Bool) (s : Bytes) (h : ∀ b ∈ s, LiteralByte b) : escText bf s = s := by
  induction s with
  | nil => rw [escText]
  | cons b s ih =>
    have hb := h b (by simp)
    rw [escText, if_pos hb.2.1, ih fun x hx => h x (by simp [hx])]
    have e : ∀ b : UInt8, LiteralByte b → escAscii bf b = [b] := by
      refine byte_forall _ ?_
      cases bf <;> decide +kernel
    rw [e b hb]
    rfl

/-- A string of printable ASCII characters (letters, digits, spaces, ...) stands in the text as it is, between quotation marks: what
looks for the string itself in the line finds it. -/
theorem literal_string (F : JsonFmt) (s : Bytes) (h : ∀ b ∈ s, LiteralByte b) : quoteText F s = [34] ++ s ++ [34] := by
  rw [quoteText, literal_escText _ _ h]

/-- and only such characters of one byte do: every other ASCII character is written in more than one byte -/
theorem literal_only (F : JsonFmt) (b : UInt8) (hb : b.toNat < 128) : quoteText F [b] = [34, b, 34] ↔ LiteralByte b := by
  refine ⟨fun h => ?_, fun h => literal_string F [b] (by simpa using h)⟩
  have e : ∀ b : UInt8, b.toNat < 128 → ∀ bf : Bool, escAscii bf b = [b] → LiteralByte b := by
    refine byte_forall _ ?_
    decide +kernel
  refine e b hb F.shortBF ?_
  rw [quoteText, escText, if_pos hb, escText, List.append_nil] at h
  have h2 : [34] ++ escAscii F.shortBF b ++ [34] = [34] ++ [b] ++ [34] := h
  exact List.append_cancel_left (List.append_cancel_right h2)

/-- non-vacuity: the unit of a liquid sensor, with a space -/
example (F : JsonFmt) : quoteText F (asc "0.1 L") = asc "\"0.1 L\"" := by
  rw [literal_string F (asc "0.1 L") (by decide +kernel)]
  decide +kernel

theorem harmless_digit (n : Nat) (h : n < 10) : HarmlessByte (UInt8.ofNat (48 + n)) := by
  revert n; decide

theorem harmless_dec (n : Nat) : HarmlessText (decText n) := by
  induction n using decText.induct with
  | case1 n h =>
    rw [decText, if_pos h]
    exact harmless_ascii _ (by simpa using harmless_digit n h)
  | case2 n h ih =>
    rw [decText, if_neg h]
    exact .append ih (harmless_ascii _ (by simpa using harmless_digit (n % 10) (by omega)))

theorem harmless_int (n : Int) : HarmlessText (intText n) := by
  unfold intText
  split
  · exact .append (s := [45]) (harmless_ascii _ (by decide)) (harmless_dec _)
  · exact harmless_dec _

theorem harmless_comma (l : List Bytes) (h : ∀ x ∈ l, HarmlessText x) : HarmlessText (commaSep l) := by
  induction l with
  | nil => exact harmless_ascii _ (by simp [commaSep])
  | cons x l ih =>
    match l, ih with
    | [], _ => exact h x (by simp)
    | y :: l, ih =>
      rw [commaSep_cons]
      exact .append (.append (h x (by simp)) (harmless_ascii _ (by decide))) (ih fun z hz => h z (List.mem_cons_of_mem _ hz))

theorem harmless_obj (m : List (Bytes × Bytes)) (h : ∀ kv ∈ m, HarmlessText kv.1 ∧ HarmlessText kv.2) : HarmlessText (objText m) := by
  refine .append (.append (harmless_ascii _ (by decide)) (harmless_comma _ ?_)) (harmless_ascii _ (by decide))
  intro x hx
  obtain ⟨kv, hk, rfl⟩ := List.mem_map.mp hx
  exact .append (.append (.append (harmless_ascii _ (by decide)) (h kv hk).1) (harmless_ascii _ (by decide))) (h kv hk).2

theorem harmless_slice {α : Type} (f : α → Bytes) (l : List α) (h : ∀ x ∈ l, HarmlessText (f x)) : HarmlessText (sliceText f l) := by
  unfold sliceText
  split
  · exact harmless_ascii _ (by decide)
  · refine .append (.append (harmless_ascii _ (by decide)) (harmless_comma _ ?_)) (harmless_ascii _ (by decide))
    intro x hx
    obtain ⟨y, hy, rfl⟩ := List.mem_map.mp hx
    exact h y hy

/-- the characters a JSON number can have: digits, sign, point, exponent -/
def NumberByte (b : UInt8) : Prop := (48 ≤ b.toNat ∧ b.toNat ≤ 57) ∨ b = 43 ∨ b = 45 ∨ b = 46 ∨ b = 101 ∨ b = 69

/-- C98: whatever texts a record has (the IMEI is bytes of the client's choice), the text that is stored for it is UTF-8, is a
single line, and contains none of the characters `<`, `>`, `&`, U+2028 and U+2029. Assumed of strconv: numbers are written with
the characters of numbers. -/
theorem record_text_harmless (F : JsonFmt) (hF : ∀ x, ∀ b ∈ F.float x, NumberByte b) (r : NavRecord) : HarmlessText (r.text F) := by
  have f : ∀ x, HarmlessText (F.float x) := fun x => harmless_ascii _ fun b hb => by
    rcases hF x b hb with ⟨h1, h2⟩ | rfl | rfl | rfl | rfl | rfl
    · refine ⟨by omega, by omega, ?_, ?_, ?_⟩ <;> · rintro rfl; revert h1 h2; decide
    all_goals decide
  have i := harmless_int
  have q := harmless_quote F
  have a : ∀ s : Bytes, (∀ b ∈ s, HarmlessByte b) → HarmlessText s := harmless_ascii
  refine harmless_obj _ ?_
  simp only [List.forall_mem_cons, List.not_mem_nil, false_implies, implies_true, and_true]
  refine ⟨⟨a _ (by decide), q _⟩, ⟨a _ (by decide), q _⟩, ⟨a _ (by decide), i _⟩,
    ⟨a _ (by decide), q _⟩, ⟨a _ (by decide), i _⟩, ⟨a _ (by decide), i _⟩,
    ⟨a _ (by decide), harmless_slice _ _ fun _ _ => harmless_obj _ ?_⟩,
    ⟨a _ (by decide), harmless_slice _ _ fun _ _ => harmless_obj _ ?_⟩,
    ⟨a _ (by decide), harmless_slice _ _ fun _ _ => harmless_obj _ ?_⟩, a _ (by decide), i _⟩
  · simp only [List.forall_mem_cons, List.not_mem_nil, false_implies, implies_true, and_true]
    exact ⟨⟨a _ (by decide), i _⟩, a _ (by decide), i _⟩
  · simp only [List.forall_mem_cons, List.not_mem_nil, false_implies, implies_true, and_true]
    exact ⟨⟨a _ (by decide), i _⟩, ⟨a _ (by decide), i _⟩, ⟨a _ (by decide), q _⟩,
      ⟨a _ (by decide), q _⟩, ⟨a _ (by decide), i _⟩, a _ (by decide), f _⟩
  · simp only [List.forall_mem_cons, List.not_mem_nil, false_implies, implies_true, and_true]
    exact ⟨⟨a _ (by decide), f _⟩, ⟨a _ (by decide), f _⟩, ⟨a _ (by decide), i _⟩,
      a _ (by decide), q _⟩

/-- C98, in bytes: no byte of the text is a control character (in particular, there is no line feed) or one of <, >, &. -/
theorem record_text_one_line (F : JsonFmt) (hF : ∀ x, ∀ b ∈ F.float x, NumberByte b) (r : NavRecord) :
    ∀ b ∈ r.text F, 32 ≤ b.toNat ∧ b ≠ 60 ∧ b ≠ 62 ∧ b ≠ 38 := by
  obtain ⟨cs, e, h⟩ := record_text_harmless F hF r
  rw [e]
  intro b hb
  obtain ⟨c, hc, hb⟩ := List.mem_flatMap.mp hb
  have := h c hc
  have hv : c.val.toNat = c.toNat := rfl
  by_cases hlt : c.toNat ≤ 127
  · rw [String.utf8EncodeChar.eq_1] at hb
    rw [if_pos (by omega)] at hb
    have e := List.mem_singleton.mp hb
    have h3 : (UInt8.ofNat c.val.toNat).toNat = c.val.toNat % 256 := UInt8.toNat_ofNat'
    have ne : ∀ (d : Char) (x : UInt8), d.toNat = x.toNat → c ≠ d → b ≠ x := by
      rintro d x hd hn rfl
      exact hn (Char.ext (UInt32.toNat_inj.mp (by show c.toNat = d.toNat; rw [e] at hd; omega)))
    exact ⟨by rw [e]; have := this.1; omega, ne '<' _ rfl this.2.1, ne '>' _ rfl this.2.2.1, ne '&' _ rfl this.2.2.2.1⟩
  · have hi : 128 ≤ b.toNat := by
      rw [String.utf8EncodeChar.eq_1] at hb
      rw [if_neg (by omega)] at hb
      split at hb
      · simp only [List.mem_cons, List.not_mem_nil, or_false] at hb
        rcases hb with rfl | rfl <;> · simp only [UInt8.toNat_ofNat', hv] ; omega
      split at hb
      · simp only [List.mem_cons, List.not_mem_nil, or_false] at hb
        rcases hb with rfl | rfl | rfl <;> · simp only [UInt8.toNat_ofNat', hv] ; omega
      · simp only [List.mem_cons, List.not_mem_nil, or_false] at hb
        rcases hb with rfl | rfl | rfl | rfl <;> · simp only [UInt8.toNat_ofNat', hv] ; omega
    refine ⟨by omega, ?_, ?_, ?_⟩ <;> · rintro rfl; revert hi; decide

/-- the characters are written by their numbers, and come back as they were: an IMEI with a line feed and markup -/
example : escText true (asc "\n<&>") = asc "\\n\\u003c\\u0026\\u003e" ∧ getString (quoteText ⟨twoPlaces, true⟩ (asc "\n<&>")) = some (asc "\n<&>", []) := by
  decide +kernel

/-- the hypothesis on numbers is met by a formatter -/
example : ∃ F : JsonFmt, (∀ x, ∀ b ∈ F.float x, NumberByte b) ∧ ∀ x, ∃ q, getNumber (F.float x) = some (q, []) :=
  ⟨⟨fun _ => asc "-1.5e+2", true⟩, fun _ => by show ∀ b ∈ asc "-1.5e+2", _; unfold NumberByte; decide, fun _ => ⟨-150, show getNumber (asc "-1.5e+2") = _ by decide +kernel⟩⟩

end Egts
