import Verif.Spec.Reason
import Verif.Props.JsonText
set_option autoImplicit false
/- C125: the reasons of telematic messages by name and number. -/
namespace Egts

/-! the tables of the code are those of the .proto file -/

/-- C125: the constants of the code -/
theorem reason_consts : reasonConsts = protoReasons := by decide +kernel
theorem reason_values : reasonValues = protoReasons := by decide +kernel
theorem reason_names : reasonNames = protoReasons.map fun p => (p.2, p.1) := by decide +kernel

theorem lookup_of_mem {α β : Type} [BEq α] [LawfulBEq α] {l : List (α × β)} (hn : (l.map (·.1)).Nodup) {a : α} {b : β} (h : (a, b) ∈ l) : l.lookup a = some b := by
  induction l with
  | nil => cases h
  | cons p l ih =>
    obtain ⟨c, d⟩ := p
    rw [List.map_cons, List.nodup_cons] at hn
    rcases List.mem_cons.mp h with h | h
    · injection h with h1 h2; subst h1 h2; simp [List.lookup]
    · have : (a == c) = false := by
        refine beq_false_of_ne fun e => hn.1 ?_
        rw [← e]
        exact List.mem_map_of_mem (f := (·.1)) (by assumption : (a, b) ∈ l)
      rw [List.lookup, this]
      exact ih hn.2 h

theorem mem_of_lookup {α β : Type} [BEq α] [LawfulBEq α] {l : List (α × β)} {a : α} {b : β} (h : l.lookup a = some b) : (a, b) ∈ l := by
  induction l with
  | nil => cases h
  | cons p l ih =>
    obtain ⟨c, d⟩ := p
    rw [List.lookup] at h
    split at h
    · next e => cases h; rw [eq_of_beq e]; simp
    · exact List.mem_cons_of_mem _ (ih h)

theorem names_nodup : (protoReasons.map (·.1)).Nodup := by decide +kernel
theorem numbers_nodup : (protoReasons.map (·.2)).Nodup := by decide +kernel

/-- C125: a reason of the .proto file is printed by its name -/
theorem reason_named {name : Bytes} {x : Int32} (h : (name, x) ∈ protoReasons) : reasonString x = name := by
  unfold reasonString
  have : reasonNames.lookup x = some name := by
    rw [reason_names]
    refine lookup_of_mem ?_ (List.mem_map_of_mem (f := fun p : Bytes × Int32 => (p.2, p.1)) h)
    rw [List.map_map]
    exact numbers_nodup
  rw [this]

/-- C125: any other number is printed as a number -/
theorem reason_unnamed {x : Int32} (h : ∀ name, (name, x) ∉ protoReasons) : reasonString x = intText x.toInt := by
  unfold reasonString
  cases hl : reasonNames.lookup x with
  | none => rfl
  | some s =>
    have := mem_of_lookup hl
    rw [reason_names, List.mem_map] at this
    obtain ⟨p, hp, he⟩ := this
    injection he with h1 h2
    exact absurd (by rw [← h1]; exact hp) (h p.1)

theorem names_no_numbers : ∀ p ∈ protoReasons, (JsonP.getNumber p.1).isNone = true := by decide +kernel

theorem intText_inj {a b : Int} (h : intText a = intText b) : a = b := by
  have h1 := getNumber_int a
  rw [h, getNumber_int b] at h1
  simp only [Option.some.injEq, Prod.mk.injEq, and_true] at h1
  exact_mod_cast h1.symm

/-- C125: what is printed tells the reason -/
theorem reason_string_inj (a b : Int32) (h : reasonString a = reasonString b) : a = b := by
  by_cases ha : ∃ name, (name, a) ∈ protoReasons <;> by_cases hb : ∃ name, (name, b) ∈ protoReasons
  · obtain ⟨n, hn⟩ := ha
    obtain ⟨m, hm⟩ := hb
    rw [reason_named hn, reason_named hm] at h
    subst h
    have h1 := lookup_of_mem names_nodup hn
    rw [lookup_of_mem names_nodup hm] at h1
    exact (Option.some.inj h1).symm
  · obtain ⟨n, hn⟩ := ha
    rw [reason_named hn, reason_unnamed (fun m hm => hb ⟨m, hm⟩)] at h
    have := names_no_numbers _ hn
    simp only [h, getNumber_int] at this
    cases this
  · obtain ⟨n, hn⟩ := hb
    rw [reason_named hn, reason_unnamed (fun m hm => ha ⟨m, hm⟩)] at h
    have := names_no_numbers _ hn
    simp only [← h, getNumber_int] at this
    cases this
  · rw [reason_unnamed (fun m hm => ha ⟨m, hm⟩), reason_unnamed (fun m hm => hb ⟨m, hm⟩)] at h
    exact Int32.toInt_inj.mp (intText_inj h)

/-- C125: a JSON string (without white space around it) with a name of the .proto file is read as its number; any other string is refused and changes nothing -/
theorem reason_read_string {J : JsonReader} (hJ : J.Reads) (x : Int32) (t s : Bytes) (ha : ∀ c ∈ 34 :: t, c.toNat < 128) (h : JsonP.parse (34 :: t) = some (.str s)) :
    (∀ v, (s, v) ∈ protoReasons → reasonUnmarshal J x (34 :: t) = .ok v) ∧
    ((∀ v, (s, v) ∉ protoReasons) → reasonUnmarshal J x (34 :: t) = .failed x) := by
  unfold reasonUnmarshal
  simp only [if_true, hJ.str _ _ ha h, reason_values]
  constructor
  · intro v hv
    rw [lookup_of_mem names_nodup hv]
  · intro hn
    cases hl : protoReasons.lookup s with
    | none => rfl
    | some v => exact absurd (mem_of_lookup hl) (hn v)

/-- C125: a name in quotation marks -/
theorem reason_read_name {J : JsonReader} (hJ : J.Reads) (x : Int32) {name : Bytes} {v : Int32} (h : (name, v) ∈ protoReasons) :
    reasonUnmarshal J x ([34] ++ name ++ [34]) = .ok v := by
  have hp : ∀ p ∈ protoReasons, (∀ c ∈ 34 :: (p.1 ++ [34]), c.toNat < 128) ∧
      (match JsonP.parse (34 :: (p.1 ++ [34])) with | some (.str s) => decide (s = p.1) | _ => false) = true := by decide +kernel
  obtain ⟨h1, h2⟩ := hp _ h
  refine (reason_read_string hJ x (name ++ [34]) name h1 ?_).1 v h
  revert h2
  cases JsonP.parse (34 :: (name ++ [34])) with
  | none => simp
  | some j => cases j <;> simp

theorem intText_head (n : Int) : ∃ c t, intText n = c :: t ∧ c ≠ 34 := by
  have hg := getNumber_int n
  cases h : intText n with
  | nil => rw [h] at hg; cases hg
  | cons c t =>
    refine ⟨c, t, rfl, fun e => ?_⟩
    rw [h, e] at hg
    simp [JsonP.getNumber, JsonP.getUnsigned, JsonP.getInt, JsonP.getDigits, JsonP.isDigit] at hg

/-- C125: what `json.Marshal` writes for a reason, its number, is read back -/
theorem reason_read_number {J : JsonReader} (hJ : J.Reads) (x v : Int32) : reasonUnmarshal J x (intText v.toInt) = .ok v := by
  obtain ⟨c, t, h, hc⟩ := intText_head v.toInt
  have := hJ.int32 v
  rw [h] at this ⊢
  simp only [reasonUnmarshal, if_neg hc, this]

theorem parse_quote {t : Bytes} {j : Json} (h : JsonP.parse (34 :: t) = some j) : ∃ s, j = .str s := by
  unfold JsonP.parse at h
  have hw : JsonP.ws (34 :: t) = 34 :: t := by simp [JsonP.ws]
  rw [JsonP.getValue, hw] at h
  simp only at h
  cases hg : JsonP.getString (34 :: t) with
  | none => rw [hg] at h; cases h
  | some p =>
    rw [hg] at h
    simp only [Option.map_some] at h
    split at h
    · exact ⟨p.1, (Option.some.inj h).symm⟩
    · cases h

/-- C125: nothing but names and whole numbers is read as a reason from JSON, except null (see `reason_not_refused`); a reason that is not read is left as it was -/
theorem reason_read_partial {J : JsonReader} (hJ : J.Reads) (x : Int32) (c : UInt8) (t : Bytes) (ha : ∀ d ∈ c :: t, d.toNat < 128) (j : Json)
    (h : JsonP.parse (c :: t) = some j) :
    reasonUnmarshal J x (c :: t) = .failed x ∨
    ∃ v, reasonUnmarshal J x (c :: t) = .ok v ∧ ((∃ s, j = .str s ∧ (s, v) ∈ protoReasons) ∨ j = .num v.toInt ∨ (j = .null ∧ v = 0)) := by
  by_cases hc : c = 34
  · subst hc
    obtain ⟨s, rfl⟩ := parse_quote h
    by_cases hm : ∃ v, (s, v) ∈ protoReasons
    · obtain ⟨v, hv⟩ := hm
      exact .inr ⟨v, (reason_read_string hJ x t s ha h).1 v hv, .inl ⟨s, rfl, hv⟩⟩
    · exact .inl ((reason_read_string hJ x t s ha h).2 fun v hv => hm ⟨v, hv⟩)
  · rcases hJ.other _ _ h with h1 | ⟨n, rfl, h1⟩ | ⟨rfl, h1⟩
    · left; simp only [reasonUnmarshal, if_neg hc, h1]
    · right; exact ⟨n, by simp only [reasonUnmarshal, if_neg hc, h1], .inr (.inl rfl)⟩
    · right; exact ⟨0, by simp only [reasonUnmarshal, if_neg hc, h1], .inr (.inr ⟨rfl, rfl⟩)⟩

/-- C125, false of the code: numbers that are no reasons are accepted; null (which has to change nothing) makes 0 of the reason, which is none; and no data at all lets
`UnmarshalJSON` panic -/
theorem reason_not_refused {J : JsonReader} (hJ : J.Reads) (x : Int32) :
    (∃ data v, reasonUnmarshal J x data = .ok v ∧ ∀ name, (name, v) ∉ protoReasons) ∧
    reasonUnmarshal J x (asc "null") = .ok 0 ∧ (∀ name, (name, (0 : Int32)) ∉ protoReasons) ∧
    reasonUnmarshal J x [] = .panic := by
  have hno : ∀ v : Int32, (∀ p ∈ protoReasons, p.2 ≠ v) → ∀ name, (name, v) ∉ protoReasons := fun v h name hm => h _ hm rfl
  refine ⟨⟨intText (1000 : Int32).toInt, 1000, reason_read_number hJ x 1000, hno _ (by decide +kernel)⟩, ?_, hno _ (by decide +kernel), rfl⟩
  have h1 : asc "null" = 110 :: asc "ull" := by decide
  have h2 := hJ.null
  rw [h1] at h2 ⊢
  simp only [reasonUnmarshal, h2]
  rfl

/-- a reader as `Reads` wants it exists (test): it reads nothing but what it has to -/
noncomputable def exReader : JsonReader where
  str b := match JsonP.parse b with | some (.str s) => some s | _ => none
  int32 b := open Classical in if h : ∃ n : Int32, b = intText n.toInt then some h.choose else if b = asc "null" then some 0 else none

theorem parse_int (n : Int) : JsonP.parse (intText n) = some (.num n) := by
  have := (writes_int n).read ((intText n).length + 1) [] (.inl rfl) (by omega)
  rw [List.append_nil] at this
  unfold JsonP.parse
  rw [this]
  rfl

theorem exReader_null : exReader.int32 (asc "null") = some 0 := by
  have h : ¬ ∃ m : Int32, asc "null" = intText m.toInt := by
    rintro ⟨m, h⟩
    have := getNumber_int m.toInt
    rw [← h] at this
    revert this
    have : (JsonP.getNumber (asc "null")) = none := by decide +kernel
    rw [this]; simp
  simp only [exReader, dif_neg h, if_true]

theorem exReader_reads : exReader.Reads where
  str b s _ h := by simp [exReader, h]
  int32 n := by
    have h : ∃ m : Int32, intText n.toInt = intText m.toInt := ⟨n, rfl⟩
    simp only [exReader, dif_pos h]
    exact congrArg some (Int32.toInt_inj.mp (intText_inj h.choose_spec)).symm
  null := exReader_null
  other b j h := by
    by_cases hn : ∃ n : Int32, b = intText n.toInt
    · right; left
      refine ⟨hn.choose, ?_, by simp only [exReader, dif_pos hn]⟩
      have h1 := parse_int hn.choose.toInt
      rw [← hn.choose_spec, h] at h1
      exact Option.some.inj h1
    · by_cases hb : b = asc "null"
      · right; right
        subst hb
        refine ⟨?_, exReader_null⟩
        have h1 : JsonP.parse (asc "null") = some .null := rfl
        rw [h] at h1
        exact Option.some.inj h1
      · left
        simp only [exReader, dif_neg hn, if_neg hb]

end Egts
