import Verif.Props.CmdReal
import Verif.Model.TimeParse
set_option autoImplicit false
/- C111: the flags of a command line -/
namespace Egts

/-- the values `sets` are those of the texts `l`, read by the kinds of the flags -/
def SetsOf (formal : List (Bytes × FlagKind)) (l : List (Bytes × Bytes)) (sets : List (Bytes × FlagVal)) : Prop :=
  List.Forall₂ (fun (p : Bytes × Bytes) (q : Bytes × FlagVal) => q.1 = p.1 ∧ ∃ k, formal.lookup p.1 = some k ∧ k.set p.2 = some q.2) l sets

theorem splitName_plain (name : Bytes) (h : 61 ∉ name) : splitName name = (name, none) := by
  unfold splitName
  split
  · rfl
  · rename_i c s
    exact if_neg fun h' => h (List.mem_cons_of_mem _ h')

theorem takeWhile_eq (s v : Bytes) (h : 61 ∉ s) : (s ++ 61 :: v).takeWhile (· ≠ 61) = s ∧ (s ++ 61 :: v).dropWhile (· ≠ 61) = 61 :: v := by
  induction s with
  | nil => simp
  | cons c s ih =>
    simp only [List.mem_cons, not_or] at h
    have hc : (decide (c ≠ 61)) = true := by simpa using Ne.symm h.1
    rw [List.cons_append, List.takeWhile_cons_of_pos (p := fun x => decide (x ≠ 61)) hc, List.dropWhile_cons_of_pos (p := fun x => decide (x ≠ 61)) hc, (ih h.2).1, (ih h.2).2]
    exact ⟨rfl, rfl⟩

theorem splitName_joined (name v : Bytes) (h : 61 ∉ name) (hn : name ≠ []) : splitName (name ++ [61] ++ v) = (name, some v) := by
  match name with
  | [] => exact absurd rfl hn
  | c :: s =>
    simp only [List.mem_cons, not_or] at h
    have e : c :: s ++ [61] ++ v = c :: (s ++ 61 :: v) := by simp
    rw [e]
    show (if 61 ∈ s ++ 61 :: v then _ else _) = _
    rw [if_pos (by simp)]
    have := takeWhile_eq s v h.2
    rw [this.1, this.2]
    rfl

/-- what a word that begins with a minus sign is: too few characters, or dashes and the rest -/
theorem word_cases (s : Bytes) (h : ¬ (s.length < 2 ∨ s.head? ≠ some 45)) (h2 : s ≠ [45, 45]) :
    ∃ name, (s = 45 :: name ∨ s = 45 :: 45 :: name) ∧ flagName s = name ∧ name ≠ [] ∧ (s = 45 :: name → name.head? ≠ some 45) := by
  match s with
  | [] => simp at h
  | [c] => simp at h
  | c :: d :: t =>
    have hc : c = 45 := by
      by_contra hc
      exact h (.inr (by simpa using hc))
    subst hc
    by_cases hd : d = 45
    · subst hd
      refine ⟨t, .inr rfl, rfl, ?_, ?_⟩
      · rintro rfl; exact h2 rfl
      · intro e
        have := congrArg List.length e
        simp at this
    · refine ⟨d :: t, .inl rfl, ?_, by simp, fun _ => by simpa using hd⟩
      show (if some d = some 45 then _ else _) = _
      rw [if_neg (by simpa using hd)]
      rfl

theorem flagName_word {w name : Bytes} (h : FlagWord w name) (r : Bytes) : flagName (w ++ r) = name ++ r ∧
    ¬ ((w ++ r).length < 2 ∨ (w ++ r).head? ≠ some 45) ∧ w ++ r ≠ [45, 45] := by
  obtain ⟨hw, hn, h61, h45⟩ := h
  match name with
  | [] => exact absurd rfl hn
  | c :: s =>
    have hc : c ≠ 45 := by simpa using h45
    rcases hw with rfl | rfl
    · refine ⟨?_, ?_, ?_⟩
      · show (if some c = some 45 then _ else _) = _
        rw [if_neg (by simpa using hc)]
        rfl
      · simp
      · intro e
        simp only [List.cons_append, List.cons.injEq] at e
        exact hc e.2.1
    · refine ⟨rfl, by simp, by simp⟩

/-- one step of the loop for a word with a name -/
theorem flagParse_word (formal : List (Bytes × FlagKind)) (s : Bytes) (args : List Bytes) (c : UInt8) (name : Bytes)
    (h1 : ¬ (s.length < 2 ∨ s.head? ≠ some 45)) (h2 : s ≠ [45, 45]) (h3 : flagName s = c :: name) (hc : ¬ (c = 45 ∨ c = 61)) :
    flagParse formal (s :: args) =
      match formal.lookup (splitName (c :: name)).1 with
        | none => if (splitName (c :: name)).1 = asc "help" ∨ (splitName (c :: name)).1 = asc "h" then .help else .bad
        | some k => match (splitName (c :: name)).2 with
          | some v => match k.set v with
            | none => .bad
            | some x => (flagParse formal args).cons (splitName (c :: name)).1 x
          | none => match args with
            | [] => .bad
            | v :: args => match k.set v with
              | none => .bad
              | some x => (flagParse formal args).cons (splitName (c :: name)).1 x := by
  rw [flagParse.eq_def]
  dsimp only
  rw [if_neg h1, if_neg h2, h3]
  dsimp only
  rw [if_neg hc]
  rfl

theorem word_head {w name : Bytes} (h : FlagWord w name) : ∃ c t, name = c :: t ∧ ¬ (c = 45 ∨ c = 61) := by
  obtain ⟨-, hn, h61, h45⟩ := h
  match name with
  | [] => exact absurd rfl hn
  | c :: s =>
    refine ⟨c, s, rfl, ?_⟩
    rintro (rfl | rfl)
    · exact h45 rfl
    · exact h61 (by simp)

theorem flagParse_apart (formal : List (Bytes × FlagKind)) {w name : Bytes} (h : FlagWord w name) (v : Bytes) (args : List Bytes) :
    flagParse formal (w :: v :: args) = match formal.lookup name with
      | none => if name = asc "help" ∨ name = asc "h" then .help else .bad
      | some k => match k.set v with
        | none => .bad
        | some x => (flagParse formal args).cons name x := by
  obtain ⟨a, b, c⟩ := flagName_word h []
  rw [List.append_nil] at a b c
  obtain ⟨d, t, rfl, hd⟩ := word_head h
  rw [List.append_nil] at a
  rw [flagParse_word formal w (v :: args) d t b c a hd, splitName_plain _ h.2.2.1]

theorem flagParse_joined (formal : List (Bytes × FlagKind)) {w name : Bytes} (h : FlagWord w name) (v : Bytes) (args : List Bytes) :
    flagParse formal ((w ++ [61] ++ v) :: args) = match formal.lookup name with
      | none => if name = asc "help" ∨ name = asc "h" then .help else .bad
      | some k => match k.set v with
        | none => .bad
        | some x => (flagParse formal args).cons name x := by
  obtain ⟨a, b, c⟩ := flagName_word h ([61] ++ v)
  rw [← List.append_assoc] at a b c
  obtain ⟨d, t, rfl, hd⟩ := word_head h
  have e : d :: t ++ ([61] ++ v) = d :: (t ++ [61] ++ v) := by simp
  rw [e] at a
  have e' : d :: (t ++ [61] ++ v) = d :: t ++ [61] ++ v := by simp
  rw [flagParse_word formal _ args d _ b c a hd, e', splitName_joined _ v h.2.2.1 (by simp)]

/-- every text before the first '=' -/
theorem split_at_eq (s : Bytes) : (61 ∉ s) ∨ ∃ a b, s = a ++ [61] ++ b ∧ 61 ∉ a := by
  induction s with
  | nil => exact .inl (by simp)
  | cons c s ih =>
    by_cases hc : c = 61
    · exact .inr ⟨[], s, by simp [hc], by simp⟩
    · rcases ih with h | ⟨a, b, rfl, h⟩
      · exact .inl (by simp [Ne.symm hc, h])
      · exact .inr ⟨c :: a, b, by simp, by simp [Ne.symm hc, h]⟩

/-- the first word of a command line: no flag, the dashes, no name, a flag alone, or a flag with its value -/
theorem word_kinds (s : Bytes) : (s.length < 2 ∨ s.head? ≠ some 45) ∨ s = [45, 45] ∨
    (¬ (s.length < 2 ∨ s.head? ≠ some 45) ∧ s ≠ [45, 45] ∧ ∃ c t, flagName s = c :: t ∧ (c = 45 ∨ c = 61)) ∨
    (∃ name, FlagWord s name) ∨ ∃ w name v, FlagWord w name ∧ s = w ++ [61] ++ v := by
  by_cases h1 : s.length < 2 ∨ s.head? ≠ some 45
  · exact .inl h1
  by_cases h2 : s = [45, 45]
  · exact .inr (.inl h2)
  obtain ⟨name, hs, hf, hn, h45⟩ := word_cases s h1 h2
  match name with
  | [] => exact absurd rfl hn
  | c :: t =>
    by_cases hc : c = 45 ∨ c = 61
    · exact .inr (.inr (.inl ⟨h1, h2, c, t, hf, hc⟩))
    rw [not_or] at hc
    rcases split_at_eq (c :: t) with h | ⟨a, b, e, h⟩
    · exact .inr (.inr (.inr (.inl ⟨c :: t, hs, hn, h, by simpa using hc.1⟩)))
    · refine .inr (.inr (.inr (.inr ?_)))
      match a with
      | [] => exact absurd (List.cons.inj e).1 hc.2
      | c' :: a =>
        have ec : c = c' := (List.cons.inj e).1
        have hw : ∀ w, w = 45 :: (c' :: a) ∨ w = 45 :: 45 :: (c' :: a) → FlagWord w (c' :: a) :=
          fun w hw => ⟨hw, by simp, h, by simpa [← ec] using hc.1⟩
        rcases hs with rfl | rfl
        · exact ⟨45 :: c' :: a, c' :: a, b, hw _ (.inl rfl), by rw [e]; simp⟩
        · exact ⟨45 :: 45 :: c' :: a, c' :: a, b, hw _ (.inr rfl), by rw [e]; simp⟩

theorem flagParse_stop (formal : List (Bytes × FlagKind)) (s : Bytes) (args : List Bytes) (h : s.length < 2 ∨ s.head? ≠ some 45) :
    flagParse formal (s :: args) = .ok [] (s :: args) := by
  rw [flagParse.eq_def]
  exact if_pos h

theorem flagParse_dashes (formal : List (Bytes × FlagKind)) (args : List Bytes) : flagParse formal ([45, 45] :: args) = .ok [] args := by
  rw [flagParse.eq_def]
  rfl

theorem flagParse_noName (formal : List (Bytes × FlagKind)) (s : Bytes) (args : List Bytes) (h1 : ¬ (s.length < 2 ∨ s.head? ≠ some 45)) (h2 : s ≠ [45, 45])
    (c : UInt8) (t : Bytes) (h3 : flagName s = c :: t) (hc : c = 45 ∨ c = 61) : flagParse formal (s :: args) = .bad := by
  rw [flagParse.eq_def]
  dsimp only
  rw [if_neg h1, if_neg h2, h3]
  dsimp only
  rw [if_pos hc]

theorem flagParse_alone (formal : List (Bytes × FlagKind)) {w name : Bytes} (h : FlagWord w name) :
    flagParse formal [w] = if formal.lookup name = none ∧ (name = asc "help" ∨ name = asc "h") then .help else .bad := by
  obtain ⟨a, b, c⟩ := flagName_word h []
  rw [List.append_nil] at a b c
  obtain ⟨d, t, rfl, hd⟩ := word_head h
  rw [List.append_nil] at a
  rw [flagParse_word formal w [] d t b c a hd, splitName_plain _ h.2.2.1]
  dsimp only
  cases formal.lookup (d :: t) with
  | none => simp
  | some k => simp

/-- **C111.** A command line is taken exactly when it consists of flags with their values, up to the first other argument, all flags are known and
all values are readable; the values set are those given, in order. -/
theorem flags_taken (formal : List (Bytes × FlagKind)) (args : List Bytes) (sets : List (Bytes × FlagVal)) :
    (∃ rest, flagParse formal args = .ok sets rest) ↔ ∃ l, CommandLine args l ∧ SetsOf formal l sets := by
  constructor
  · rintro ⟨rest, h⟩
    induction hl : args.length using Nat.strong_induction_on generalizing args sets rest with
    | _ L IH =>
      match args with
      | [] =>
        rw [flagParse.eq_def] at h
        cases h
        exact ⟨[], .nil, .nil⟩
      | s :: args =>
        rw [List.length_cons] at hl
        -- the value of the flag and the rest
        have fin : ∀ (k : FlagKind) (name v : Bytes) (r : List Bytes), r.length ≤ args.length → formal.lookup name = some k →
            (match k.set v with | none => FlagsEnd.bad | some x => (flagParse formal r).cons name x) = .ok sets rest →
            ∃ l, CommandLine r l ∧ SetsOf formal ((name, v) :: l) sets := by
          intro k name v r hr hk h
          cases hx : k.set v with
          | none => rw [hx] at h; cases h
          | some x =>
            rw [hx] at h
            dsimp only at h
            cases hp : flagParse formal r with
            | ok l' r' =>
              rw [hp] at h
              cases h
              obtain ⟨l, h1, h2⟩ := IH r.length (by omega) r l' _ hp rfl
              exact ⟨l, h1, .cons ⟨rfl, k, hk, hx⟩ h2⟩
            | help => rw [hp] at h; cases h
            | bad => rw [hp] at h; cases h
        rcases word_kinds s with hs | rfl | ⟨h1, h2, c, t, h3, hc⟩ | ⟨name, hw⟩ | ⟨w, name, v, hw, rfl⟩
        · rw [flagParse_stop formal s args hs] at h
          cases h
          exact ⟨[], .stop hs, .nil⟩
        · rw [flagParse_dashes] at h
          cases h
          exact ⟨[], .dashes, .nil⟩
        · rw [flagParse_noName formal s args h1 h2 c t h3 hc] at h
          cases h
        · cases args with
          | nil =>
            rw [flagParse_alone formal hw] at h
            split at h <;> cases h
          | cons v args =>
            rw [flagParse_apart formal hw] at h
            cases hk : formal.lookup name with
            | none => rw [hk] at h; dsimp only at h; split at h <;> cases h
            | some k =>
              rw [hk] at h
              obtain ⟨l, h1, h2⟩ := fin k name v args (by simp) hk h
              exact ⟨_, .apart hw h1, h2⟩
        · rw [flagParse_joined formal hw] at h
          cases hk : formal.lookup name with
          | none => rw [hk] at h; dsimp only at h; split at h <;> cases h
          | some k =>
            rw [hk] at h
            obtain ⟨l, h1, h2⟩ := fin k name v args (by simp) hk h
            exact ⟨_, .joined hw h1, h2⟩
  · rintro ⟨l, h, hs⟩
    induction h generalizing sets with
    | nil => cases hs; exact ⟨[], by rw [flagParse.eq_def]⟩
    | stop h => cases hs; exact ⟨_, flagParse_stop formal _ _ h⟩
    | dashes => cases hs; exact ⟨_, flagParse_dashes formal _⟩
    | apart hw r ih =>
      cases hs with
      | cons hq ht =>
        obtain ⟨he, k, hk, hx⟩ := hq
        obtain ⟨rest, hr⟩ := ih _ ht
        refine ⟨rest, ?_⟩
        dsimp only at he hk hx
        rw [flagParse_apart formal hw, hk]
        dsimp only
        rw [hx]
        dsimp only
        rw [hr, ← he]
        rfl
    | joined hw r ih =>
      cases hs with
      | cons hq ht =>
        obtain ⟨he, k, hk, hx⟩ := hq
        obtain ⟨rest, hr⟩ := ih _ ht
        refine ⟨rest, ?_⟩
        dsimp only at he hk hx
        rw [flagParse_joined formal hw, hk]
        dsimp only
        rw [hx]
        dsimp only
        rw [hr, ← he]
        rfl

/-- **C111.** The usage with status 0 is printed exactly when, after flags that are all readable, a flag help or h comes that is no flag of the
program. -/
theorem flags_help (formal : List (Bytes × FlagKind)) (args : List Bytes) : flagParse formal args = .help ↔
    ∃ pre l sets w name post, FlagList pre l ∧ SetsOf formal l sets ∧ FlagWord w name ∧ formal.lookup name = none ∧ (name = asc "help" ∨ name = asc "h") ∧
      (args = pre ++ w :: post ∨ ∃ v, args = pre ++ (w ++ [61] ++ v) :: post) := by
  constructor
  · intro h
    induction hl : args.length using Nat.strong_induction_on generalizing args with
    | _ L IH =>
      match args with
      | [] => rw [flagParse.eq_def] at h; cases h
      | s :: args =>
        rw [List.length_cons] at hl
        have fin : ∀ (k : FlagKind) (name v : Bytes) (r : List Bytes), r.length ≤ args.length → formal.lookup name = some k →
            (match k.set v with | none => FlagsEnd.bad | some x => (flagParse formal r).cons name x) = .help →
            flagParse formal r = .help ∧ ∃ x, k.set v = some x := by
          intro k name v r hr hk h
          cases hx : k.set v with
          | none => rw [hx] at h; cases h
          | some x =>
            rw [hx] at h
            dsimp only at h
            cases hp : flagParse formal r with
            | ok l' r' => rw [hp] at h; cases h
            | help => exact ⟨rfl, x, rfl⟩
            | bad => rw [hp] at h; cases h
        rcases word_kinds s with hs | rfl | ⟨h1, h2, c, t, h3, hc⟩ | ⟨name, hw⟩ | ⟨w, name, v, hw, rfl⟩
        · rw [flagParse_stop formal s args hs] at h
          cases h
        · rw [flagParse_dashes] at h
          cases h
        · rw [flagParse_noName formal s args h1 h2 c t h3 hc] at h
          cases h
        · cases args with
          | nil =>
            rw [flagParse_alone formal hw] at h
            split at h
            · rename_i hc
              exact ⟨[], [], [], s, name, [], .nil, .nil, hw, hc.1, hc.2, .inl rfl⟩
            · cases h
          | cons v args =>
            rw [flagParse_apart formal hw] at h
            cases hk : formal.lookup name with
            | none =>
              rw [hk] at h
              dsimp only at h
              split at h
              · rename_i hc
                exact ⟨[], [], [], s, name, v :: args, .nil, .nil, hw, hk, hc, .inl rfl⟩
              · cases h
            | some k =>
              rw [hk] at h
              obtain ⟨h1, x, hx⟩ := fin k name v args (by simp) hk h
              obtain ⟨pre, l, sets, w, name', post, g1, g2, g3, g4, g5, g6⟩ := IH args.length (by simp at hl; omega) args h1 rfl
              refine ⟨s :: v :: pre, (name, v) :: l, (name, x) :: sets, w, name', post, .apart hw g1, .cons ⟨rfl, k, hk, hx⟩ g2, g3, g4, g5, ?_⟩
              rcases g6 with rfl | ⟨v', rfl⟩
              · exact .inl rfl
              · exact .inr ⟨v', rfl⟩
        · rw [flagParse_joined formal hw] at h
          cases hk : formal.lookup name with
          | none =>
            rw [hk] at h
            dsimp only at h
            split at h
            · rename_i hc
              exact ⟨[], [], [], w, name, args, .nil, .nil, hw, hk, hc, .inr ⟨v, rfl⟩⟩
            · cases h
          | some k =>
            rw [hk] at h
            obtain ⟨h1, x, hx⟩ := fin k name v args (by simp) hk h
            obtain ⟨pre, l, sets, w', name', post, g1, g2, g3, g4, g5, g6⟩ := IH args.length (by omega) args h1 rfl
            refine ⟨(w ++ [61] ++ v) :: pre, (name, v) :: l, (name, x) :: sets, w', name', post, .joined hw g1, .cons ⟨rfl, k, hk, hx⟩ g2, g3, g4, g5, ?_⟩
            rcases g6 with rfl | ⟨v', rfl⟩
            · exact .inl rfl
            · exact .inr ⟨v', rfl⟩
  · rintro ⟨pre, l, sets, w, name, post, g1, g2, g3, g4, g5, g6⟩
    induction g1 generalizing args sets with
    | nil =>
      rcases g6 with rfl | ⟨v, rfl⟩
      · match post with
        | [] =>
          rw [List.nil_append, flagParse_alone formal g3, if_pos ⟨g4, g5⟩]
        | v :: post =>
          rw [List.nil_append, flagParse_apart formal g3, g4]
          exact if_pos g5
      · rw [List.nil_append, flagParse_joined formal g3, g4]
        exact if_pos g5
    | apart hw r ih =>
      rename_i w' name' v args' l'
      cases g2 with
      | cons hq ht =>
        obtain ⟨he, k, hk, hx⟩ := hq
        dsimp only at he hk hx
        have := ih (args' ++ (args.drop (args'.length + 2))) _ ht (by
          rcases g6 with rfl | ⟨v', rfl⟩
          · exact .inl (by simp)
          · exact .inr ⟨v', by simp⟩)
        have e : args = w' :: v :: (args' ++ (args.drop (args'.length + 2))) := by
          rcases g6 with rfl | ⟨v', rfl⟩ <;> simp
        rw [e, flagParse_apart formal hw, hk]
        dsimp only
        rw [hx, this]
        rfl
    | joined hw r ih =>
      rename_i w' name' v args' l'
      cases g2 with
      | cons hq ht =>
        obtain ⟨he, k, hk, hx⟩ := hq
        dsimp only at he hk hx
        have := ih (args' ++ (args.drop (args'.length + 1))) _ ht (by
          rcases g6 with rfl | ⟨v', rfl⟩
          · exact .inl (by simp)
          · exact .inr ⟨v', by simp⟩)
        have e : args = (w' ++ [61] ++ v) :: (args' ++ (args.drop (args'.length + 1))) := by
          rcases g6 with rfl | ⟨v', rfl⟩ <;> simp
        rw [e, flagParse_joined formal hw, hk]
        dsimp only
        rw [hx, this]
        rfl

/-! ### The last value counts -/

theorem lookup_append {α : Type} (a b : List (Bytes × α)) (n : Bytes) : (a ++ b).lookup n = (a.lookup n).or (b.lookup n) := by
  induction a with
  | nil => simp
  | cons p a ih =>
    obtain ⟨k, v⟩ := p
    rw [List.cons_append, List.lookup_cons, List.lookup_cons]
    cases (n == k) <;> simp [ih]

theorem lookup_none {α : Type} (a : List (Bytes × α)) (n : Bytes) (h : NoValue a n) : a.lookup n = none := by
  induction a with
  | nil => rfl
  | cons p a ih =>
    have h1 : p.1 ≠ n := h p (by simp)
    rw [show p = (p.1, p.2) from rfl, List.lookup_cons, beq_false_of_ne (Ne.symm h1)]
    exact ih fun q hq => h q (by simp [hq])

theorem lastSet_of {sets : List (Bytes × FlagVal)} {n : Bytes} {x : FlagVal} (h : LastValue sets n x) : lastSet sets n = some x := by
  obtain ⟨a, b, rfl, hb⟩ := h
  unfold lastSet
  rw [List.reverse_append, List.reverse_cons, lookup_append, lookup_append, lookup_none _ _ (fun p hp => hb p (by simpa using hp))]
  simp

theorem lastSet_none {sets : List (Bytes × FlagVal)} {n : Bytes} (h : NoValue sets n) : lastSet sets n = none := by
  unfold lastSet
  exact lookup_none _ _ fun p hp => h p (by simpa using hp)

theorem forall₂_split {α β : Type} {R : α → β → Prop} (a b : List α) (c : List β) (h : List.Forall₂ R (a ++ b) c) :
    ∃ a' b', List.Forall₂ R b b' ∧ c = a' ++ b' := by
  induction a generalizing c with
  | nil => exact ⟨[], c, h, rfl⟩
  | cons x a ih =>
    cases h with
    | cons _ ht =>
      obtain ⟨a', b', h2, rfl⟩ := ih _ ht
      exact ⟨_ :: a', b', h2, rfl⟩

/-- the value of the text given last -/
theorem SetsOf.last {formal : List (Bytes × FlagKind)} {l : List (Bytes × Bytes)} {sets : List (Bytes × FlagVal)} (h : SetsOf formal l sets) {n s : Bytes}
    (hl : LastValue l n s) : ∃ k x, formal.lookup n = some k ∧ k.set s = some x ∧ LastValue sets n x := by
  obtain ⟨a, b, rfl, hb⟩ := hl
  obtain ⟨a', r, h2, rfl⟩ := forall₂_split a _ _ h
  cases h2 with
  | cons hq ht =>
    rename_i q b'
    obtain ⟨he, k, hk, hx⟩ := hq
    dsimp only at he hk hx
    refine ⟨k, q.2, hk, hx, a', b', by rw [← he], ?_⟩
    intro p hp
    have : ∀ {b : List (Bytes × Bytes)} {b' : List (Bytes × FlagVal)}, SetsOf formal b b' → (∀ p ∈ b, p.1 ≠ n) → ∀ p ∈ b', p.1 ≠ n := by
      intro b b' h
      induction h with
      | nil => simp
      | cons hq _ ih =>
        intro hb p hp
        rw [List.forall_mem_cons] at hb
        rcases List.mem_cons.mp hp with rfl | hp
        · rw [hq.1]; exact hb.1
        · exact ih hb.2 p hp
    exact this ht hb p hp

theorem SetsOf.none {formal : List (Bytes × FlagKind)} {l : List (Bytes × Bytes)} {sets : List (Bytes × FlagVal)} (h : SetsOf formal l sets) {n : Bytes}
    (hl : NoValue l n) : NoValue sets n := by
  induction h with
  | nil => intro p hp; cases hp
  | cons hq _ ih =>
    intro p hp
    have h0 := hl _ (List.mem_cons_self ..)
    rcases List.mem_cons.mp hp with rfl | hp
    · rw [hq.1]; exact h0
    · exact ih (fun q hq => hl q (by simp [hq])) p hp

end Egts
