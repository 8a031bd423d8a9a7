import Verif.Spec.Yaml
import Mathlib.Data.List.Basic
set_option autoImplicit false
/- An executable reader of the files of Spec/Yaml, and the proof that it reads exactly these files, as they are meant. It shows that what a
file means is unique, so that `Yaml.Conforms` can be met; it is not a model of gopkg.in/yaml.v2. -/
namespace Egts.Yaml

def sp (b : UInt8) : Bool := b == 32

def commentOk : Bytes → Bool
  | [] => true
  | [a] => a == 9 || (32 ≤ a && a ≤ 126)
  | a :: b :: c => if a == 9 || (32 ≤ a && a ≤ 126) then commentOk (b :: c)
    else if 0xD0 ≤ a && a ≤ 0xD3 && 0x80 ≤ b && b ≤ 0xBF then commentOk c else false

theorem commentOk_iff (c : Bytes) : commentOk c = true ↔ Comment c := by
  constructor
  · intro h
    induction c using commentOk.induct with
    | case1 => exact .nil
    | case2 a =>
      simp [commentOk] at h
      exact .ascii _ _ h .nil
    | case3 a b c h1 ih =>
      rw [commentOk, if_pos h1] at h
      exact .ascii _ _ (by simpa using h1) (ih h)
    | case4 a b c h1 h2 ih =>
      rw [commentOk, if_neg h1, if_pos h2] at h
      simp at h2
      exact .cyrillic _ _ _ ⟨h2.1.1.1, h2.1.1.2⟩ ⟨h2.1.2, h2.2⟩ (ih h)
    | case5 a b c h1 h2 =>
      rw [commentOk, if_neg h1, if_neg h2] at h
      cases h
  · intro h
    induction h with
    | nil => rfl
    | ascii b c hb hc ih =>
      cases c with
      | nil => simpa [commentOk] using hb
      | cons x c => rw [commentOk, if_pos (by simpa using hb)]; exact ih
    | cyrillic a b c ha hb hc ih =>
      have h1 : ¬ ((a == 9 || (32 ≤ a && a ≤ 126)) = true) := by
        simp only [Bool.or_eq_true, Bool.and_eq_true, beq_iff_eq, decide_eq_true_eq, not_or, not_and]
        have h1 := UInt8.le_iff_toNat_le.mp ha.1
        simp at h1
        refine ⟨?_, fun _ h => ?_⟩
        · rintro rfl; simp at h1
        · have := UInt8.le_iff_toNat_le.mp h; simp at this; omega
      rw [commentOk, if_neg h1, if_pos (by simp [ha, hb])]
      exact ih

theorem mem_takeWhile {α : Type} {p : α → Bool} {x : α} {l : List α} (h : x ∈ l.takeWhile p) : p x = true := by
  induction l with
  | nil => cases h
  | cons a l ih =>
    rw [List.takeWhile_cons] at h
    split at h
    · rcases List.mem_cons.mp h with rfl | h
      · assumption
      · exact ih h
    · cases h

theorem takeWhile_split {α : Type} (p : α → Bool) (a b : List α) (ha : ∀ x ∈ a, p x = true) (hb : ∀ x ∈ b.head?, p x = false) :
    (a ++ b).takeWhile p = a ∧ (a ++ b).dropWhile p = b := by
  induction a with
  | nil =>
    cases b with
    | nil => simp
    | cons x b => have := hb x (by simp); simp [this]
  | cons x a ih =>
    have hx := ha x (by simp)
    obtain ⟨h1, h2⟩ := ih fun y hy => ha y (by simp [hy])
    simp [hx, h1, h2]

theorem sp_replicate (n : Nat) (b : Bytes) (hb : ∀ x ∈ b.head?, sp x = false) :
    (List.replicate n 32 ++ b).takeWhile sp = List.replicate n 32 ∧ (List.replicate n 32 ++ b).dropWhile sp = b :=
  takeWhile_split sp _ b (by intro x hx; rw [List.eq_of_mem_replicate hx]; rfl) hb

theorem sp_takeWhile (s : Bytes) : s.takeWhile sp = List.replicate (s.takeWhile sp).length 32 := by
  rw [List.eq_replicate_iff]
  refine ⟨rfl, fun b hb => ?_⟩
  have := mem_takeWhile hb
  simpa [sp] using this

theorem sp_cut (s : Bytes) : s = List.replicate (s.takeWhile sp).length 32 ++ s.dropWhile sp := by
  conv_lhs => rw [← List.takeWhile_append_dropWhile (p := sp) (l := s)]
  rw [← sp_takeWhile]

theorem sp_head (s : Bytes) : ∀ x ∈ (s.dropWhile sp).head?, sp x = false := by
  intro x hx
  have := List.head?_dropWhile_not sp s
  rw [Option.mem_def] at hx
  rw [hx] at this
  simpa using this

def restOk (s : Bytes) : Bool :=
  match s.dropWhile sp with
  | [] => true
  | b :: c => b == 35 && s.head? == some 32 && commentOk c

theorem restOk_iff (s : Bytes) : restOk s = true ↔ Rest s := by
  constructor
  · intro h
    unfold restOk at h
    have hc := sp_cut s
    generalize s.dropWhile sp = r at h hc
    generalize hn : (s.takeWhile sp).length = n at hc
    cases r with
    | nil => rw [hc, List.append_nil]; exact .blank _
    | cons b c =>
      simp only [Bool.and_eq_true, beq_iff_eq] at h
      obtain ⟨⟨rfl, h2⟩, h3⟩ := h
      cases n with
      | zero => rw [hc] at h2; simp at h2
      | succ n => rw [hc]; exact .comment _ _ ((commentOk_iff c).mp h3)
  · intro h
    cases h with
    | blank n =>
      have := (sp_replicate n [] (by simp)).2
      rw [List.append_nil] at this
      simp [restOk, this]
    | comment n c hc =>
      have := (sp_replicate (n + 1) (35 :: c) (by simp [sp])).2
      unfold restOk
      rw [this]
      simp [(commentOk_iff c).mpr hc, List.replicate_succ]

def dqByte (b : UInt8) : Bool := 32 ≤ b && b ≤ 126 && b != 34 && b != 92
def sqByte (b : UInt8) : Bool := 32 ≤ b && b ≤ 126 && b != 39

def plainOk (v : Bytes) : Bool :=
  (match v with
    | [] => false
    | a :: _ => letterOrDigit a) && v.all plainByte && v.getLast? != some 58 && !nulls.contains v

theorem plainOk_iff (v : Bytes) : plainOk v = true ↔ Plain v := by
  unfold plainOk Plain
  cases v with
  | nil => simp
  | cons a r => simp [and_assoc]

def keyOk (v : Bytes) : Bool :=
  (match v with
    | [] => false
    | a :: _ => letterOrDigit a) && v.all keyByte && !nulls.contains v

theorem keyOk_iff (v : Bytes) : keyOk v = true ↔ Key v := by
  unfold keyOk Key
  cases v with
  | nil => simp
  | cons a r => simp [and_assoc]

/-- a scalar at the beginning of `s`: text, whether it is plain, what follows -/
def scalarOf (s : Bytes) : Option (Bytes × Bool × Bytes) :=
  match s with
  | [] => none
  | a :: r =>
    if a = 34 then
      match r.dropWhile dqByte with
      | 34 :: t => some (r.takeWhile dqByte, false, t)
      | _ => none
    else if a = 39 then
      match r.dropWhile sqByte with
      | 39 :: t => some (r.takeWhile sqByte, false, t)
      | _ => none
    else if plainOk (s.takeWhile plainByte) then some (s.takeWhile plainByte, true, s.dropWhile plainByte)
    else none

theorem scalarOf_sound (s v t : Bytes) (p : Bool) (h : scalarOf s = some (v, p, t)) : ∃ w, s = w ++ t ∧ Scalar w v p := by
  unfold scalarOf at h
  cases s with
  | nil => cases h
  | cons a r =>
    simp only at h
    split at h
    · rename_i ha
      subst ha
      have hc := List.takeWhile_append_dropWhile (p := dqByte) (l := r)
      split at h
      · rename_i t' ht
        cases h
        refine ⟨34 :: (r.takeWhile dqByte ++ [34]), ?_, .quoted _ ?_⟩
        · conv_lhs => rw [← hc, ht]
          simp
        · intro b hb
          have := mem_takeWhile hb
          simpa [dqByte, and_assoc] using this
      · cases h
    · split at h
      · rename_i ha
        subst ha
        have hc := List.takeWhile_append_dropWhile (p := sqByte) (l := r)
        split at h
        · rename_i t' ht
          cases h
          refine ⟨39 :: (r.takeWhile sqByte ++ [39]), ?_, .apostrophes _ ?_⟩
          · conv_lhs => rw [← hc, ht]
            simp
          · intro b hb
            have := mem_takeWhile hb
            simpa [sqByte, and_assoc] using this
        · cases h
      · split at h
        · rename_i hp
          cases h
          exact ⟨_, (List.takeWhile_append_dropWhile).symm, .plain _ ((plainOk_iff _).mp hp)⟩
        · cases h

theorem rest_head {t : Bytes} (h : Rest t) : t.head? = none ∨ t.head? = some 32 := by
  cases h with
  | blank n => cases n <;> simp [List.replicate_succ]
  | comment n c _ => simp [List.replicate_succ]

theorem letter_plain (a : UInt8) (h : letterOrDigit a = true) : a ≠ 34 ∧ a ≠ 39 ∧ a ≠ 32 ∧ a ≠ 35 := by
  refine ⟨?_, ?_, ?_, ?_⟩ <;> (rintro rfl; revert h; decide)

theorem scalarOf_complete (w v t : Bytes) (p : Bool) (h : Scalar w v p) (ht : Rest t) : scalarOf (w ++ t) = some (v, p, t) := by
  cases h with
  | quoted v hv =>
    obtain ⟨h1, h2⟩ := takeWhile_split dqByte v (34 :: t) (by intro x hx; simpa [dqByte, and_assoc] using hv x hx) (by simp [dqByte])
    have : (34 :: (v ++ [34])) ++ t = 34 :: (v ++ 34 :: t) := by simp
    rw [this]
    simp only [scalarOf, if_pos, h1, h2]
  | apostrophes v hv =>
    obtain ⟨h1, h2⟩ := takeWhile_split sqByte v (39 :: t) (by intro x hx; simpa [sqByte, and_assoc] using hv x hx) (by simp [sqByte])
    have : (39 :: (v ++ [39])) ++ t = 39 :: (v ++ 39 :: t) := by simp
    rw [this]
    have h3 : ¬ ((39 : UInt8) = 34) := by decide
    simp only [scalarOf, if_pos, h1, h2, if_neg h3]
  | plain v hv =>
    obtain ⟨h1, h2⟩ := takeWhile_split plainByte w t (by intro x hx; exact List.all_eq_true.mp hv.2.1 x hx) (by
      intro x hx
      rcases rest_head ht with h | h <;> rw [h] at hx
      · cases hx
      · cases hx; decide)
    obtain ⟨a, r, hw, ha⟩ := hv.1
    obtain ⟨n1, n2, -, -⟩ := letter_plain a ha
    have hp := (plainOk_iff w).mpr hv
    rw [← h1] at hp
    unfold scalarOf
    subst hw
    simp only [List.cons_append] at h1 h2 hp ⊢
    rw [if_neg n1, if_neg n2, if_pos hp, h1, h2]

/-- `none`: not a line of these files; `some none`: an empty line -/
def lineOf (s : Bytes) : Option (Option Item) :=
  match s.dropWhile sp with
  | [] => some none
  | a :: r =>
    if a = 35 then if commentOk r then some none else none
    else if keyOk ((a :: r).takeWhile keyByte) then
      match (a :: r).dropWhile keyByte with
      | 58 :: q =>
        if restOk q then some (some ((s.takeWhile sp).length, (a :: r).takeWhile keyByte, none))
        else if q.head? = some 32 then
          match scalarOf (q.dropWhile sp) with
          | some (v, p, t) => if restOk t then some (some ((s.takeWhile sp).length, (a :: r).takeWhile keyByte, some (v, p))) else none
          | none => none
        else none
      | _ => none
    else none

theorem lineOf_empty (s : Bytes) : lineOf s = some none ↔ Empty s := by
  constructor
  · intro h
    unfold lineOf at h
    have hc := sp_cut s
    generalize (s.takeWhile sp).length = n at h hc
    generalize s.dropWhile sp = r at h hc
    cases r with
    | nil => rw [hc, List.append_nil]; exact .blank _
    | cons a r =>
      simp only at h
      split at h
      · rename_i ha
        subst ha
        split at h
        · rename_i hr
          rw [hc]
          exact .comment _ _ ((commentOk_iff r).mp hr)
        · cases h
      · repeat' split at h
        all_goals cases h
  · intro h
    cases h with
    | blank n =>
      have := (sp_replicate n [] (by simp)).2
      rw [List.append_nil] at this
      simp [lineOf, this]
    | comment n c hc =>
      have := (sp_replicate n (35 :: c) (by simp [sp])).2
      simp [lineOf, this, (commentOk_iff c).mpr hc]

theorem lineOf_line (s : Bytes) (i : Item) : lineOf s = some (some i) ↔ Line s i := by
  constructor
  · intro h
    unfold lineOf at h
    have hc := sp_cut s
    generalize (s.takeWhile sp).length = n at h hc
    generalize s.dropWhile sp = r at h hc
    cases r with
    | nil => cases h
    | cons a r =>
      simp only at h
      split at h
      · split at h <;> cases h
      · have hk := List.takeWhile_append_dropWhile (p := keyByte) (l := a :: r)
        split at h
        · rename_i hkey
          split at h
          · rename_i q hq
            rw [hq] at hk
            split at h
            · rename_i hr
              cases h
              rw [hc, ← hk, ← List.append_assoc]
              have := Line.section n _ q ((keyOk_iff _).mp hkey) ((restOk_iff q).mp hr)
              rw [hk]
              exact this
            · split at h
              · rename_i hq32
                split at h
                · rename_i v p t hs
                  split at h
                  · rename_i ht
                    cases h
                    obtain ⟨w, hw, hsc⟩ := scalarOf_sound _ _ _ _ hs
                    have hcq := sp_cut q
                    rw [hw] at hcq
                    generalize hm : (q.takeWhile sp).length = m at hcq
                    cases m with
                    | zero =>
                      have hz : q.takeWhile sp = [] := List.eq_nil_of_length_eq_zero hm
                      cases q with
                      | nil => simp at hq32
                      | cons x q =>
                        simp at hq32
                        subst hq32
                        simp [sp] at hz
                    | succ m =>
                      have := Line.value n m _ w v p t ((keyOk_iff _).mp hkey) hsc ((restOk_iff t).mp ht)
                      rw [hc]
                      rw [← List.append_assoc] at hcq
                      rw [← hcq] at this
                      rw [← hk, ← List.append_assoc, hk]
                      exact this
                  · cases h
                · cases h
              · cases h
          · cases h
        · cases h
  · intro h
    have key : ∀ (n : Nat) (k q : Bytes), Key k → lineOf (List.replicate n 32 ++ k ++ 58 :: q) =
        if restOk q then some (some (n, k, none))
        else if q.head? = some 32 then
          match scalarOf (q.dropWhile sp) with
          | some (v, p, t) => if restOk t then some (some (n, k, some (v, p))) else none
          | none => none
        else none := by
      intro n k q hk
      obtain ⟨a, r, hkr, ha⟩ := hk.1
      obtain ⟨-, -, n1, n2⟩ := letter_plain a ha
      obtain ⟨h1, h2⟩ := sp_replicate n (k ++ 58 :: q) (by rw [hkr]; simp [sp, n1])
      obtain ⟨h3, h4⟩ := takeWhile_split keyByte k (58 :: q) (by intro x hx; exact List.all_eq_true.mp hk.2.1 x hx) (by simp; decide)
      have hko := (keyOk_iff k).mpr hk
      unfold lineOf
      rw [List.append_assoc, h1, h2]
      subst hkr
      simp only [List.cons_append, List.length_replicate] at h3 h4 ⊢
      rw [if_neg n2, h3, h4, if_pos hko]
      rfl
    cases h with
    | «section» n k r hk hr => rw [key n k r hk, if_pos ((restOk_iff r).mpr hr)]
    | value n m k w v p r hk hw hr =>
      rw [key n k _ hk]
      have hwh : ∀ x ∈ (w ++ r).head?, sp x = false ∧ x ≠ 35 ∧ w ++ r ≠ [] := by
        intro x hx
        cases hw with
        | quoted v hv => simp at hx; subst hx; simp [sp]
        | apostrophes v hv => simp at hx; subst hx; simp [sp]
        | plain v hv =>
          obtain ⟨a, t, rfl, ha⟩ := hv.1
          obtain ⟨-, -, n1, n2⟩ := letter_plain a ha
          simp at hx
          subst hx
          simp [sp, n1, n2]
      have hne : w ++ r ≠ [] := by
        cases hw with
        | quoted v hv => simp
        | apostrophes v hv => simp
        | plain v hv => obtain ⟨a, t, rfl, ha⟩ := hv.1; simp
      obtain ⟨-, h2⟩ := sp_replicate (m + 1) (w ++ r) (fun x hx => (hwh x hx).1)
      rw [List.append_assoc]
      have hno : restOk (List.replicate (m + 1) 32 ++ (w ++ r)) = false := by
        unfold restOk
        rw [h2]
        cases hwr : w ++ r with
        | nil => exact absurd hwr hne
        | cons b c =>
          have := (hwh b (by rw [hwr]; rfl)).2.1
          simp [this]
      rw [if_neg (by simp [hno]), if_pos (by simp [List.replicate_succ]), h2, scalarOf_complete w v r p hw hr]
      simp only [(restOk_iff r).mpr hr, if_true]

/-! ### lines -/

def splitGo (acc : Bytes) : Bytes → Option (List Bytes)
  | [] => some (if acc = [] then [] else [acc.reverse])
  | b :: t =>
    if b = 10 then (splitGo [] t).map (acc.reverse :: ·)
    else if b = 13 then
      match t with
      | c :: t => if c = 10 then (splitGo [] t).map (acc.reverse :: ·) else none
      | [] => none
    else splitGo (b :: acc) t

theorem splitGo_nil (acc : Bytes) : splitGo acc [] = some (if acc = [] then [] else [acc.reverse]) := by rw [splitGo.eq_def]

theorem splitGo_cons (acc : Bytes) (b : UInt8) (t : Bytes) : splitGo acc (b :: t) =
    if b = 10 then (splitGo [] t).map (acc.reverse :: ·)
    else if b = 13 then
      match t with
      | c :: t => if c = 10 then (splitGo [] t).map (acc.reverse :: ·) else none
      | [] => none
    else splitGo (b :: acc) t := by rw [splitGo.eq_def]; rfl

theorem splitGo_plain (l r acc : Bytes) (h1 : 10 ∉ l) (h2 : 13 ∉ l) : splitGo acc (l ++ r) = splitGo (l.reverse ++ acc) r := by
  induction l generalizing acc with
  | nil => rfl
  | cons b l ih =>
    simp only [List.mem_cons, not_or] at h1 h2
    rw [List.cons_append, splitGo_cons, if_neg (fun h => h1.1 h.symm), if_neg (fun h => h2.1 h.symm), ih _ h1.2 h2.2]
    simp

theorem split_complete {t : Bytes} {ls : List Bytes} (h : Lines t ls) : splitGo [] t = some ls := by
  induction h with
  | nil => rfl
  | last l hne h1 h2 =>
    have := splitGo_plain l [] [] h1 h2
    rw [List.append_nil] at this
    rw [this, splitGo_nil]
    simp [hne]
  | lf l t ls h1 h2 _ ih =>
    rw [splitGo_plain l _ [] h1 h2, splitGo_cons, if_pos rfl, ih]
    simp
  | crlf l t ls h1 h2 _ ih =>
    rw [splitGo_plain l _ [] h1 h2, splitGo_cons, if_neg (by decide), if_pos rfl]
    simp only [if_true, ih]
    simp

theorem split_sound : ∀ (n : Nat) (acc t : Bytes) (ls : List Bytes), t.length ≤ n → 10 ∉ acc → 13 ∉ acc → splitGo acc t = some ls →
    Lines (acc.reverse ++ t) ls := by
  intro n
  induction n with
  | zero =>
    intro acc t ls hn h1 h2 h
    have : t = [] := List.eq_nil_of_length_eq_zero (by omega)
    subst this
    rw [splitGo_nil] at h
    injection h with h
    subst h
    rw [List.append_nil]
    split
    · rename_i ha; subst ha; exact .nil
    · rename_i ha; exact .last _ (by simpa using ha) (by simpa using h1) (by simpa using h2)
  | succ n ih =>
    intro acc t ls hn h1 h2 h
    cases t with
    | nil =>
      rw [splitGo_nil] at h
      injection h with h
      subst h
      rw [List.append_nil]
      split
      · rename_i ha; subst ha; exact .nil
      · rename_i ha; exact .last _ (by simpa using ha) (by simpa using h1) (by simpa using h2)
    | cons b t =>
      rw [List.length_cons] at hn
      rw [splitGo_cons] at h
      split at h
      · rename_i hb
        subst hb
        cases hs : splitGo [] t with
        | none => rw [hs] at h; cases h
        | some l =>
          rw [hs] at h
          cases h
          exact .lf _ _ _ (by simpa using h1) (by simpa using h2) (ih [] t l (by omega) (by simp) (by simp) hs)
      · split at h
        · rename_i hb
          subst hb
          cases t with
          | nil => cases h
          | cons c t =>
            simp only at h
            split at h
            · rename_i hc
              subst hc
              cases hs : splitGo [] t with
              | none => rw [hs] at h; cases h
              | some l =>
                rw [hs] at h
                cases h
                exact .crlf _ _ _ (by simpa using h1) (by simpa using h2) (ih [] t l (by simp at hn; omega) (by simp) (by simp) hs)
            · cases h
        · rename_i n1 n2
          have := ih (b :: acc) t ls (by omega) (by simp [h1, Ne.symm n1]) (by simp [h2, Ne.symm n2]) h
          simpa using this

theorem split_iff (t : Bytes) (ls : List Bytes) : splitGo [] t = some ls ↔ Lines t ls :=
  ⟨fun h => by simpa using split_sound _ [] t ls (Nat.le_refl _) (by simp) (by simp) h, split_complete⟩

def itemsOf : List Bytes → Option (List Item)
  | [] => some []
  | l :: ls =>
    match lineOf l with
    | none => none
    | some none => itemsOf ls
    | some (some i) => (itemsOf ls).map (i :: ·)

theorem itemsOf_iff (ls : List Bytes) (is : List Item) : itemsOf ls = some is ↔ Items ls is := by
  constructor
  · intro h
    induction ls generalizing is with
    | nil => cases h; exact .nil
    | cons l ls ih =>
      rw [itemsOf] at h
      cases hl : lineOf l with
      | none => rw [hl] at h; cases h
      | some o =>
        rw [hl] at h
        cases o with
        | none => exact .empty _ _ _ ((lineOf_empty l).mp hl) (ih _ h)
        | some i =>
          simp only at h
          cases hs : itemsOf ls with
          | none => rw [hs] at h; cases h
          | some is' => rw [hs] at h; cases h; exact .line _ _ _ _ ((lineOf_line l i).mp hl) (ih _ hs)
  · intro h
    induction h with
    | nil => rfl
    | empty l ls is he _ ih => rw [itemsOf, (lineOf_empty l).mpr he]; exact ih
    | line l i ls is hl _ ih => rw [itemsOf, (lineOf_line l i).mpr hl]; simp [ih]

/-! ### sections -/

def optionsOf (m : Nat) : List Item → Option Params
  | [] => some []
  | (n, k, some (v, _)) :: is => if n = m then (optionsOf m is).map ((k, v) :: ·) else none
  | (_, _, none) :: _ => none

theorem optionsOf_iff (m : Nat) (is : List Item) (l : Params) : optionsOf m is = some l ↔ Options m is l := by
  constructor
  · intro h
    induction is generalizing l with
    | nil => cases h; exact .nil
    | cons i is ih =>
      obtain ⟨n, k, v⟩ := i
      cases v with
      | none => cases h
      | some v =>
        obtain ⟨v, p⟩ := v
        rw [optionsOf] at h
        split at h
        · rename_i hn
          subst hn
          cases hs : optionsOf n is with
          | none => rw [hs] at h; cases h
          | some l' => rw [hs] at h; cases h; exact .cons _ _ _ _ _ (ih _ hs)
        · cases h
  · intro h
    induction h with
    | nil => rfl
    | cons k v p is l _ ih => simp [optionsOf, ih]

theorem options_indent {m : Nat} {is : List Item} {l : Params} (h : Options m is l) : ∀ i ∈ is, i.1 = m := by
  induction h with
  | nil => simp
  | cons k v p is l _ ih => intro i hi; rcases List.mem_cons.mp hi with rfl | hi <;> [rfl; exact ih i hi]

theorem options_ne {m : Nat} {is : List Item} {l : Params} (h : Options m is l) : is = [] ↔ l = [] := by
  cases h <;> simp

def deeper (n : Nat) (i : Item) : Bool := decide (n < i.1)

def storesOf (n : Nat) (is : List Item) : Option (List (Bytes × Option Params)) :=
  match is with
  | [] => some []
  | (i, k, none) :: is =>
    if i = n then
      match is.takeWhile (deeper n) with
      | [] => none
      | (m, o) :: os =>
        match optionsOf m ((m, o) :: os), storesOf n (is.dropWhile (deeper n)) with
        | some p, some l => if (p.map (·.1)).Nodup then some ((k, some p) :: l) else none
        | _, _ => none
    else none
  | (_, _, some _) :: _ => none
termination_by is.length
decreasing_by
  simp_wf
  exact Nat.lt_succ_of_le (List.Sublist.length_le (List.dropWhile_sublist _))

theorem stores_head {n : Nat} {is : List Item} {l : List (Bytes × Option Params)} (h : Stores n is l) : ∀ x ∈ is.head?, x.1 = n := by
  cases h <;> simp

theorem storesOf_complete {n : Nat} {is : List Item} {l : List (Bytes × Option Params)} (h : Stores n is l) : storesOf n is = some l := by
  induction h with
  | nil => rw [storesOf]
  | cons k m os is p l hm ho hne hnd hs ih =>
    obtain ⟨h1, h2⟩ := takeWhile_split (deeper n) os is (by intro x hx; simp [deeper, options_indent ho x hx, hm])
      (by intro x hx; simp [deeper, stores_head hs x hx])
    rw [storesOf, if_pos rfl, h1, h2, ih]
    cases os with
    | nil => exact absurd ((options_ne ho).mp rfl) hne
    | cons o os =>
      obtain ⟨m', o⟩ := o
      have : m' = m := options_indent ho (m', o) (by simp)
      subst this
      simp only
      rw [(optionsOf_iff m' _ p).mpr ho]
      simp [hnd]

theorem storesOf_sound (n : Nat) : ∀ (j : Nat) (is : List Item) (l : List (Bytes × Option Params)), is.length ≤ j → storesOf n is = some l →
    Stores n is l := by
  intro j
  induction j with
  | zero =>
    intro is l hj h
    have : is = [] := List.eq_nil_of_length_eq_zero (by omega)
    subst this
    rw [storesOf] at h
    cases h
    exact .nil
  | succ j ih =>
    intro is l hj h
    cases is with
    | nil => rw [storesOf] at h; cases h; exact .nil
    | cons i is =>
      obtain ⟨i, k, v⟩ := i
      cases v with
      | some v => rw [storesOf] at h; cases h
      | none =>
        rw [storesOf] at h
        split at h
        · rename_i hi
          subst hi
          have hcut := List.takeWhile_append_dropWhile (p := deeper i) (l := is)
          have hall : ∀ x ∈ is.takeWhile (deeper i), deeper i x = true := fun x hx => mem_takeWhile hx
          split at h
          · cases h
          · rename_i m o os hos
            rw [hos] at hcut hall
            split at h
            · rename_i p l' hp hl
              split at h
              · rename_i hnd
                cases h
                have ho := (optionsOf_iff _ _ _).mp hp
                have hm := hall (m, o) (by simp)
                have hst := ih _ _ (by
                  have : (is.dropWhile (deeper i)).length ≤ is.length := List.Sublist.length_le (List.dropWhile_sublist _)
                  rw [List.length_cons] at hj
                  omega) hl
                rw [← hcut]
                exact .cons k m _ _ p l' (by simpa [deeper] using hm) ho (fun hh => by have := (options_ne ho).mpr hh; cases this) hnd hst
              · cases h
            · cases h
        · cases h

/-- the value of a decimal integer without leading zeros -/
def decimalOf (v : Bytes) : Option Nat :=
  if v ≠ [] ∧ (∀ b ∈ v, 48 ≤ b ∧ b ≤ 57) ∧ (v.head? = some 48 → v = [48]) then some (v.foldl (fun a b => 10 * a + (b.toNat - 48)) 0) else none

theorem decimalOf_iff (v : Bytes) (n : Nat) : decimalOf v = some n ↔ Decimal v n := by
  unfold decimalOf Decimal
  split
  · rename_i h
    simp only [Option.some.injEq]
    exact ⟨fun e => ⟨h.1, h.2.1, h.2.2, e⟩, fun e => e.2.2.2⟩
  · rename_i h
    constructor
    · intro e; cases e
    · intro e; exact absurd ⟨e.1, e.2.1, e.2.2.1⟩ h

def docOf (is : List Item) : Option (List (Bytes × YamlValue)) :=
  match is with
  | [] => some []
  | (i, k, some (v, p)) :: is =>
    if i = 0 ∧ k ≠ asc "storage" then
      if k = asc "conn_ttl" then
        if p then
          match decimalOf v with
          | some n => if n < 9223372036854775808 then (docOf is).map ((k, .num (Int64.ofNat n)) :: ·) else none
          | none => none
        else none
      else (docOf is).map ((k, .str v) :: ·)
    else none
  | (i, k, none) :: is =>
    if i = 0 ∧ k = asc "storage" then
      match storesOf ((is.takeWhile (deeper 0)).head?.elim 1 (·.1)) (is.takeWhile (deeper 0)), docOf (is.dropWhile (deeper 0)) with
      | some l, some d => if (l.map (·.1)).Nodup then some ((k, .sec l) :: d) else none
      | _, _ => none
    else none
termination_by is.length
decreasing_by
  · simp_wf
  · simp_wf
  · simp_wf
    exact Nat.lt_succ_of_le (List.Sublist.length_le (List.dropWhile_sublist _))

theorem doc_head {is : List Item} {d : List (Bytes × YamlValue)} (h : Doc is d) : ∀ x ∈ is.head?, x.1 = 0 := by
  cases h <;> simp

theorem stores_deeper {n : Nat} {is : List Item} {l : List (Bytes × Option Params)} (h : Stores n is l) (hn : 0 < n) : ∀ x ∈ is, deeper 0 x = true := by
  induction h with
  | nil => simp
  | cons k m os is p l hm ho _ _ _ ih =>
    intro x hx
    simp only [List.mem_cons, List.mem_append] at hx
    rcases hx with rfl | hx | hx
    · simpa [deeper] using hn
    · simp [deeper, options_indent ho x hx]; omega
    · exact ih x hx

theorem docOf_complete {is : List Item} {d : List (Bytes × YamlValue)} (h : Doc is d) : docOf is = some d := by
  induction h with
  | nil => rw [docOf]
  | text k v p is d h1 h2 _ ih => rw [docOf, if_pos ⟨rfl, h2⟩, if_neg h1, ih]; rfl
  | ttl v n is d hv hn _ ih =>
    rw [docOf, if_pos ⟨rfl, by decide⟩, if_pos rfl, if_pos rfl, (decimalOf_iff v n).mpr hv]
    simp only [if_pos hn, ih]
    rfl
  | storage n ss is l d hn hs hnd hd ih =>
    obtain ⟨h1, h2⟩ := takeWhile_split (deeper 0) ss is (stores_deeper hs hn) (by intro x hx; simp [deeper, doc_head hd x hx])
    rw [docOf, if_pos ⟨rfl, rfl⟩, h1, h2, ih]
    have : storesOf (ss.head?.elim 1 (·.1)) ss = some l := by
      cases hs with
      | nil => rw [storesOf]
      | cons k m os is p l hm ho hne hnd' hs =>
        exact storesOf_complete (.cons k m os is p l hm ho hne hnd' hs)
    rw [this]
    simp only [if_pos hnd]

theorem docOf_sound : ∀ (j : Nat) (is : List Item) (d : List (Bytes × YamlValue)), is.length ≤ j → docOf is = some d → Doc is d := by
  intro j
  induction j with
  | zero =>
    intro is l hj h
    have : is = [] := List.eq_nil_of_length_eq_zero (by omega)
    subst this
    rw [docOf] at h
    cases h
    exact .nil
  | succ j ih =>
    intro is d hj h
    cases is with
    | nil => rw [docOf] at h; cases h; exact .nil
    | cons i is =>
      obtain ⟨i, k, v⟩ := i
      rw [List.length_cons] at hj
      cases v with
      | some v =>
        obtain ⟨v, p⟩ := v
        rw [docOf] at h
        split at h
        · rename_i hi
          obtain ⟨rfl, hk⟩ := hi
          split at h
          · rename_i hk2
            subst hk2
            split at h
            · rename_i hp
              subst hp
              split at h
              · rename_i n hn
                split at h
                · rename_i hlt
                  cases hs : docOf is with
                  | none => rw [hs] at h; cases h
                  | some d' => rw [hs] at h; cases h; exact .ttl _ _ _ _ ((decimalOf_iff v n).mp hn) hlt (ih _ _ (by omega) hs)
                · cases h
              · cases h
            · cases h
          · rename_i hk2
            cases hs : docOf is with
            | none => rw [hs] at h; cases h
            | some d' => rw [hs] at h; cases h; exact .text _ _ _ _ _ hk2 hk (ih _ _ (by omega) hs)
        · cases h
      | none =>
        rw [docOf] at h
        split at h
        · rename_i hi
          obtain ⟨rfl, rfl⟩ := hi
          have hcut := List.takeWhile_append_dropWhile (p := deeper 0) (l := is)
          have hall : ∀ x ∈ is.takeWhile (deeper 0), deeper 0 x = true := fun x hx => mem_takeWhile hx
          split at h
          · rename_i l d' hl hd
            split at h
            · rename_i hnd
              cases h
              have hs := storesOf_sound _ _ _ _ (Nat.le_refl _) hl
              have hd' := ih _ _ (by
                have : (is.dropWhile (deeper 0)).length ≤ is.length := List.Sublist.length_le (List.dropWhile_sublist _)
                omega) hd
              rw [← hcut]
              conv => arg 1; rw [hcut]
              rw [← hcut]
              refine .storage ((is.takeWhile (deeper 0)).head?.elim 1 (·.1)) _ _ l d' ?_ hs hnd hd'
              cases ht : is.takeWhile (deeper 0) with
              | nil => simp
              | cons x t => have := hall x (by rw [ht]; simp); simpa [deeper] using this
            · cases h
          · cases h
        · cases h

def readFile (text : Bytes) : Option (List (Bytes × YamlValue)) :=
  ((splitGo [] text).bind itemsOf).bind fun is => (docOf is).bind fun d => if (d.map (·.1)).Nodup then some d else none

/-- the reader reads exactly the files of the specification -/
theorem readFile_iff (text : Bytes) (doc : List (Bytes × YamlValue)) : readFile text = some doc ↔ File text doc := by
  unfold readFile File
  constructor
  · intro h
    cases h1 : splitGo [] text with
    | none => rw [h1] at h; cases h
    | some ls =>
      rw [h1] at h
      cases h2 : itemsOf ls with
      | none => simp [h2] at h
      | some is =>
        cases h3 : docOf is with
        | none => simp [h2, h3] at h
        | some d =>
          simp [h2, h3] at h
          obtain ⟨h4, rfl⟩ := h
          exact ⟨ls, is, (split_iff _ _).mp h1, (itemsOf_iff _ _).mp h2, docOf_sound _ _ _ (Nat.le_refl _) h3, h4⟩
  · rintro ⟨ls, is, h1, h2, h3, h4⟩
    rw [(split_iff _ _).mpr h1]
    simp [(itemsOf_iff _ _).mpr h2, docOf_complete h3, h4]

end Egts.Yaml
