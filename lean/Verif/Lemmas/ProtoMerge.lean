import Verif.Lemmas.Protobuf
/- Reading one message after another: the loop over the fields of two messages put together. -/
set_option autoImplicit false
namespace Egts.PB
variable {S : Type}

/-- a reader of fields that looks at the bytes of the field only -/
structure Local (known : Nat → Nat → Bytes → S → Handled S) (I : S → Prop) : Prop where
  keeps : ∀ num wt r s s' r', I s → known num wt r s = .ok s' r' → I s'
  splits : ∀ num wt r s s' r', I s → known num wt r s = .ok s' r' →
    ∃ v, r = v ++ r' ∧ ∀ x, known num wt (v ++ x) s = .ok s' x
  unknown : ∀ num wt r s r2, I s → known num wt r s = .unknown → known num wt r2 s = .unknown

theorem loop_append {known : Nat → Nat → Bytes → S → Handled S} {I : S → Prop} (hl : Local known I) :
    ∀ (f : Nat) (a : Bytes) (s : S) (u : Bytes) (s' : S) (u' : Bytes), I s → loop known f a s u = some (s', u') →
      I s' ∧ ∀ (x : Bytes) (F : Nat), (a ++ x).length ≤ F → ∃ F', x.length ≤ F' ∧ loop known F (a ++ x) s u = loop known F' x s' u' := by
  intro f
  induction f with
  | zero =>
    intro a s u s' u' hI h
    cases a with
    | nil =>
      simp only [loop, Option.some.injEq, Prod.mk.injEq] at h
      obtain ⟨rfl, rfl⟩ := h
      exact ⟨hI, fun x F hF => ⟨F, by simpa using hF, rfl⟩⟩
    | cons c b => simp [loop] at h
  | succ f ih =>
    intro a s u s' u' hI h
    cases a with
    | nil =>
      simp only [loop, Option.some.injEq, Prod.mk.injEq] at h
      obtain ⟨rfl, rfl⟩ := h
      exact ⟨hI, fun x F hF => ⟨F, by simpa using hF, rfl⟩⟩
    | cons c b =>
      simp only [loop] at h
      cases ht : getTag (c :: b) with
      | none => simp [ht] at h
      | some y =>
        obtain ⟨num, wt, r⟩ := y
        simp only [ht] at h
        obtain ⟨t, htb, htl, htr, -, -, -⟩ := getTag_split ht
        have hlen : b.length + 1 = t.length + r.length := by
          have := congrArg List.length htb; simpa using this
        by_cases h4 : wt = 4
        · simp [h4] at h
        · rw [if_neg h4] at h
          have htx : ∀ x, getTag (c :: (b ++ x)) = some (num, wt, r ++ x) := by
            intro x
            have : c :: (b ++ x) = t ++ (r ++ x) := by rw [← List.append_assoc, ← htb]; rfl
            rw [this]; exact htr _
          cases hk : known num wt r s with
          | fail => simp [hk] at h
          | ok s1 r1 =>
            simp only [hk] at h
            obtain ⟨v, hv, hvx⟩ := hl.splits _ _ _ _ _ _ hI hk
            obtain ⟨hI', hx⟩ := ih r1 s1 u s' u' (hl.keeps _ _ _ _ _ _ hI hk) h
            refine ⟨hI', fun x F hF => ?_⟩
            simp only [List.length_append, List.length_cons] at hF
            have hvl : r.length = v.length + r1.length := by rw [hv]; simp
            obtain ⟨F, rfl⟩ : ∃ k, F = k + 1 := ⟨F - 1, by omega⟩
            obtain ⟨F', hF', he⟩ := hx x F (by simp only [List.length_append]; omega)
            refine ⟨F', hF', ?_⟩
            simp only [List.cons_append, loop, htx x, if_neg h4]
            rw [hv, List.append_assoc, hvx]
            exact he
          | unknown =>
            simp only [hk] at h
            cases hs : skip (2 * r.length + 2) num wt r with
            | none => simp [hs] at h
            | some r1 =>
              simp only [hs] at h
              obtain ⟨v, hv, hraw⟩ := (skip_split _).1 num wt r r1 hs
              have htake : r.take (r.length - r1.length) = v := by rw [hv]; simp
              rw [htake] at h
              obtain ⟨hI', hx⟩ := ih r1 s _ s' u' hI h
              refine ⟨hI', fun x F hF => ?_⟩
              simp only [List.length_append, List.length_cons] at hF
              have hvl : r.length = v.length + r1.length := by rw [hv]; simp
              obtain ⟨F, rfl⟩ : ∃ k, F = k + 1 := ⟨F - 1, by omega⟩
              obtain ⟨F', hF', he⟩ := hx x F (by simp only [List.length_append]; omega)
              refine ⟨F', hF', ?_⟩
              simp only [List.cons_append, loop, htx x, if_neg h4, hl.unknown _ _ _ _ (r ++ x) hI hk]
              have hsk : skip (2 * (r ++ x).length + 2) num wt (r ++ x) = some (r1 ++ x) := by
                rw [hv, List.append_assoc]
                exact hraw _ _ (by simp only [List.length_append]; omega)
              simp only [hsk]
              have htake' : (r ++ x).take ((r ++ x).length - (r1 ++ x).length) = v := by
                rw [hv, List.append_assoc]; simp
              rw [htake']
              exact he

/-- the number of iterations allowed does not matter once it is the number of bytes -/
theorem loop_fuel {known : Nat → Nat → Bytes → S → Handled S} {I : S → Prop} (hl : Local known I) :
    ∀ (F F' : Nat) (b : Bytes) (s : S) (u : Bytes), I s → b.length ≤ F → b.length ≤ F' →
      loop known F b s u = loop known F' b s u := by
  intro F
  induction F with
  | zero =>
    intro F' b s u _ h _
    have : b = [] := List.length_eq_zero_iff.1 (by omega)
    subst this
    simp [loop]
  | succ F ih =>
    intro F' b s u hI h h'
    cases b with
    | nil => simp [loop]
    | cons c b =>
      simp only [List.length_cons] at h h'
      obtain ⟨F', rfl⟩ : ∃ k, F' = k + 1 := ⟨F' - 1, by omega⟩
      simp only [loop]
      cases ht : getTag (c :: b) with
      | none => rfl
      | some y =>
        obtain ⟨num, wt, r⟩ := y
        obtain ⟨t, htb, htl, -, -, -, -⟩ := getTag_split ht
        have hlen : b.length + 1 = t.length + r.length := by
          have := congrArg List.length htb; simpa using this
        dsimp only
        split
        · rfl
        · cases hk : known num wt r s with
          | fail => rfl
          | ok s1 r1 =>
            obtain ⟨v, hv, -⟩ := hl.splits _ _ _ _ _ _ hI hk
            have hvl : r.length = v.length + r1.length := by rw [hv]; simp
            exact ih F' r1 s1 u (hl.keeps _ _ _ _ _ _ hI hk) (by omega) (by omega)
          | unknown =>
            dsimp only
            cases hs : skip (2 * r.length + 2) num wt r with
            | none => rfl
            | some r1 =>
              obtain ⟨v, hv, -⟩ := (skip_split _).1 num wt r r1 hs
              have hvl : r.length = v.length + r1.length := by rw [hv]; simp
              exact ih F' r1 s _ hI (by omega) (by omega)

/-- what was there before is merged with what is read -/
theorem loop_sim {known : Nat → Nat → Bytes → S → Handled S} {I : S → Prop}
    (hk : ∀ num wt r s s' r', I s → known num wt r s = .ok s' r' → I s') (g : S → S) (pre : Bytes)
    (hg : ∀ num wt r s, I s → known num wt r (g s) = (known num wt r s).map g) :
    ∀ (F : Nat) (b : Bytes) (s : S) (u : Bytes), I s →
      loop known F b (g s) (pre ++ u) = (loop known F b s u).map fun p => (g p.1, pre ++ p.2) := by
  intro F
  induction F with
  | zero =>
    intro b s u _
    cases b <;> simp [loop]
  | succ F ih =>
    intro b s u hI
    cases b with
    | nil => simp [loop]
    | cons c b =>
      simp only [loop]
      cases getTag (c :: b) with
      | none => rfl
      | some y =>
        obtain ⟨num, wt, r⟩ := y
        dsimp only
        split
        · rfl
        · rw [hg _ _ _ _ hI]
          cases h : known num wt r s with
          | fail => rfl
          | ok s1 r1 => exact ih r1 s1 u (hk _ _ _ _ _ _ hI h)
          | unknown =>
            simp only [Handled.map]
            cases skip (2 * r.length + 2) num wt r with
            | none => rfl
            | some r1 =>
              dsimp only
              rw [List.append_assoc]
              exact ih r1 s _ hI

theorem getVal_split {t : Ty} {b r : Bytes} {x : Val} (h : getVal t b = some (x, r)) :
    ∃ v, b = v ++ r ∧ ∀ y, getVal t (v ++ y) = some (x, y) := by
  have fixed : ∀ {n : UInt32} {r : Bytes}, getFixed32 b = some (n, r) → ∃ v, b = v ++ r ∧ ∀ y, getFixed32 (v ++ y) = some (n, y) := by
    intro n r h
    unfold getFixed32 at h
    split at h
    · injection h with h
      injection h with h1 h2
      subst h1 h2
      exact ⟨[_, _, _, _], rfl, fun y => rfl⟩
    · cases h
  cases t <;> simp only [getVal, Option.map_eq_some_iff, Prod.mk.injEq] at h <;> obtain ⟨⟨n, r'⟩, h, rfl, rfl⟩ := h
  case uint32 | sint32 | bool | enum =>
    obtain ⟨v, hv, -, hx⟩ := getVarint_split h
    exact ⟨v, hv, fun y => by simp only [getVal, hx y, Option.map_some]⟩
  case fixed32 | sfixed32 | float =>
    obtain ⟨v, hv, hx⟩ := fixed h
    exact ⟨v, hv, fun y => by simp only [getVal, hx y, Option.map_some]⟩
  case bytes =>
    obtain ⟨v, hv, -, hx⟩ := getBytes_split h
    exact ⟨v, hv, fun y => by simp only [getVal, hx y, Option.map_some]⟩

theorem setSlot_split (wt : Nat) (b r : Bytes) (k : Field) (v v' : Slot) (h : setSlot wt b k v = .ok v' r) :
    ∃ p, b = p ++ r ∧ ∀ y, setSlot wt (p ++ y) k v = .ok v' y := by
  cases k <;> cases v <;> simp only [setSlot] at h <;> try (cases h; done)
  case one.one t v =>
    by_cases hw : wt = t.wire
    · rw [if_pos hw] at h
      cases hg : getVal t b with
      | none => simp [hg] at h
      | some x =>
        simp only [hg, Handled.ok.injEq] at h
        obtain ⟨rfl, rfl⟩ := h
        obtain ⟨p, hp, hx⟩ := getVal_split hg
        exact ⟨p, hp, fun y => by simp only [setSlot, if_pos hw, hx y]⟩
    · simp [hw] at h
  case enums.enums l =>
    by_cases h0 : wt = 0
    · rw [if_pos h0] at h
      cases hg : getVarint b with
      | none => simp [hg] at h
      | some x =>
        simp only [hg, Handled.ok.injEq] at h
        obtain ⟨rfl, rfl⟩ := h
        obtain ⟨p, hp, -, hx⟩ := getVarint_split hg
        exact ⟨p, hp, fun y => by simp only [setSlot, if_pos h0, hx y]⟩
    · rw [if_neg h0] at h
      by_cases h2 : wt = 2
      · rw [if_pos h2] at h
        cases hg : getBytes b with
        | none => simp [hg] at h
        | some x =>
          simp only [hg] at h
          cases hp : getPacked x.1.length x.1 with
          | none => simp [hp] at h
          | some l' =>
            simp only [hp, Handled.ok.injEq] at h
            obtain ⟨rfl, rfl⟩ := h
            obtain ⟨p, hp', -, hx⟩ := getBytes_split hg
            exact ⟨p, hp', fun y => by simp only [setSlot, if_neg h0, if_pos h2, hx y, hp]⟩
      · simp [h2] at h
  case msgs.msgs sch l =>
    by_cases h2 : wt = 2
    · rw [if_pos h2] at h
      cases hg : getBytes b with
      | none => simp [hg] at h
      | some x =>
        simp only [hg] at h
        cases hp : getSub sch x.1 with
        | none => simp [hp] at h
        | some m =>
          simp only [hp, Handled.ok.injEq] at h
          obtain ⟨rfl, rfl⟩ := h
          obtain ⟨p, hp', -, hx⟩ := getBytes_split hg
          exact ⟨p, hp', fun y => by simp only [setSlot, if_pos h2, hx y, hp]⟩
    · simp [h2] at h

theorem setField_split (num wt : Nat) (b r : Bytes) : ∀ (sch : Schema) (vals vals' : List Slot),
    setField num wt b sch vals = .ok vals' r → ∃ p, b = p ++ r ∧ ∀ y, setField num wt (p ++ y) sch vals = .ok vals' y
  | [], _, vals', h => by simp [setField] at h
  | _ :: _, [], vals', h => by simp [setField] at h
  | (n, k) :: sch, v :: vals, vals', h => by
    rw [setField] at h
    by_cases hn : n = num
    · rw [if_pos hn] at h
      cases hs : setSlot wt b k v with
      | fail => simp [hs, Handled.map] at h
      | unknown => simp [hs, Handled.map] at h
      | ok w r' =>
        simp only [hs, Handled.map, Handled.ok.injEq] at h
        obtain ⟨rfl, rfl⟩ := h
        obtain ⟨p, hp, hx⟩ := setSlot_split _ _ _ _ _ _ hs
        exact ⟨p, hp, fun y => by simp only [setField, if_pos hn, hx y, Handled.map]⟩
    · rw [if_neg hn] at h
      cases hs : setField num wt b sch vals with
      | fail => simp [hs, Handled.map] at h
      | unknown => simp [hs, Handled.map] at h
      | ok w r' =>
        simp only [hs, Handled.map, Handled.ok.injEq] at h
        obtain ⟨rfl, rfl⟩ := h
        obtain ⟨p, hp, hx⟩ := setField_split num wt b r' sch vals w hs
        exact ⟨p, hp, fun y => by simp only [setField, if_neg hn, hx y, Handled.map]⟩

theorem msg_local (sch : Schema) : Local (fun num wt b s => setField num wt b sch s) (MsgTyped sch) where
  keeps _ _ _ _ _ _ hI h := setField_typed _ _ _ _ _ _ _ hI h
  splits num wt r s s' r' _ h := setField_split num wt r r' sch s s' h
  unknown num wt r s r2 hI h := (setField_unknown num wt r2 sch s hI).2 ((setField_unknown num wt r sch s hI).1 h)

/-- the later of two values, the elements of both lists -/
def mergeSlot : Slot → Slot → Slot
  | .one a, .one b => .one (b <|> a)
  | .enums a, .enums b => .enums (a ++ b)
  | .msgs a, .msgs b => .msgs (a ++ b)
  | _, b => b

theorem setSlot_merge (wt : Nat) (b : Bytes) (k : Field) (v w : Slot) (hv : SlotTyped k v) (hw : SlotTyped k w) :
    setSlot wt b k (mergeSlot v w) = (setSlot wt b k w).map (mergeSlot v) := by
  cases k <;> cases v <;> cases w <;> simp only [SlotTyped] at hv hw
  case one.one.one t a c =>
    simp only [mergeSlot, setSlot]
    split
    · cases getVal t b <;> simp [Handled.map, mergeSlot]
    · rfl
  case enums.enums.enums a c =>
    simp only [mergeSlot, setSlot]
    split
    · cases getVarint b <;> simp [Handled.map, mergeSlot]
    · split
      · cases getBytes b with
        | none => rfl
        | some x => dsimp only; cases getPacked x.1.length x.1 <;> simp [Handled.map, mergeSlot]
      · rfl
  case msgs.msgs.msgs sch a c =>
    simp only [mergeSlot, setSlot]
    split
    · cases getBytes b with
      | none => rfl
      | some x => dsimp only; cases getSub sch x.1 <;> simp [Handled.map, mergeSlot]
    · rfl

theorem setField_merge (num wt : Nat) (b : Bytes) : ∀ (sch : Schema) (vs ws : List Slot), MsgTyped sch vs → MsgTyped sch ws →
    setField num wt b sch (List.zipWith mergeSlot vs ws) = (setField num wt b sch ws).map (List.zipWith mergeSlot vs)
  | [], _, _, .nil, .nil => rfl
  | (n, k) :: sch, v :: vs, w :: ws, .cons hv hvs, .cons hw hws => by
    simp only [List.zipWith_cons_cons, setField]
    split
    · rw [setSlot_merge wt b k v w hv hw]
      cases setSlot wt b k w <;> rfl
    · rw [setField_merge num wt b sch vs ws hvs hws]
      cases setField num wt b sch ws <;> rfl

theorem empty_typed (sch : Schema) : MsgTyped sch (sch.map (·.2.empty)) := by
  unfold MsgTyped
  rw [List.forall₂_map_right_iff]
  refine List.forall₂_same.mpr ?_
  rintro ⟨n, k⟩ _
  cases k <;> simp [Field.empty, SlotTyped]

theorem merge_empty : ∀ (sch : Schema) (vs : List Slot), MsgTyped sch vs → List.zipWith mergeSlot vs (sch.map (·.2.empty)) = vs
  | [], _, .nil => rfl
  | (n, k) :: sch, v :: vs, .cons hv hvs => by
    simp only [List.map_cons, List.zipWith_cons_cons, merge_empty sch vs hvs]
    congr 1
    cases k <;> cases v <;> simp only [SlotTyped] at hv <;> simp [Field.empty, mergeSlot]

/-- reading two messages put together is reading each and merging -/
theorem getMsg_append (sch : Schema) (a b : Bytes) (x y : List Slot × Bytes) (ha : getMsg sch a = some x) (hb : getMsg sch b = some y) :
    getMsg sch (a ++ b) = some (List.zipWith mergeSlot x.1 y.1, x.2 ++ y.2) := by
  have hx := (getMsg_typed ha).1
  unfold getMsg at ha hb ⊢
  obtain ⟨-, h⟩ := loop_append (msg_local sch) _ _ _ _ _ _ (empty_typed sch) ha
  obtain ⟨F', hF', he⟩ := h b (a ++ b).length (Nat.le_refl _)
  rw [he, loop_fuel (msg_local sch) F' b.length b x.1 x.2 hx hF' (Nat.le_refl _)]
  have := loop_sim (known := fun num wt b s => setField num wt b sch s) (I := MsgTyped sch)
    (fun _ _ _ _ _ _ hI h => setField_typed _ _ _ _ _ _ _ hI h) (List.zipWith mergeSlot x.1) x.2
    (fun num wt r s hs => setField_merge num wt r sch x.1 s hx hs) b.length b (sch.map (·.2.empty)) [] (empty_typed sch)
  rw [merge_empty sch x.1 hx, List.append_nil, hb] at this
  rw [this]
  rfl

theorem setSub_split (num wt : Nat) (b r : Bytes) : ∀ (sch : SubSchema) (vals vals' : List (Option Val)),
    setSub num wt b sch vals = .ok vals' r → ∃ p, b = p ++ r ∧ ∀ y, setSub num wt (p ++ y) sch vals = .ok vals' y
  | [], _, vals', h => by simp [setSub] at h
  | _ :: _, [], vals', h => by simp [setSub] at h
  | (n, t) :: sch, v :: vals, vals', h => by
    rw [setSub] at h
    by_cases hn : n = num
    · rw [if_pos hn] at h
      by_cases hw : wt = t.wire
      · rw [if_pos hw] at h
        cases hg : getVal t b with
        | none => simp [hg] at h
        | some x =>
          simp only [hg, Handled.ok.injEq] at h
          obtain ⟨rfl, rfl⟩ := h
          obtain ⟨p, hp, hx⟩ := getVal_split hg
          exact ⟨p, hp, fun y => by simp only [setSub, if_pos hn, if_pos hw, hx y]⟩
      · simp [hw] at h
    · rw [if_neg hn] at h
      cases hs : setSub num wt b sch vals with
      | fail => simp [hs, Handled.map] at h
      | unknown => simp [hs, Handled.map] at h
      | ok w r' =>
        simp only [hs, Handled.map, Handled.ok.injEq] at h
        obtain ⟨rfl, rfl⟩ := h
        obtain ⟨p, hp, hx⟩ := setSub_split num wt b r' sch vals w hs
        exact ⟨p, hp, fun y => by simp only [setSub, if_neg hn, hx y, Handled.map]⟩

theorem subTyped_length {sch : SubSchema} {s : List (Option Val)} (h : SubTyped sch s) : sch.length = s.length := h.length_eq

theorem sub_local (sch : SubSchema) : Local (fun num wt b s => setSub num wt b sch s) (SubTyped sch) where
  keeps _ _ _ _ _ _ hI h := setSub_typed _ _ _ _ _ _ _ hI h
  splits num wt r s s' r' _ h := setSub_split num wt r r' sch s s' h
  unknown num wt r s r2 hI h := (setSub_unknown num wt r2 sch s (subTyped_length hI)).2 ((setSub_unknown num wt r sch s (subTyped_length hI)).1 h)

theorem setSub_merge (num wt : Nat) (b : Bytes) : ∀ (sch : SubSchema) (vs ws : List (Option Val)), SubTyped sch vs → SubTyped sch ws →
    setSub num wt b sch (List.zipWith (fun x y => y <|> x) vs ws) = (setSub num wt b sch ws).map (List.zipWith (fun x y => y <|> x) vs)
  | [], _, _, .nil, .nil => rfl
  | (n, t) :: sch, v :: vs, w :: ws, .cons hv hvs, .cons hw hws => by
    simp only [List.zipWith_cons_cons, setSub]
    split
    · split
      · cases getVal t b <;> simp [Handled.map]
      · rfl
    · rw [setSub_merge num wt b sch vs ws hvs hws]
      cases setSub num wt b sch ws <;> rfl

theorem sub_empty_typed (sch : SubSchema) : SubTyped sch (sch.map fun _ => none) := by
  unfold SubTyped
  rw [List.forall₂_map_right_iff]
  exact List.forall₂_same.mpr (by simp)

theorem sub_merge_empty : ∀ (sch : SubSchema) (vs : List (Option Val)), SubTyped sch vs →
    List.zipWith (fun x y => y <|> x) vs (sch.map fun _ => none) = vs
  | [], _, .nil => rfl
  | (n, k) :: sch, v :: vs, .cons hv hvs => by
    simp only [List.map_cons, List.zipWith_cons_cons, sub_merge_empty sch vs hvs]
    congr 1

theorem getSub_append (sch : SubSchema) (a b : Bytes) (x y : Sub) (ha : getSub sch a = some x) (hb : getSub sch b = some y) :
    getSub sch (a ++ b) = some ⟨List.zipWith (fun x y => y <|> x) x.vals y.vals, x.unknown ++ y.unknown⟩ := by
  have hx := (getSub_typed ha).1
  unfold getSub at ha hb ⊢
  simp only [Option.map_eq_some_iff] at ha hb
  obtain ⟨⟨xv, xu⟩, ha, rfl⟩ := ha
  obtain ⟨⟨yv, yu⟩, hb, rfl⟩ := hb
  obtain ⟨-, h⟩ := loop_append (sub_local sch) _ _ _ _ _ _ (sub_empty_typed sch) ha
  obtain ⟨F', hF', he⟩ := h b (a ++ b).length (Nat.le_refl _)
  rw [he, loop_fuel (sub_local sch) F' b.length b xv xu hx hF' (Nat.le_refl _)]
  have := loop_sim (known := fun num wt b s => setSub num wt b sch s) (I := SubTyped sch)
    (fun _ _ _ _ _ _ hI h => setSub_typed _ _ _ _ _ _ _ hI h) (List.zipWith (fun x y => y <|> x) xv) xu
    (fun num wt r s hs => setSub_merge num wt r sch xv s hx hs) b.length b (sch.map fun _ => none) [] (sub_empty_typed sch)
  rw [sub_merge_empty sch xv hx, List.append_nil, hb] at this
  rw [this]
  rfl

/-- a single field -/
theorem getMsg_field {sch : Schema} (hok : SchOk sch) (num wt : Nat) (k : Field) (c : Bytes) (w : Slot) (hw : wt < 8) (hw4 : wt ≠ 4)
    (hk : setSlot wt c k k.empty = .ok w []) (pre post : Schema) (he : sch = pre ++ (num, k) :: post) :
    getMsg sch (tag num wt ++ c) = some (pre.map (·.2.empty) ++ w :: post.map (·.2.empty), []) := by
  subst he
  have hmem : (num, k) ∈ pre ++ (num, k) :: post := by simp
  have hr := hok.2 _ hmem
  have hnd := hok.1
  simp only [List.map_append, List.map_cons, List.nodup_append, List.nodup_cons] at hnd
  have hn : num ∉ pre.map (·.1) := fun h => hnd.2.2 num h num (by simp) rfl
  have hset := setField_at num wt c k k.empty post (post.map (·.2.empty)) pre (pre.map (·.2.empty)) (by simp) hn
  rw [hk] at hset
  unfold getMsg
  simp only [List.map_append, List.map_cons]
  have hl : (tag num wt ++ c).length = ((tag num wt ++ c).length - 1) + 1 := by
    have := tag_ne num wt
    simp only [List.length_append]; omega
  rw [hl]
  have := loop_known (fun n wt b s => setField n wt b (pre ++ (num, k) :: post) s)
    ((tag num wt ++ c).length - 1) num wt c [] (pre.map (·.2.empty) ++ k.empty :: post.map (·.2.empty))
    (pre.map (·.2.empty) ++ w :: post.map (·.2.empty)) [] hr.1 hr.2 hw hw4
    (by rw [List.append_nil]; exact hset)
  rw [List.append_nil] at this
  rw [this]
  cases (tag num wt ++ c).length - 1 <;> rfl

theorem getPacked_put : ∀ (l : List Int32) (f : Nat), (l.flatMap fun x => putVal .enum (.i x)).length ≤ f →
    getPacked f (l.flatMap fun x => putVal .enum (.i x)) = some l := by
  intro l
  induction l with
  | nil => intro f _; cases f <;> rfl
  | cons x l ih =>
    intro f hf
    simp only [List.flatMap_cons, List.length_append] at hf ⊢
    have hx := getVal_put .enum (.i x) (l.flatMap fun x => putVal .enum (.i x)) trivial (by simp)
    simp only [getVal, Option.map_eq_some_iff, Prod.mk.injEq, Val.i.injEq] at hx
    obtain ⟨⟨n, r⟩, hg, hn, hr⟩ := hx
    dsimp only at hn hr
    have hne : 1 ≤ (putVal .enum (.i x)).length := varint_ne _
    obtain ⟨f, rfl⟩ : ∃ k, f = k + 1 := ⟨f - 1, by omega⟩
    cases hb : putVal .enum (.i x) ++ l.flatMap (fun x => putVal .enum (.i x)) with
    | nil => rw [List.append_eq_nil_iff] at hb; rw [hb.1] at hne; simp at hne
    | cons c b =>
      rw [hb] at hg
      simp only [getPacked, hg, hr, hn, ih f (by omega)]
      rfl

end Egts.PB
