import Verif.Lemmas.Grammar
import Verif.Props.StorageJson
import Verif.Props.StorageRecord
set_option autoImplicit false
/- C126: StorageRecord.Decode accepts exactly the bytes that are a message of the grammar (Spec/ProtoGrammar) with the required fields, as that message. -/
namespace Egts
open PB (Ty Val Sub SubSchema)
open Grammar

/-- what is needed of a kind of inner message -/
structure SubLaw {T : Type} (S : MsgSpec T) (sch : SubSchema) (ofSub : Sub → T) : Prop where
  nodup : (sch.map (·.1)).Nodup
  same : (S.fields.map fun f => (f.num, f.ty)).Perm sch
  value : ∀ (g : Nat → Ty → Option Val) (u : Bytes), (∀ n t v, g n t = some v → v.has t) →
    ∀ f ∈ S.fields, S.value (ofSub ⟨sch.map fun p => g p.1 p.2, u⟩) f.num = g f.num f.ty
  unknown : ∀ (g : Nat × Ty → Option Val) (u : Bytes), S.unknown (ofSub ⟨sch.map g, u⟩) = u

theorem scalar_has {t : Ty} {r : Grammar.Raw} {v : Val} (h : scalar t r = some v) : v.has t := by
  cases t <;> cases r <;> simp only [scalar, Option.some.injEq, reduceCtorEq] at h <;> subst h <;> trivial

theorem lastValue_has {n : Nat} {t : Ty} {l : List Item} {v : Val} (h : lastValue n t l = some v) : v.has t := by
  have := List.mem_of_getLast? h
  obtain ⟨i, _, hi⟩ := List.mem_filterMap.mp this
  unfold Item.value at hi
  split at hi
  · exact scalar_has hi
  · cases hi

theorem subText_iff {T : Type} {S : MsgSpec T} {sch : SubSchema} {ofSub : Sub → T} (hS : S.Ok) (hL : SubLaw S sch ofSub) (b : Bytes) (m : T) :
    SubText S b m ↔ ∃ s, PB.getSub sch b = some s ∧ ofSub s = m := by
  have hall : ∀ i : Item, (S.fields.all fun f => (i.value f.num f.ty).isNone) = sch.all fun p => (i.value p.1 p.2).isNone := by
    intro i
    rw [Bool.eq_iff_iff, List.all_eq_true, List.all_eq_true]
    constructor
    · intro h p hp
      obtain ⟨f, hf, rfl⟩ := List.mem_map.mp (hL.same.mem_iff.mpr hp)
      exact h f hf
    · intro h f hf
      exact h (f.num, f.ty) (hL.same.mem_iff.mp (List.mem_map.mpr ⟨f, hf, rfl⟩))
  have hk : ∀ l : List Item, (l.filter fun i => S.fields.all fun f => (i.value f.num f.ty).isNone).flatMap Item.kept =
      (l.filter fun i => sch.all fun p => (i.value p.1 p.2).isNone).flatMap Item.kept := by
    intro l
    congr 1
    exact List.filter_congr fun i _ => hall i
  constructor
  · rintro ⟨l, hm, hv, hu⟩
    refine ⟨⟨sch.map fun p => lastValue p.1 p.2 l, _⟩, (PB.getSub_iff sch hL.nodup b _).mpr ⟨l, hm, rfl, rfl⟩, ?_⟩
    refine hS.ext _ _ (fun f hf => ?_) ?_
    · rw [hL.value (fun n t => lastValue n t l) _ (fun _ _ _ h => lastValue_has h) f hf, hv f hf]
    · rw [hL.unknown, hu, hk]; rfl
  · rintro ⟨s, hs, rfl⟩
    obtain ⟨l, hm, hv, hu⟩ := (PB.getSub_iff sch hL.nodup b _).mp hs
    obtain ⟨vals, u⟩ := s
    simp only at hv hu
    subst hv
    refine ⟨l, hm, fun f hf => hL.value (fun n t => lastValue n t l) _ (fun _ _ _ h => lastValue_has h) f hf, ?_⟩
    rw [hL.unknown, hu, hk]

/-! ### message by message -/

theorem back_u {t : Ty} (ht : t = .uint32 ∨ t = .fixed32 ∨ t = .float) (o : Option Val) (h : ∀ v, o = some v → v.has t) : (o.bind Val.asU).map Val.u = o := by
  cases o with
  | none => rfl
  | some v =>
    have := h v rfl
    rcases ht with rfl | rfl | rfl <;> cases v <;> first | rfl | exact this.elim
theorem back_i {t : Ty} (ht : t = .sint32 ∨ t = .sfixed32) (o : Option Val) (h : ∀ v, o = some v → v.has t) : (o.bind Val.asI).map Val.i = o := by
  cases o with
  | none => rfl
  | some v =>
    have := h v rfl
    rcases ht with rfl | rfl <;> cases v <;> first | rfl | exact this.elim
theorem back_b (o : Option Val) (h : ∀ v, o = some v → v.has .bool) : (o.bind Val.asB).map Val.b = o := by
  cases o with
  | none => rfl
  | some v =>
    have := h v rfl
    cases v <;> first | rfl | exact this.elim
theorem back_s (o : Option Val) (h : ∀ v, o = some v → v.has .bytes) : (o.bind Val.asS).map Val.s = o := by
  cases o with
  | none => rfl
  | some v =>
    have := h v rfl
    cases v <;> first | rfl | exact this.elim

local macro "sub_law" t:ident : tactic => `(tactic| (
  refine ⟨by decide +kernel, by decide +kernel, ?_, fun _ _ => rfl⟩
  intro g u hg
  simp only [$t:ident, List.forall_mem_cons, List.forall_mem_nil, and_true]
  repeat' apply And.intro
  all_goals first
    | exact back_u (.inl rfl) _ (hg _ _)
    | exact back_u (.inr (.inl rfl)) _ (hg _ _)
    | exact back_u (.inr (.inr rfl)) _ (hg _ _)
    | exact back_i (.inl rfl) _ (hg _ _)
    | exact back_i (.inr rfl) _ (hg _ _)
    | exact back_b _ (hg _ _)
    | exact back_s _ (hg _ _)
    | exact fun _ h => nomatch h))

theorem SensNdNavData.law : SubLaw SensNdNavData.spec SensNdNavData.schema SensNdNavData.ofSub := by
  sub_law SensNdNavData.spec
theorem SensFuelLevel.law : SubLaw SensFuelLevel.spec SensFuelLevel.schema SensFuelLevel.ofSub := by
  sub_law SensFuelLevel.spec
theorem SensAinAinValue.law : SubLaw SensAinAinValue.spec SensAinAinValue.schema SensAinAinValue.ofSub := by
  sub_law SensAinAinValue.spec
theorem SensDinsFlags.law : SubLaw SensDinsFlags.spec SensDinsFlags.schema SensDinsFlags.ofSub := by
  sub_law SensDinsFlags.spec
theorem SensCounterCount.law : SubLaw SensCounterCount.spec SensCounterCount.schema SensCounterCount.ofSub := by
  sub_law SensCounterCount.spec
theorem SensFmeterFrequency.law : SubLaw SensFmeterFrequency.spec SensFmeterFrequency.schema SensFmeterFrequency.ofSub := by
  sub_law SensFmeterFrequency.spec
theorem SensGsmCellMonotoringCellMonitoring.law : SubLaw SensGsmCellMonotoringCellMonitoring.spec SensGsmCellMonotoringCellMonitoring.schema SensGsmCellMonotoringCellMonitoring.ofSub := by
  sub_law SensGsmCellMonotoringCellMonitoring.spec
theorem SensButtonPressCounter.law : SubLaw SensButtonPressCounter.spec SensButtonPressCounter.schema SensButtonPressCounter.ofSub := by
  sub_law SensButtonPressCounter.spec
theorem SensTermoData.law : SubLaw SensTermoData.spec SensTermoData.schema SensTermoData.ofSub := by
  sub_law SensTermoData.spec
theorem SensCanLogData.law : SubLaw SensCanLogData.spec SensCanLogData.schema SensCanLogData.ofSub := by
  sub_law SensCanLogData.spec
theorem SensCanLogTmpDataExt.law : SubLaw SensCanLogTmpDataExt.spec SensCanLogTmpDataExt.schema SensCanLogTmpDataExt.ofSub := by
  sub_law SensCanLogTmpDataExt.spec
theorem SensAccelerometerData.law : SubLaw SensAccelerometerData.spec SensAccelerometerData.schema SensAccelerometerData.ofSub := by
  sub_law SensAccelerometerData.spec
theorem SensDoutsFlags.law : SubLaw SensDoutsFlags.spec SensDoutsFlags.schema SensDoutsFlags.ofSub := by
  sub_law SensDoutsFlags.spec
theorem SensBufferData.law : SubLaw SensBufferData.spec SensBufferData.schema SensBufferData.ofSub := by
  sub_law SensBufferData.spec
theorem SensStorInfo.law : SubLaw SensStorInfo.spec SensStorInfo.schema SensStorInfo.ofSub := by
  sub_law SensStorInfo.spec
theorem SensTrackerInfo.law : SubLaw SensTrackerInfo.spec SensTrackerInfo.schema SensTrackerInfo.ofSub := by
  sub_law SensTrackerInfo.spec
theorem SensTestEraTests.law : SubLaw SensTestEraTests.spec SensTestEraTests.schema SensTestEraTests.ofSub := by
  sub_law SensTestEraTests.spec
theorem SensCrashData.law : SubLaw SensCrashData.spec SensCrashData.schema SensCrashData.ofSub := by
  sub_law SensCrashData.spec

/-! ### the outer message -/

theorem forall2_read {A B C : Type} {R : A → B → Prop} {read : A → Option C} {of : C → B} (h : ∀ a b, R a b ↔ ∃ c, read a = some c ∧ of c = b) :
    ∀ (l : List A) (ms : List B), List.Forall₂ R l ms ↔ (∀ a ∈ l, read a ≠ none) ∧ ms = (l.filterMap read).map of
  | [], ms => by
    constructor
    · intro h; cases h; exact ⟨by simp, rfl⟩
    · rintro ⟨_, rfl⟩; exact .nil
  | a :: l, ms => by
    constructor
    · intro hh
      cases hh with
      | cons h1 h2 =>
        obtain ⟨c, hc, rfl⟩ := (h _ _).mp h1
        obtain ⟨k1, rfl⟩ := (forall2_read h l _).mp h2
        refine ⟨?_, ?_⟩
        · intro x hx
          rcases List.mem_cons.mp hx with rfl | hx
          · rw [hc]; exact Option.some_ne_none _
          · exact k1 x hx
        · rw [List.filterMap_cons_some hc]; rfl
    · rintro ⟨h1, rfl⟩
      cases hc : read a with
      | none => exact absurd hc (h1 a (by simp))
      | some c =>
        rw [List.filterMap_cons_some hc]
        exact .cons ((h _ _).mpr ⟨c, hc, rfl⟩) ((forall2_read h l _).mpr ⟨fun x hx => h1 x (by simp [hx]), rfl⟩)

theorem inner_iff {T : Type} {S : MsgSpec T} {sch : SubSchema} {ofSub : Sub → T} (hS : S.Ok) (hL : SubLaw S sch ofSub) (n : Nat) (l : List Item) (ms : List T) :
    Inner S n l ms ↔ (∀ i ∈ l, PB.slotAct n (.msgs sch) i ≠ .bad) ∧ ms = (PB.slotAfter n (.msgs sch) l (.msgs [])).subs.map ofSub := by
  unfold Inner
  rw [forall2_read (subText_iff hS hL), PB.slotAfter_msgs]
  refine and_congr ?_ Iff.rfl
  constructor
  · intro h i hi hb
    unfold PB.slotAct at hb
    simp only at hb
    cases hr : i.inner n with
    | none => rw [hr] at hb; cases hb
    | some b =>
      rw [hr] at hb
      simp only at hb
      have := h b (List.mem_filterMap.mpr ⟨i, hi, hr⟩)
      cases hp : PB.getSub sch b with
      | none => exact this hp
      | some m => rw [hp] at hb; cases hb
  · intro h b hb hn
    obtain ⟨i, hi, hr⟩ := List.mem_filterMap.mp hb
    refine h i hi ?_
    unfold PB.slotAct
    simp only [hr, hn]

theorem reasonText_iff (r : Grammar.Raw) (l : List Int32) : ReasonText r l ↔ ∃ c, PB.readReasons r = some c ∧ id c = l := by
  constructor
  · intro h
    cases h with
    | one n => exact ⟨_, rfl, rfl⟩
    | packed b l h => exact ⟨l, (PB.packed_iff b.length b l (Nat.le_refl _)).mpr h, rfl⟩
  · rintro ⟨c, h, rfl⟩
    cases r with
    | varint n => cases h; exact .one n
    | bytes b => exact .packed b c ((PB.packed_iff b.length b c (Nat.le_refl _)).mp h)
    | fixed64 => cases h
    | fixed32 n => cases h
    | group => cases h

theorem reasons_iff (l : List Item) (rs : List Int32) : (∃ xs, List.Forall₂ ReasonText (l.filterMap Item.reason) xs ∧ rs = xs.flatten) ↔
    (∀ i ∈ l, PB.slotAct 3 .enums i ≠ .bad) ∧ rs = (PB.slotAfter 3 .enums l (.enums [])).reasons := by
  have e : (Item.reason : Item → Option Grammar.Raw) = PB.reasonAt 3 := rfl
  rw [PB.slotAfter_enums]
  have hb : (∀ a ∈ l.filterMap Item.reason, PB.readReasons a ≠ none) ↔ ∀ i ∈ l, PB.slotAct 3 .enums i ≠ .bad := by
    rw [e]
    constructor
    · intro h i hi hb
      unfold PB.slotAct at hb
      simp only at hb
      cases hr : PB.reasonAt 3 i with
      | none => rw [hr] at hb; cases hb
      | some b =>
        rw [hr] at hb
        simp only at hb
        have := h b (List.mem_filterMap.mpr ⟨i, hi, hr⟩)
        cases hp : PB.readReasons b with
        | none => exact this hp
        | some m => rw [hp] at hb; cases hb
    · intro h b hb hn
      obtain ⟨i, hi, hr⟩ := List.mem_filterMap.mp hb
      refine h i hi ?_
      unfold PB.slotAct
      simp only [hr, hn]
  rw [← hb]
  constructor
  · rintro ⟨xs, h, rfl⟩
    obtain ⟨h1, rfl⟩ := (forall2_read reasonText_iff _ _).mp h
    refine ⟨h1, ?_⟩
    rw [List.map_id, e]
    rfl
  · rintro ⟨h1, rfl⟩
    refine ⟨_, (forall2_read reasonText_iff _ _).mpr ⟨h1, rfl⟩, ?_⟩
    rw [List.map_id, e]
    rfl

theorem one_unknown (n : Nat) (t : Ty) (i : Item) : (PB.slotAct n (.one t) i).isUnknown = (i.value n t).isNone := by
  unfold PB.slotAct
  simp only
  cases i.value n t <;> rfl

theorem enums_unknown (i : Item) (h : PB.slotAct 3 .enums i ≠ .bad) : (PB.slotAct 3 .enums i).isUnknown = i.reason.isNone := by
  have e : i.reason = PB.reasonAt 3 i := rfl
  rw [e]
  unfold PB.slotAct at h ⊢
  simp only at h ⊢
  cases hr : PB.reasonAt 3 i with
  | none => rfl
  | some r =>
    rw [hr] at h
    simp only at h ⊢
    cases hp : PB.readReasons r with
    | none => rw [hp] at h; exact absurd rfl h
    | some l => rfl

theorem msgs_unknown (n : Nat) (sch : SubSchema) (i : Item) (h : PB.slotAct n (.msgs sch) i ≠ .bad) :
    (PB.slotAct n (.msgs sch) i).isUnknown = (i.inner n).isNone := by
  unfold PB.slotAct at h ⊢
  simp only at h ⊢
  cases hr : i.inner n with
  | none => rfl
  | some b =>
    rw [hr] at h
    simp only at h ⊢
    cases hp : PB.getSub sch b with
    | none => rw [hp] at h; exact absurd rfl h
    | some l => rfl

theorem range25 : List.range 25 = [0, 1, 2, 3, 4, 5, 6, 7, 8, 9, 10, 11, 12, 13, 14, 15, 16, 17, 18, 19, 20, 21, 22, 23, 24] := by decide

theorem unknownTop_eq (i : Item) (h : ∀ p ∈ StorageRecord.schema, PB.slotAct p.1 p.2 i ≠ .bad) :
    (StorageRecord.schema.all fun p => (PB.slotAct p.1 p.2 i).isUnknown) = i.unknownTop := by
  have hm : ∀ n sch, (n, PB.Field.msgs sch) ∈ StorageRecord.schema → (PB.slotAct n (.msgs sch) i).isUnknown = (i.inner n).isNone :=
    fun n sch hp => msgs_unknown n sch i (h _ hp)
  have he : (PB.slotAct 3 .enums i).isUnknown = i.reason.isNone := enums_unknown i (h (3, .enums) (by simp [StorageRecord.schema]))
  unfold Item.unknownTop
  rw [range25]
  have h7 := hm 7 SensNdNavData.schema (by simp [StorageRecord.schema])
  have h8 := hm 8 SensFuelLevel.schema (by simp [StorageRecord.schema])
  have h9 := hm 9 SensAinAinValue.schema (by simp [StorageRecord.schema])
  have h10 := hm 10 SensDinsFlags.schema (by simp [StorageRecord.schema])
  have h11 := hm 11 SensCounterCount.schema (by simp [StorageRecord.schema])
  have h12 := hm 12 SensFmeterFrequency.schema (by simp [StorageRecord.schema])
  have h13 := hm 13 SensGsmCellMonotoringCellMonitoring.schema (by simp [StorageRecord.schema])
  have h14 := hm 14 SensButtonPressCounter.schema (by simp [StorageRecord.schema])
  have h15 := hm 15 SensTermoData.schema (by simp [StorageRecord.schema])
  have h16 := hm 16 SensCanLogData.schema (by simp [StorageRecord.schema])
  have h17 := hm 17 SensCanLogTmpDataExt.schema (by simp [StorageRecord.schema])
  have h18 := hm 18 SensAccelerometerData.schema (by simp [StorageRecord.schema])
  have h19 := hm 19 SensDoutsFlags.schema (by simp [StorageRecord.schema])
  have h20 := hm 20 SensBufferData.schema (by simp [StorageRecord.schema])
  have h21 := hm 21 SensStorInfo.schema (by simp [StorageRecord.schema])
  have h22 := hm 22 SensTrackerInfo.schema (by simp [StorageRecord.schema])
  have h23 := hm 23 SensTestEraTests.schema (by simp [StorageRecord.schema])
  have h24 := hm 24 SensCrashData.schema (by simp [StorageRecord.schema])
  simp only [StorageRecord.schema, List.all_cons, List.all_nil, one_unknown, he, h7, h8, h9, h10, h11, h12, h13, h14, h15, h16, h17, h18, h19, h20, h21, h22, h23, h24]
  simp [Bool.and_assoc]

theorem ofMsg_after (l : List Item) (u : Bytes) : StorageRecord.ofMsg (StorageRecord.schema.map (fun p => PB.slotAfter p.1 p.2 l p.2.empty), u) = {
    RecordNumber := (PB.slotAfter 1 (.one .uint32) l (.one none)).val.bind Val.asU
    TimeStamp := (PB.slotAfter 2 (.one .fixed32) l (.one none)).val.bind Val.asU
    RecordReason := (PB.slotAfter 3 .enums l (.enums [])).reasons
    StatusFlags := (PB.slotAfter 4 (.one .fixed32) l (.one none)).val.bind Val.asU
    SensNdNavData := (PB.slotAfter 7 (.msgs SensNdNavData.schema) l (.msgs [])).subs.map SensNdNavData.ofSub
    SensFuelLevel := (PB.slotAfter 8 (.msgs SensFuelLevel.schema) l (.msgs [])).subs.map SensFuelLevel.ofSub
    SensAinAinValue := (PB.slotAfter 9 (.msgs SensAinAinValue.schema) l (.msgs [])).subs.map SensAinAinValue.ofSub
    SensDinsFlags := (PB.slotAfter 10 (.msgs SensDinsFlags.schema) l (.msgs [])).subs.map SensDinsFlags.ofSub
    SensCounterCount := (PB.slotAfter 11 (.msgs SensCounterCount.schema) l (.msgs [])).subs.map SensCounterCount.ofSub
    SensFmeterFrequency := (PB.slotAfter 12 (.msgs SensFmeterFrequency.schema) l (.msgs [])).subs.map SensFmeterFrequency.ofSub
    SensGsmCellMonotoringCellMonitoring := (PB.slotAfter 13 (.msgs SensGsmCellMonotoringCellMonitoring.schema) l (.msgs [])).subs.map SensGsmCellMonotoringCellMonitoring.ofSub
    SensButtonPressCounter := (PB.slotAfter 14 (.msgs SensButtonPressCounter.schema) l (.msgs [])).subs.map SensButtonPressCounter.ofSub
    SensTermoData := (PB.slotAfter 15 (.msgs SensTermoData.schema) l (.msgs [])).subs.map SensTermoData.ofSub
    SensCanLogData := (PB.slotAfter 16 (.msgs SensCanLogData.schema) l (.msgs [])).subs.map SensCanLogData.ofSub
    SensCanLogTmpDataExt := (PB.slotAfter 17 (.msgs SensCanLogTmpDataExt.schema) l (.msgs [])).subs.map SensCanLogTmpDataExt.ofSub
    SensAccelerometerData := (PB.slotAfter 18 (.msgs SensAccelerometerData.schema) l (.msgs [])).subs.map SensAccelerometerData.ofSub
    SensDoutsFlags := (PB.slotAfter 19 (.msgs SensDoutsFlags.schema) l (.msgs [])).subs.map SensDoutsFlags.ofSub
    SensBufferData := (PB.slotAfter 20 (.msgs SensBufferData.schema) l (.msgs [])).subs.map SensBufferData.ofSub
    SensStorInfo := (PB.slotAfter 21 (.msgs SensStorInfo.schema) l (.msgs [])).subs.map SensStorInfo.ofSub
    SensTrackerInfo := (PB.slotAfter 22 (.msgs SensTrackerInfo.schema) l (.msgs [])).subs.map SensTrackerInfo.ofSub
    SensTestEraTests := (PB.slotAfter 23 (.msgs SensTestEraTests.schema) l (.msgs [])).subs.map SensTestEraTests.ofSub
    SensCrashData := (PB.slotAfter 24 (.msgs SensCrashData.schema) l (.msgs [])).subs.map SensCrashData.ofSub
    XXX_unrecognized := u } := rfl

theorem optU_inj : ∀ (a b : Option UInt32), a.map Val.u = b.map Val.u → a = b := by
  intro a b h
  cases a <;> cases b <;> simp_all

theorem slot_u (n : Nat) (t : Ty) (l : List Item) (ht : t = .uint32 ∨ t = .fixed32 ∨ t = .float) :
    ((PB.slotAfter n (.one t) l (.one none)).val.bind Val.asU).map Val.u = lastValue n t l := by
  rw [PB.slotAfter_one]
  have : (lastValue n t l <|> none) = lastValue n t l := by cases lastValue n t l <;> rfl
  rw [this]
  exact back_u ht _ fun v h => lastValue_has h

/-- reading without the check of required fields -/
theorem storageText_iff (b : Bytes) (m : StorageRecord) : StorageText b m ↔ ∃ s, PB.getMsg StorageRecord.schema b = some s ∧ StorageRecord.ofMsg s = m := by
  constructor
  · rintro ⟨l, hm, h1, h2, h4, h3, h7, h8, h9, h10, h11, h12, h13, h14, h15, h16, h17, h18, h19, h20, h21, h22, h23, h24, hk⟩
    rw [reasons_iff] at h3
    rw [inner_iff SensNdNavData.ok SensNdNavData.law] at h7
    rw [inner_iff SensFuelLevel.ok SensFuelLevel.law] at h8
    rw [inner_iff SensAinAinValue.ok SensAinAinValue.law] at h9
    rw [inner_iff SensDinsFlags.ok SensDinsFlags.law] at h10
    rw [inner_iff SensCounterCount.ok SensCounterCount.law] at h11
    rw [inner_iff SensFmeterFrequency.ok SensFmeterFrequency.law] at h12
    rw [inner_iff SensGsmCellMonotoringCellMonitoring.ok SensGsmCellMonotoringCellMonitoring.law] at h13
    rw [inner_iff SensButtonPressCounter.ok SensButtonPressCounter.law] at h14
    rw [inner_iff SensTermoData.ok SensTermoData.law] at h15
    rw [inner_iff SensCanLogData.ok SensCanLogData.law] at h16
    rw [inner_iff SensCanLogTmpDataExt.ok SensCanLogTmpDataExt.law] at h17
    rw [inner_iff SensAccelerometerData.ok SensAccelerometerData.law] at h18
    rw [inner_iff SensDoutsFlags.ok SensDoutsFlags.law] at h19
    rw [inner_iff SensBufferData.ok SensBufferData.law] at h20
    rw [inner_iff SensStorInfo.ok SensStorInfo.law] at h21
    rw [inner_iff SensTrackerInfo.ok SensTrackerInfo.law] at h22
    rw [inner_iff SensTestEraTests.ok SensTestEraTests.law] at h23
    rw [inner_iff SensCrashData.ok SensCrashData.law] at h24
    have hb : ∀ i ∈ l, ∀ p ∈ StorageRecord.schema, PB.slotAct p.1 p.2 i ≠ .bad := by
      intro i hi
      have hone : ∀ n t, PB.slotAct n (.one t) i ≠ .bad := by
        intro n t
        unfold PB.slotAct
        simp only
        cases i.value n t <;> exact fun h => by cases h
      simp only [StorageRecord.schema, List.forall_mem_cons]
      exact ⟨hone _ _, hone _ _, h3.1 i hi, hone _ _, h7.1 i hi, h8.1 i hi, h9.1 i hi, h10.1 i hi, h11.1 i hi, h12.1 i hi, h13.1 i hi, h14.1 i hi, h15.1 i hi, h16.1 i hi, h17.1 i hi, h18.1 i hi, h19.1 i hi, h20.1 i hi, h21.1 i hi, h22.1 i hi, h23.1 i hi, h24.1 i hi, by simp⟩
    have hk' : m.XXX_unrecognized = (l.filter fun i => StorageRecord.schema.all fun p => (PB.slotAct p.1 p.2 i).isUnknown).flatMap Item.kept := by
      rw [hk]
      congr 1
      exact List.filter_congr fun i hi => (unknownTop_eq i (hb i hi)).symm
    refine ⟨_, (PB.getMsg_iff StorageRecord.schema (by decide +kernel) b _ _).mpr ⟨l, hm, hb, rfl, rfl⟩, ?_⟩
    rw [ofMsg_after, ← hk']
    have e1 := optU_inj _ _ (h1.trans (slot_u 1 .uint32 l (.inl rfl)).symm)
    have e2 := optU_inj _ _ (h2.trans (slot_u 2 .fixed32 l (.inr (.inl rfl))).symm)
    have e4 := optU_inj _ _ (h4.trans (slot_u 4 .fixed32 l (.inr (.inl rfl))).symm)
    rw [← e1, ← e2, ← e4, ← h3.2, ← h7.2, ← h8.2, ← h9.2, ← h10.2, ← h11.2, ← h12.2, ← h13.2, ← h14.2, ← h15.2, ← h16.2, ← h17.2, ← h18.2, ← h19.2, ← h20.2, ← h21.2, ← h22.2, ← h23.2, ← h24.2]
  · rintro ⟨⟨vals, u⟩, hs, rfl⟩
    obtain ⟨l, hm, hb, rfl, hk⟩ := (PB.getMsg_iff StorageRecord.schema (by decide +kernel) b _ _).mp hs
    rw [ofMsg_after]
    have hs' : ∀ p ∈ StorageRecord.schema, ∀ i ∈ l, PB.slotAct p.1 p.2 i ≠ .bad := fun p hp i hi => hb i hi p hp
    refine ⟨l, hm, slot_u 1 .uint32 l (.inl rfl), slot_u 2 .fixed32 l (.inr (.inl rfl)), slot_u 4 .fixed32 l (.inr (.inl rfl)),
      (reasons_iff l _).mpr ⟨hs' (3, .enums) (by simp [StorageRecord.schema]), rfl⟩,
      (inner_iff SensNdNavData.ok SensNdNavData.law 7 l _).mpr ⟨hs' (7, .msgs SensNdNavData.schema) (by simp [StorageRecord.schema]), rfl⟩,
      (inner_iff SensFuelLevel.ok SensFuelLevel.law 8 l _).mpr ⟨hs' (8, .msgs SensFuelLevel.schema) (by simp [StorageRecord.schema]), rfl⟩,
      (inner_iff SensAinAinValue.ok SensAinAinValue.law 9 l _).mpr ⟨hs' (9, .msgs SensAinAinValue.schema) (by simp [StorageRecord.schema]), rfl⟩,
      (inner_iff SensDinsFlags.ok SensDinsFlags.law 10 l _).mpr ⟨hs' (10, .msgs SensDinsFlags.schema) (by simp [StorageRecord.schema]), rfl⟩,
      (inner_iff SensCounterCount.ok SensCounterCount.law 11 l _).mpr ⟨hs' (11, .msgs SensCounterCount.schema) (by simp [StorageRecord.schema]), rfl⟩,
      (inner_iff SensFmeterFrequency.ok SensFmeterFrequency.law 12 l _).mpr ⟨hs' (12, .msgs SensFmeterFrequency.schema) (by simp [StorageRecord.schema]), rfl⟩,
      (inner_iff SensGsmCellMonotoringCellMonitoring.ok SensGsmCellMonotoringCellMonitoring.law 13 l _).mpr ⟨hs' (13, .msgs SensGsmCellMonotoringCellMonitoring.schema) (by simp [StorageRecord.schema]), rfl⟩,
      (inner_iff SensButtonPressCounter.ok SensButtonPressCounter.law 14 l _).mpr ⟨hs' (14, .msgs SensButtonPressCounter.schema) (by simp [StorageRecord.schema]), rfl⟩,
      (inner_iff SensTermoData.ok SensTermoData.law 15 l _).mpr ⟨hs' (15, .msgs SensTermoData.schema) (by simp [StorageRecord.schema]), rfl⟩,
      (inner_iff SensCanLogData.ok SensCanLogData.law 16 l _).mpr ⟨hs' (16, .msgs SensCanLogData.schema) (by simp [StorageRecord.schema]), rfl⟩,
      (inner_iff SensCanLogTmpDataExt.ok SensCanLogTmpDataExt.law 17 l _).mpr ⟨hs' (17, .msgs SensCanLogTmpDataExt.schema) (by simp [StorageRecord.schema]), rfl⟩,
      (inner_iff SensAccelerometerData.ok SensAccelerometerData.law 18 l _).mpr ⟨hs' (18, .msgs SensAccelerometerData.schema) (by simp [StorageRecord.schema]), rfl⟩,
      (inner_iff SensDoutsFlags.ok SensDoutsFlags.law 19 l _).mpr ⟨hs' (19, .msgs SensDoutsFlags.schema) (by simp [StorageRecord.schema]), rfl⟩,
      (inner_iff SensBufferData.ok SensBufferData.law 20 l _).mpr ⟨hs' (20, .msgs SensBufferData.schema) (by simp [StorageRecord.schema]), rfl⟩,
      (inner_iff SensStorInfo.ok SensStorInfo.law 21 l _).mpr ⟨hs' (21, .msgs SensStorInfo.schema) (by simp [StorageRecord.schema]), rfl⟩,
      (inner_iff SensTrackerInfo.ok SensTrackerInfo.law 22 l _).mpr ⟨hs' (22, .msgs SensTrackerInfo.schema) (by simp [StorageRecord.schema]), rfl⟩,
      (inner_iff SensTestEraTests.ok SensTestEraTests.law 23 l _).mpr ⟨hs' (23, .msgs SensTestEraTests.schema) (by simp [StorageRecord.schema]), rfl⟩,
      (inner_iff SensCrashData.ok SensCrashData.law 24 l _).mpr ⟨hs' (24, .msgs SensCrashData.schema) (by simp [StorageRecord.schema]), rfl⟩,
      ?_⟩
    show u = _
    rw [hk]
    congr 1
    exact List.filter_congr fun i hi => unknownTop_eq i (hb i hi)

/-- C126: `proto.Unmarshal` accepts exactly the bytes that the grammar has as a message with the required fields, and returns this message. -/
theorem storage_grammar (b : Bytes) (m : StorageRecord) : StorageRecord.unmarshal b = some m ↔ StorageText b m ∧ HasRequired m := by
  have hi : m.initialized = true ↔ HasRequired m := by
    unfold StorageRecord.initialized HasRequired
    simp only [Bool.and_eq_true, Option.isSome_iff_ne_none, and_assoc]
  rw [storageText_iff, ← hi]
  unfold StorageRecord.unmarshal
  cases hg : PB.getMsg StorageRecord.schema b with
  | none => simp
  | some s =>
    simp only [Option.some.injEq]
    by_cases hs : (StorageRecord.ofMsg s).initialized = true
    · rw [if_pos hs, Option.some.injEq]
      exact ⟨fun h => ⟨⟨s, rfl, h⟩, h ▸ hs⟩, fun ⟨⟨s', h1, h2⟩, _⟩ => by rw [h1, h2]⟩
    · rw [if_neg hs]
      refine ⟨fun h => by simp at h, fun ⟨⟨s', h1, h2⟩, h3⟩ => ?_⟩
      rw [h1, h2] at hs
      exact absurd h3 hs

/-- C126, in terms of the decoder of the library: it returns a message exactly for these bytes, and an error for all others. -/
theorem storage_decode_grammar (f2u32OutOfRange : F64 → UInt32) (b : Bytes) : letI : Platform := protobufPlatform f2u32OutOfRange
    (∀ m, storageDecode b = .ok m ↔ StorageText b m ∧ HasRequired m) ∧
      ((∃ m, StorageText b m ∧ HasRequired m) ∨ ∃ m, storageDecode b = .err .proto m) := by
  let _ : Platform := protobufPlatform f2u32OutOfRange
  have hp : ∀ c, Platform.pbUnmarshal c = StorageRecord.unmarshal c := fun _ => rfl
  have e : ∀ m, storageDecode b = .ok m ↔ StorageRecord.unmarshal b = some m := by
    intro m
    unfold storageDecode
    rw [hp]
    cases StorageRecord.unmarshal b <;> simp
  refine ⟨fun m => (e m).trans (storage_grammar b m), ?_⟩
  cases h : StorageRecord.unmarshal b with
  | some m => exact .inl ⟨m, (storage_grammar b m).mp h⟩
  | none =>
    refine .inr ⟨(Platform.pbEmpty : StorageRecord), ?_⟩
    unfold storageDecode
    rw [hp, h]

/-- C126: no bytes are two messages. -/
theorem storage_unambiguous (b : Bytes) (m n : StorageRecord) (hm : StorageText b m) (hn : StorageText b n) : m = n := by
  obtain ⟨s, h1, rfl⟩ := (storageText_iff b m).mp hm
  obtain ⟨t, h2, rfl⟩ := (storageText_iff b n).mp hn
  rw [h1, Option.some.injEq] at h2
  rw [h2]

/-- C126: every message has a text, so the grammar says something about every message with the required fields. -/
theorem storage_text_exists (m : StorageRecord) (hr : m.Required) (hu : m.NoUnknown) (hl : m.wire.length < 18446744073709551616) : StorageText m.wire m :=
  ((storage_grammar m.wire m).mp (StorageRecord.roundtrip m hr hu hl)).1

/-! A message with all the liberties: an unknown group (number 30) around a field with number 2^30, a record number that is there twice, the second in more bytes
than needed and with more than 32 bits, packed reasons, the inner message 8 with its sensor number of the wrong wire type. -/
def liberal : Bytes :=
  [0xf3, 0x01, 0x80, 0x80, 0x80, 0x80, 0x20, 0x07, 0xf4, 0x01, 0x08, 0x03, 0x88, 0x00, 0x85, 0x80, 0x80, 0x80, 0x90, 0x00, 0x15, 1, 2, 3, 4,
    0x1a, 0x03, 0x01, 0x82, 0x01, 0x42, 0x0a, 0x0d, 0, 0, 0, 0, 0x18, 0x2a, 0x18, 0xac, 0x02, 0x25, 0, 0, 0, 0x80, 0x18, 0x07]

example : ∃ m, StorageText liberal m ∧ HasRequired m ∧ m.RecordNumber = some 5 ∧ m.TimeStamp = some 0x04030201 ∧ m.StatusFlags = some 0x80000000 ∧
    m.RecordReason = [1, 130, 7] ∧ m.SensFuelLevel.map (fun x => (x.SensNum, x.Parrots, x.XXX_unrecognized)) = [(none, some 300, [0x0d, 0, 0, 0, 0])] ∧
    m.XXX_unrecognized = [0xf3, 0x01, 0x80, 0x80, 0x80, 0x80, 0x20, 0x07, 0xf4, 0x01] := by
  have h : ∃ m, StorageRecord.unmarshal liberal = some m ∧ m.RecordNumber = some 5 ∧ m.TimeStamp = some 0x04030201 ∧ m.StatusFlags = some 0x80000000 ∧
    m.RecordReason = [1, 130, 7] ∧ m.SensFuelLevel.map (fun x => (x.SensNum, x.Parrots, x.XXX_unrecognized)) = [(none, some 300, [0x0d, 0, 0, 0, 0])] ∧
    m.XXX_unrecognized = [0xf3, 0x01, 0x80, 0x80, 0x80, 0x80, 0x20, 0x07, 0xf4, 0x01] := ⟨_, rfl, by decide +kernel⟩
  obtain ⟨m, h1, h2⟩ := h
  exact ⟨m, ((storage_grammar _ _).mp h1).1, ((storage_grammar _ _).mp h1).2, h2⟩

/-- the same field outside the group is refused -/
example : ¬ ∃ m, StorageText [0x80, 0x80, 0x80, 0x80, 0x20, 0x07] m := by
  rintro ⟨m, h⟩
  obtain ⟨s, hs, _⟩ := (storageText_iff _ _).mp h
  have hn : PB.getMsg StorageRecord.schema [0x80, 0x80, 0x80, 0x80, 0x20, 0x07] = none := by decide +kernel
  rw [hn] at hs
  cases hs

/-- a record number of eleven bytes, a group that is not closed, and a message cut short are refused -/
example : ∀ b ∈ ([[0x08, 0x80, 0x80, 0x80, 0x80, 0x80, 0x80, 0x80, 0x80, 0x80, 0x80, 0x00], [0xf3, 0x01, 0x08, 0x01], [0x15, 1, 2, 3], [0x42, 2, 8]] : List Bytes),
    ¬ ∃ m, StorageText b m := by
  have h : ∀ b ∈ ([[0x08, 0x80, 0x80, 0x80, 0x80, 0x80, 0x80, 0x80, 0x80, 0x80, 0x80, 0x00], [0xf3, 0x01, 0x08, 0x01], [0x15, 1, 2, 3], [0x42, 2, 8]] : List Bytes),
    PB.getMsg StorageRecord.schema b = none := by decide +kernel
  rintro b hb ⟨m, hm⟩
  obtain ⟨s, hs, _⟩ := (storageText_iff _ _).mp hm
  rw [h b hb] at hs
  cases hs

end Egts
