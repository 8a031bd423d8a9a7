import Verif.Spec.StorageJson
import Verif.Props.StorageWire
import Verif.Props.FloatDoc
set_option autoImplicit false
/- C110: the JSON form of telematic messages. The lemmas message by message were written by tools/genstoragejson.py. -/
namespace Egts
open PB (Ty Val)
open JsonP

/-! ### members -/

theorem json_filterMap (D : DocFmt) (l : List (Bytes × Option GoVal)) :
    GoVal.jmembers D (l.filterMap fun kv => kv.2.map fun v => (kv.1, v)) =
      (l.map fun kv => (kv.1, kv.2.map (GoVal.json D))).filterMap fun kv => kv.2.map fun v => (kv.1, v) := by
  induction l with
  | nil => rfl
  | cons kv l ih =>
    obtain ⟨k, v⟩ := kv
    cases v with
    | none => simpa using ih
    | some v => simp [GoVal.jmembers, ih]

theorem present_json (D : DocFmt) (l : List (Bytes × Option GoVal)) :
    (present l).json D = memberDoc (l.map fun kv => (kv.1, kv.2.map (GoVal.json D))) := by
  unfold present memberDoc
  rw [GoVal.json, json_filterMap]

theorem member_cons {k : Bytes} {x y : Option Json} {l l' : List (Bytes × Option Json)} (h : x = y) (hl : l = l') :
    (k, x) :: l = (k, y) :: l' := by rw [h, hl]

theorem val_u {D : DocFmt} {t : Ty} (ht : t ≠ .float) (v : Option UInt32) :
    (v.map fun v => GoVal.int v.toNat).map (GoVal.json D) = (v.map Val.u).bind (fieldDoc D t) := by
  cases v with
  | none => rfl
  | some v =>
    cases t <;> first | exact absurd rfl ht | simp [GoVal.json, fieldDoc]

theorem val_i {D : DocFmt} {t : Ty} (v : Option Int32) :
    (v.map fun v => GoVal.int v.toInt).map (GoVal.json D) = (v.map Val.i).bind (fieldDoc D t) := by
  cases v with
  | none => rfl
  | some v => cases t <;> simp [GoVal.json, fieldDoc]

theorem val_b {D : DocFmt} {t : Ty} (v : Option Bool) : (v.map GoVal.bool).map (GoVal.json D) = (v.map Val.b).bind (fieldDoc D t) := by
  cases v with
  | none => rfl
  | some v => cases t <;> simp [GoVal.json, fieldDoc]

theorem val_s {D : DocFmt} {t : Ty} (v : Option Bytes) : (nonEmpty v).map (GoVal.json D) = (v.map Val.s).bind (fieldDoc D t) := by
  match v with
  | none => rfl
  | some [] => cases t <;> simp [nonEmpty, fieldDoc]
  | some (a :: s) => cases t <;> simp [nonEmpty, GoVal.json, fieldDoc]

theorem val_f {D : DocFmt} (v : Option UInt32) : (v.map GoVal.f32).map (GoVal.json D) = (v.map Val.u).bind (fieldDoc D .float) := by
  cases v with
  | none => rfl
  | some v => simp [GoVal.json, fieldDoc]

theorem val_msgs {D : DocFmt} {α : Type} {f : α → GoVal} {d : DocFmt → α → Json} (h : ∀ D x, (f x).json D = d D x) (l : List α) :
    (sliceVal f l).map (GoVal.json D) = repeatedDoc (d D) l := by
  unfold sliceVal repeatedDoc
  cases l with
  | nil => rfl
  | cons a l => simp [GoVal.json, GoVal.jsons, jsons_map, h]

theorem val_enums {D : DocFmt} (l : List Int32) :
    (sliceVal (fun v : Int32 => GoVal.int v.toInt) l).map (GoVal.json D) = repeatedDoc (fun v : Int32 => .num v.toInt) l :=
  val_msgs (f := fun v : Int32 => GoVal.int v.toInt) (d := fun _ v => .num v.toInt) (fun _ _ => rfl) l

/-! ### reading back -/

/-- byte strings and finite float32 can be read back, but for the sign of zero -/
structure DocFmt.Reads (D : DocFmt) : Prop where
  bin : ∀ s t, D.bin s = D.bin t → s = t
  num32 : ∀ a b, f32Finite a = true → f32Finite b = true →
    (D.num32 a = D.num32 b ↔ (if a = 0x80000000 then 0 else a) = if b = 0x80000000 then 0 else b)

/-- the table is sound: the names are different, the values have the types, and they are the message -/
structure MsgSpec.Ok {T : Type} (S : MsgSpec T) : Prop where
  names : (S.fields.map (·.name)).Nodup
  typed : ∀ m, ∀ f ∈ S.fields, ∀ v, S.value m f.num = some v → v.has f.ty
  ext : ∀ a b, (∀ f ∈ S.fields, S.value a f.num = S.value b f.num) → S.unknown a = S.unknown b → a = b

/-- no float is NaN or infinite -/
def MsgSpec.Finite {T : Type} (S : MsgSpec T) (m : T) : Prop :=
  ∀ f ∈ S.fields, f.ty = .float → ∀ n, S.value m f.num = some (.u n) → f32Finite n = true

/-- no fuel level is NaN or infinite -/
def StorageRecord.Finite (m : StorageRecord) : Prop := ∀ x ∈ m.SensFuelLevel, SensFuelLevel.spec.Finite x

theorem memberDoc_iff {l l' : List (Bytes × Option Json)} (hn : l.map (·.1) = l'.map (·.1)) (hd : (l.map (·.1)).Nodup) :
    memberDoc l = memberDoc l' ↔ l = l' := by
  refine ⟨fun h => ?_, fun h => by rw [h]⟩
  unfold memberDoc at h
  replace h := Json.obj.inj h
  induction l generalizing l' with
  | nil =>
    cases l' with
    | nil => rfl
    | cons a l' => simp at hn
  | cons a l ih =>
    cases l' with
    | nil => simp at hn
    | cons b l' =>
      obtain ⟨k, v⟩ := a
      obtain ⟨k', v'⟩ := b
      simp only [List.map_cons, List.cons.injEq] at hn
      obtain ⟨rfl, hn⟩ := hn
      have hd := List.nodup_cons.mp hd
      have no : ∀ (l : List (Bytes × Option Json)), k ∉ l.map (·.1) → ∀ x, (k, x) ∉ l.filterMap fun kv => kv.2.map fun v => (kv.1, v) := by
        intro l hl x hx
        obtain ⟨⟨k1, w⟩, h1, h2⟩ := List.mem_filterMap.mp hx
        refine hl (List.mem_map.mpr ⟨_, h1, ?_⟩)
        cases w with
        | none => cases h2
        | some w => simp at h2; exact h2.1
      cases v with
      | none =>
        cases v' with
        | none =>
          simp only [List.filterMap_cons, Option.map_none] at h
          rw [ih hn hd.2 h]
        | some v' =>
          simp only [List.filterMap_cons, Option.map_none, Option.map_some] at h
          exact absurd (h ▸ List.mem_cons_self) (no l hd.1 v')
      | some v =>
        cases v' with
        | none =>
          simp only [List.filterMap_cons, Option.map_none, Option.map_some] at h
          exact absurd (h ▸ List.mem_cons_self) (no l' (hn ▸ hd.1) v)
        | some v' =>
          simp only [List.filterMap_cons, Option.map_some, List.cons.injEq, Prod.mk.injEq, true_and] at h
          rw [ih hn hd.2 h.2, h.1]

theorem fieldDoc_iff {D : DocFmt} (hD : D.Reads) {t : Ty} (v w : Option Val) (hv : ∀ x, v = some x → x.has t) (hw : ∀ x, w = some x → x.has t)
    (fv : t = .float → ∀ n, v = some (.u n) → f32Finite n = true) (fw : t = .float → ∀ n, w = some (.u n) → f32Finite n = true) :
    v.bind (fieldDoc D t) = w.bind (fieldDoc D t) ↔ v.bind (fieldShown t) = w.bind (fieldShown t) := by
  have bin : ∀ s t, D.bin s = D.bin t ↔ s = t := fun s t => ⟨hD.bin s t, fun h => by rw [h]⟩
  have iInj : ∀ a b : Int32, ((a.toInt : ℚ) = (b.toInt : ℚ)) ↔ a = b := fun a b => by rw [Int.cast_inj, Int32.toInt_inj]
  have uInj : ∀ a b : UInt32, ((a.toNat : ℚ) = (b.toNat : ℚ)) ↔ a = b := fun a b => by rw [Nat.cast_inj, UInt32.toNat_inj]
  by_cases ht : t = .float
  · subst ht
    match v, w, hv, hw, fv, fw with
    | none, none, _, _, _, _ => simp
    | none, some (.u b), _, _, _, _ => simp [fieldDoc, fieldShown]
    | some (.u a), none, _, _, _, _ => simp [fieldDoc, fieldShown]
    | some (.u a), some (.u b), _, _, fv, fw =>
      have := hD.num32 a b (fv rfl a rfl) (fw rfl b rfl)
      simp only [Option.bind_some, fieldDoc, fieldShown, Option.some.injEq, Json.num.injEq, Val.u.injEq]
      exact this
    | some (.i a), _, h, _, _, _ => exact absurd (h _ rfl) (by simp [Val.has])
    | some (.b a), _, h, _, _, _ => exact absurd (h _ rfl) (by simp [Val.has])
    | some (.s a), _, h, _, _, _ => exact absurd (h _ rfl) (by simp [Val.has])
    | _, some (.i a), _, h, _, _ => exact absurd (h _ rfl) (by simp [Val.has])
    | _, some (.b a), _, h, _, _ => exact absurd (h _ rfl) (by simp [Val.has])
    | _, some (.s a), _, h, _, _ => exact absurd (h _ rfl) (by simp [Val.has])
  · clear fv fw
    have nf : ∀ n, fieldDoc D t (.u n) = some (.num n.toNat) := fun n => by cases t <;> first | exact absurd rfl ht | rfl
    have ni : ∀ n, fieldDoc D t (.i n) = some (.num n.toInt) := fun n => by cases t <;> rfl
    have nb : ∀ n, fieldDoc D t (.b n) = some (.bool n) := fun n => by cases t <;> rfl
    have ns : ∀ n, fieldDoc D t (.s n) = if n = [] then none else some (.str (D.bin n)) := fun n => by cases t <;> rfl
    have sf : ∀ n, fieldShown t (.u n) = some (.u n) := fun n => by cases t <;> first | exact absurd rfl ht | rfl
    have si : ∀ n, fieldShown t (.i n) = some (.i n) := fun n => by cases t <;> rfl
    have sb : ∀ n, fieldShown t (.b n) = some (.b n) := fun n => by cases t <;> rfl
    have ss : ∀ n, fieldShown t (.s n) = if n = [] then none else some (.s n) := fun n => by cases t <;> rfl
    have kind : ∀ x y : Val, x.has t → y.has t → (∃ a b, x = .u a ∧ y = .u b) ∨ (∃ a b, x = .i a ∧ y = .i b) ∨ (∃ a b, x = .b a ∧ y = .b b) ∨
        ∃ a b, x = .s a ∧ y = .s b := by
      intro x y hx hy
      cases x <;> cases y <;> cases t <;> simp [Val.has] at hx hy ⊢
    cases v with
    | none =>
      cases w with
      | none => simp
      | some y =>
        cases y with
        | u a => simp [nf, sf]
        | i a => simp [ni, si]
        | b a => simp [nb, sb]
        | s a => simp only [Option.bind_none, Option.bind_some, ns, ss]; split <;> simp
    | some x =>
      cases w with
      | none =>
        cases x with
        | u a => simp [nf, sf]
        | i a => simp [ni, si]
        | b a => simp [nb, sb]
        | s a => simp only [Option.bind_none, Option.bind_some, ns, ss]; split <;> simp
      | some y =>
        rcases kind x y (hv _ rfl) (hw _ rfl) with ⟨a, b, rfl, rfl⟩ | ⟨a, b, rfl, rfl⟩ | ⟨a, b, rfl, rfl⟩ | ⟨a, b, rfl, rfl⟩
        · simp [nf, sf, uInj]
        · simp [ni, si, iInj]
        · simp [nb, sb]
        · simp only [Option.bind_some, ns, ss]
          split <;> split <;> simp [bin]

theorem MsgSpec.doc_iff {T : Type} {S : MsgSpec T} {D : DocFmt} (hD : D.Reads) (hS : S.Ok) (a b : T) (ha : S.Finite a) (hb : S.Finite b) :
    S.doc D a = S.doc D b ↔ S.Same a b := by
  unfold MsgSpec.doc MsgSpec.Same
  rw [memberDoc_iff (by simp [Function.comp_def]) (by simpa [Function.comp_def] using hS.names), List.map_inj_left]
  refine forall₂_congr fun f hf => ?_
  rw [Prod.mk.injEq, fieldDoc_iff hD _ _ (hS.typed a f hf) (hS.typed b f hf) (ha f hf) (hb f hf)]
  simp

theorem forall₂_iff_map {α β : Type} {f : α → β} {R : α → α → Prop} (l l' : List α) (h : ∀ a ∈ l, ∀ b ∈ l', f a = f b ↔ R a b) :
    l.map f = l'.map f ↔ List.Forall₂ R l l' := by
  induction l generalizing l' with
  | nil => cases l' <;> simp
  | cons a l ih =>
    cases l' with
    | nil => simp
    | cons b l' =>
      rw [List.map_cons, List.map_cons, List.cons.injEq, List.forall₂_cons, h a (by simp) b (by simp),
        ih l' fun x hx y hy => h x (by simp [hx]) y (by simp [hy])]

theorem repeated_iff {α : Type} {f : α → Json} (l l' : List α) : repeatedDoc f l = repeatedDoc f l' ↔ l.map f = l'.map f := by
  unfold repeatedDoc
  cases l <;> cases l' <;> simp

theorem msgs_iff {T : Type} {S : MsgSpec T} {D : DocFmt} (hD : D.Reads) (hS : S.Ok) (l l' : List T) (h : ∀ x ∈ l, S.Finite x)
    (h' : ∀ x ∈ l', S.Finite x) : repeatedDoc (S.doc D) l = repeatedDoc (S.doc D) l' ↔ List.Forall₂ S.Same l l' := by
  rw [repeated_iff]
  exact forall₂_iff_map _ _ fun a ha b hb => MsgSpec.doc_iff hD hS a b (h a ha) (h' b hb)

theorem enums_iff (l l' : List Int32) :
    repeatedDoc (fun v : Int32 => .num v.toInt) l = repeatedDoc (fun v : Int32 => .num v.toInt) l' ↔ l = l' := by
  rw [repeated_iff]
  refine ⟨fun h => ?_, fun h => by rw [h]⟩
  refine List.map_injective_iff.mpr ?_ h
  intro a b h
  simp only [Json.num.injEq, Int.cast_inj] at h
  exact Int32.toInt_inj.mp h

theorem req_iff {D : DocFmt} {t : Ty} (ht : t ≠ .float) (v w : Option UInt32) :
    (v.map Val.u).bind (fieldDoc D t) = (w.map Val.u).bind (fieldDoc D t) ↔ v = w := by
  have nf : ∀ n, fieldDoc D t (.u n) = some (.num n.toNat) := fun n => by cases t <;> first | exact absurd rfl ht | rfl
  cases v <;> cases w <;> simp [nf, UInt32.toNat_inj]

theorem MsgSpec.same_plain {T : Type} {S : MsgSpec T} (hS : S.Ok) {a b : T} (ha : S.Plain a) (hb : S.Plain b) (h : S.Same a b) : a = b := by
  refine hS.ext a b (fun f hf => ?_) (by rw [ha.1, hb.1])
  rw [← ha.2 f hf, ← hb.2 f hf]
  exact h f hf

theorem same_list {T : Type} {S : MsgSpec T} (hS : S.Ok) {l l' : List T} (h1 : ∀ x ∈ l, S.Plain x) (h2 : ∀ x ∈ l', S.Plain x)
    (h : List.Forall₂ S.Same l l') : l = l' := by
  induction h with
  | nil => rfl
  | cons hab _ ih =>
    rw [MsgSpec.same_plain hS (h1 _ (by simp)) (h2 _ (by simp)) hab, ih (fun x hx => h1 x (by simp [hx])) (fun x hx => h2 x (by simp [hx]))]

/-! ### message by message -/

local macro "wire_spec" t:ident : tactic => `(tactic| (
  have h : List.range 25 = [0, 1, 2, 3, 4, 5, 6, 7, 8, 9, 10, 11, 12, 13, 14, 15, 16, 17, 18, 19, 20, 21, 22, 23, 24] := rfl
  simp [MsgSpec.wire, $(Lean.mkIdent (t.getId ++ `wire)):ident, $(Lean.mkIdent (t.getId ++ `spec)):ident, h]))

local macro "doc_spec" t:ident : tactic => `(tactic| (
  unfold $(Lean.mkIdent (t.getId ++ `goVal)):ident MsgSpec.doc $(Lean.mkIdent (t.getId ++ `spec)):ident
  rw [present_json]
  refine congrArg memberDoc ?_
  simp only [List.map_cons, List.map_nil]
  repeat' first
    | exact rfl
    | refine member_cons (val_u (by decide) _) ?_
    | refine member_cons (val_i _) ?_
    | refine member_cons (val_b _) ?_
    | refine member_cons (val_s _) ?_
    | refine member_cons (val_f _) ?_))

theorem has_u {t : Ty} (ht : t = .uint32 ∨ t = .fixed32 ∨ t = .float) {o : Option UInt32} : ∀ v, o.map Val.u = some v → v.has t := by
  intro v h
  cases o <;> cases h
  rcases ht with rfl | rfl | rfl <;> trivial
theorem has_i {t : Ty} (ht : t = .sint32 ∨ t = .sfixed32) {o : Option Int32} : ∀ v, o.map Val.i = some v → v.has t := by
  intro v h
  cases o <;> cases h
  rcases ht with rfl | rfl <;> trivial
theorem has_b {o : Option Bool} : ∀ v, o.map Val.b = some v → v.has .bool := by
  intro v h
  cases o <;> cases h
  trivial
theorem has_s {o : Option Bytes} : ∀ v, o.map Val.s = some v → v.has .bytes := by
  intro v h
  cases o <;> cases h
  trivial
theorem mapu_inj (o p : Option UInt32) : o.map Val.u = p.map Val.u ↔ o = p := by cases o <;> cases p <;> simp
theorem mapi_inj (o p : Option Int32) : o.map Val.i = p.map Val.i ↔ o = p := by cases o <;> cases p <;> simp
theorem mapb_inj (o p : Option Bool) : o.map Val.b = p.map Val.b ↔ o = p := by cases o <;> cases p <;> simp
theorem maps_inj (o p : Option Bytes) : o.map Val.s = p.map Val.s ↔ o = p := by cases o <;> cases p <;> simp

local macro "spec_ok" t:ident : tactic => `(tactic| (
  refine ⟨by unfold $(Lean.mkIdent (t.getId ++ `spec)):ident; decide +kernel, fun m => ?_, fun a b h hu => ?_⟩
  · simp only [$(Lean.mkIdent (t.getId ++ `spec)):ident, List.forall_mem_cons, List.not_mem_nil, false_implies, implies_true, and_true]
    repeat' first
      | refine And.intro ?_ ?_
      | exact has_u (by decide)
      | exact has_i (by decide)
      | exact has_b
      | exact has_s
  · simp only [$(Lean.mkIdent (t.getId ++ `spec)):ident, List.forall_mem_cons, List.not_mem_nil, false_implies, implies_true, and_true, mapu_inj, mapi_inj,
      mapb_inj, maps_inj] at h hu
    cases a; cases b
    simp_all))

theorem SensAccelerometerData.wire_spec (m : SensAccelerometerData) : m.wire = SensAccelerometerData.spec.wire m := by
  wire_spec SensAccelerometerData

theorem SensAccelerometerData.doc_spec (D : DocFmt) (m : SensAccelerometerData) : m.goVal.json D = SensAccelerometerData.spec.doc D m := by
  doc_spec SensAccelerometerData

theorem SensAccelerometerData.ok : SensAccelerometerData.spec.Ok := by
  spec_ok SensAccelerometerData

theorem SensAinAinValue.wire_spec (m : SensAinAinValue) : m.wire = SensAinAinValue.spec.wire m := by
  wire_spec SensAinAinValue

theorem SensAinAinValue.doc_spec (D : DocFmt) (m : SensAinAinValue) : m.goVal.json D = SensAinAinValue.spec.doc D m := by
  doc_spec SensAinAinValue

theorem SensAinAinValue.ok : SensAinAinValue.spec.Ok := by
  spec_ok SensAinAinValue

theorem SensBufferData.wire_spec (m : SensBufferData) : m.wire = SensBufferData.spec.wire m := by
  wire_spec SensBufferData

theorem SensBufferData.doc_spec (D : DocFmt) (m : SensBufferData) : m.goVal.json D = SensBufferData.spec.doc D m := by
  doc_spec SensBufferData

theorem SensBufferData.ok : SensBufferData.spec.Ok := by
  spec_ok SensBufferData

theorem SensButtonPressCounter.wire_spec (m : SensButtonPressCounter) : m.wire = SensButtonPressCounter.spec.wire m := by
  wire_spec SensButtonPressCounter

theorem SensButtonPressCounter.doc_spec (D : DocFmt) (m : SensButtonPressCounter) : m.goVal.json D = SensButtonPressCounter.spec.doc D m := by
  doc_spec SensButtonPressCounter

theorem SensButtonPressCounter.ok : SensButtonPressCounter.spec.Ok := by
  spec_ok SensButtonPressCounter

theorem SensCanLogData.wire_spec (m : SensCanLogData) : m.wire = SensCanLogData.spec.wire m := by
  wire_spec SensCanLogData

theorem SensCanLogData.doc_spec (D : DocFmt) (m : SensCanLogData) : m.goVal.json D = SensCanLogData.spec.doc D m := by
  doc_spec SensCanLogData

theorem SensCanLogData.ok : SensCanLogData.spec.Ok := by
  spec_ok SensCanLogData

theorem SensCanLogTmpDataExt.wire_spec (m : SensCanLogTmpDataExt) : m.wire = SensCanLogTmpDataExt.spec.wire m := by
  wire_spec SensCanLogTmpDataExt

theorem SensCanLogTmpDataExt.doc_spec (D : DocFmt) (m : SensCanLogTmpDataExt) : m.goVal.json D = SensCanLogTmpDataExt.spec.doc D m := by
  doc_spec SensCanLogTmpDataExt

theorem SensCanLogTmpDataExt.ok : SensCanLogTmpDataExt.spec.Ok := by
  spec_ok SensCanLogTmpDataExt

theorem SensCounterCount.wire_spec (m : SensCounterCount) : m.wire = SensCounterCount.spec.wire m := by
  wire_spec SensCounterCount

theorem SensCounterCount.doc_spec (D : DocFmt) (m : SensCounterCount) : m.goVal.json D = SensCounterCount.spec.doc D m := by
  doc_spec SensCounterCount

theorem SensCounterCount.ok : SensCounterCount.spec.Ok := by
  spec_ok SensCounterCount

theorem SensCrashData.wire_spec (m : SensCrashData) : m.wire = SensCrashData.spec.wire m := by
  wire_spec SensCrashData

theorem SensCrashData.doc_spec (D : DocFmt) (m : SensCrashData) : m.goVal.json D = SensCrashData.spec.doc D m := by
  doc_spec SensCrashData

theorem SensCrashData.ok : SensCrashData.spec.Ok := by
  spec_ok SensCrashData

theorem SensDinsFlags.wire_spec (m : SensDinsFlags) : m.wire = SensDinsFlags.spec.wire m := by
  wire_spec SensDinsFlags

theorem SensDinsFlags.doc_spec (D : DocFmt) (m : SensDinsFlags) : m.goVal.json D = SensDinsFlags.spec.doc D m := by
  doc_spec SensDinsFlags

theorem SensDinsFlags.ok : SensDinsFlags.spec.Ok := by
  spec_ok SensDinsFlags

theorem SensDoutsFlags.wire_spec (m : SensDoutsFlags) : m.wire = SensDoutsFlags.spec.wire m := by
  wire_spec SensDoutsFlags

theorem SensDoutsFlags.doc_spec (D : DocFmt) (m : SensDoutsFlags) : m.goVal.json D = SensDoutsFlags.spec.doc D m := by
  doc_spec SensDoutsFlags

theorem SensDoutsFlags.ok : SensDoutsFlags.spec.Ok := by
  spec_ok SensDoutsFlags

theorem SensFmeterFrequency.wire_spec (m : SensFmeterFrequency) : m.wire = SensFmeterFrequency.spec.wire m := by
  wire_spec SensFmeterFrequency

theorem SensFmeterFrequency.doc_spec (D : DocFmt) (m : SensFmeterFrequency) : m.goVal.json D = SensFmeterFrequency.spec.doc D m := by
  doc_spec SensFmeterFrequency

theorem SensFmeterFrequency.ok : SensFmeterFrequency.spec.Ok := by
  spec_ok SensFmeterFrequency

theorem SensFuelLevel.wire_spec (m : SensFuelLevel) : m.wire = SensFuelLevel.spec.wire m := by
  wire_spec SensFuelLevel

theorem SensFuelLevel.doc_spec (D : DocFmt) (m : SensFuelLevel) : m.goVal.json D = SensFuelLevel.spec.doc D m := by
  doc_spec SensFuelLevel

theorem SensFuelLevel.ok : SensFuelLevel.spec.Ok := by
  spec_ok SensFuelLevel

theorem SensGsmCellMonotoringCellMonitoring.wire_spec (m : SensGsmCellMonotoringCellMonitoring) : m.wire = SensGsmCellMonotoringCellMonitoring.spec.wire m := by
  wire_spec SensGsmCellMonotoringCellMonitoring

theorem SensGsmCellMonotoringCellMonitoring.doc_spec (D : DocFmt) (m : SensGsmCellMonotoringCellMonitoring) : m.goVal.json D = SensGsmCellMonotoringCellMonitoring.spec.doc D m := by
  doc_spec SensGsmCellMonotoringCellMonitoring

theorem SensGsmCellMonotoringCellMonitoring.ok : SensGsmCellMonotoringCellMonitoring.spec.Ok := by
  spec_ok SensGsmCellMonotoringCellMonitoring

theorem SensNdNavData.wire_spec (m : SensNdNavData) : m.wire = SensNdNavData.spec.wire m := by
  wire_spec SensNdNavData

theorem SensNdNavData.doc_spec (D : DocFmt) (m : SensNdNavData) : m.goVal.json D = SensNdNavData.spec.doc D m := by
  doc_spec SensNdNavData

theorem SensNdNavData.ok : SensNdNavData.spec.Ok := by
  spec_ok SensNdNavData

theorem SensStorInfo.wire_spec (m : SensStorInfo) : m.wire = SensStorInfo.spec.wire m := by
  wire_spec SensStorInfo

theorem SensStorInfo.doc_spec (D : DocFmt) (m : SensStorInfo) : m.goVal.json D = SensStorInfo.spec.doc D m := by
  doc_spec SensStorInfo

theorem SensStorInfo.ok : SensStorInfo.spec.Ok := by
  spec_ok SensStorInfo

theorem SensTermoData.wire_spec (m : SensTermoData) : m.wire = SensTermoData.spec.wire m := by
  wire_spec SensTermoData

theorem SensTermoData.doc_spec (D : DocFmt) (m : SensTermoData) : m.goVal.json D = SensTermoData.spec.doc D m := by
  doc_spec SensTermoData

theorem SensTermoData.ok : SensTermoData.spec.Ok := by
  spec_ok SensTermoData

theorem SensTestEraTests.wire_spec (m : SensTestEraTests) : m.wire = SensTestEraTests.spec.wire m := by
  wire_spec SensTestEraTests

theorem SensTestEraTests.doc_spec (D : DocFmt) (m : SensTestEraTests) : m.goVal.json D = SensTestEraTests.spec.doc D m := by
  doc_spec SensTestEraTests

theorem SensTestEraTests.ok : SensTestEraTests.spec.Ok := by
  spec_ok SensTestEraTests

theorem SensTrackerInfo.wire_spec (m : SensTrackerInfo) : m.wire = SensTrackerInfo.spec.wire m := by
  wire_spec SensTrackerInfo

theorem SensTrackerInfo.doc_spec (D : DocFmt) (m : SensTrackerInfo) : m.goVal.json D = SensTrackerInfo.spec.doc D m := by
  doc_spec SensTrackerInfo

theorem SensTrackerInfo.ok : SensTrackerInfo.spec.Ok := by
  spec_ok SensTrackerInfo

theorem SensAccelerometerData.finite (m : SensAccelerometerData) : SensAccelerometerData.spec.Finite m := by
  intro f hf
  have h : ∀ f ∈ SensAccelerometerData.spec.fields, f.ty ≠ .float := by unfold SensAccelerometerData.spec; decide
  exact fun e => absurd e (h f hf)

theorem SensAinAinValue.finite (m : SensAinAinValue) : SensAinAinValue.spec.Finite m := by
  intro f hf
  have h : ∀ f ∈ SensAinAinValue.spec.fields, f.ty ≠ .float := by unfold SensAinAinValue.spec; decide
  exact fun e => absurd e (h f hf)

theorem SensBufferData.finite (m : SensBufferData) : SensBufferData.spec.Finite m := by
  intro f hf
  have h : ∀ f ∈ SensBufferData.spec.fields, f.ty ≠ .float := by unfold SensBufferData.spec; decide
  exact fun e => absurd e (h f hf)

theorem SensButtonPressCounter.finite (m : SensButtonPressCounter) : SensButtonPressCounter.spec.Finite m := by
  intro f hf
  have h : ∀ f ∈ SensButtonPressCounter.spec.fields, f.ty ≠ .float := by unfold SensButtonPressCounter.spec; decide
  exact fun e => absurd e (h f hf)

theorem SensCanLogData.finite (m : SensCanLogData) : SensCanLogData.spec.Finite m := by
  intro f hf
  have h : ∀ f ∈ SensCanLogData.spec.fields, f.ty ≠ .float := by unfold SensCanLogData.spec; decide
  exact fun e => absurd e (h f hf)

theorem SensCanLogTmpDataExt.finite (m : SensCanLogTmpDataExt) : SensCanLogTmpDataExt.spec.Finite m := by
  intro f hf
  have h : ∀ f ∈ SensCanLogTmpDataExt.spec.fields, f.ty ≠ .float := by unfold SensCanLogTmpDataExt.spec; decide
  exact fun e => absurd e (h f hf)

theorem SensCounterCount.finite (m : SensCounterCount) : SensCounterCount.spec.Finite m := by
  intro f hf
  have h : ∀ f ∈ SensCounterCount.spec.fields, f.ty ≠ .float := by unfold SensCounterCount.spec; decide
  exact fun e => absurd e (h f hf)

theorem SensCrashData.finite (m : SensCrashData) : SensCrashData.spec.Finite m := by
  intro f hf
  have h : ∀ f ∈ SensCrashData.spec.fields, f.ty ≠ .float := by unfold SensCrashData.spec; decide
  exact fun e => absurd e (h f hf)

theorem SensDinsFlags.finite (m : SensDinsFlags) : SensDinsFlags.spec.Finite m := by
  intro f hf
  have h : ∀ f ∈ SensDinsFlags.spec.fields, f.ty ≠ .float := by unfold SensDinsFlags.spec; decide
  exact fun e => absurd e (h f hf)

theorem SensDoutsFlags.finite (m : SensDoutsFlags) : SensDoutsFlags.spec.Finite m := by
  intro f hf
  have h : ∀ f ∈ SensDoutsFlags.spec.fields, f.ty ≠ .float := by unfold SensDoutsFlags.spec; decide
  exact fun e => absurd e (h f hf)

theorem SensFmeterFrequency.finite (m : SensFmeterFrequency) : SensFmeterFrequency.spec.Finite m := by
  intro f hf
  have h : ∀ f ∈ SensFmeterFrequency.spec.fields, f.ty ≠ .float := by unfold SensFmeterFrequency.spec; decide
  exact fun e => absurd e (h f hf)

theorem SensGsmCellMonotoringCellMonitoring.finite (m : SensGsmCellMonotoringCellMonitoring) : SensGsmCellMonotoringCellMonitoring.spec.Finite m := by
  intro f hf
  have h : ∀ f ∈ SensGsmCellMonotoringCellMonitoring.spec.fields, f.ty ≠ .float := by unfold SensGsmCellMonotoringCellMonitoring.spec; decide
  exact fun e => absurd e (h f hf)

theorem SensNdNavData.finite (m : SensNdNavData) : SensNdNavData.spec.Finite m := by
  intro f hf
  have h : ∀ f ∈ SensNdNavData.spec.fields, f.ty ≠ .float := by unfold SensNdNavData.spec; decide
  exact fun e => absurd e (h f hf)

theorem SensStorInfo.finite (m : SensStorInfo) : SensStorInfo.spec.Finite m := by
  intro f hf
  have h : ∀ f ∈ SensStorInfo.spec.fields, f.ty ≠ .float := by unfold SensStorInfo.spec; decide
  exact fun e => absurd e (h f hf)

theorem SensTermoData.finite (m : SensTermoData) : SensTermoData.spec.Finite m := by
  intro f hf
  have h : ∀ f ∈ SensTermoData.spec.fields, f.ty ≠ .float := by unfold SensTermoData.spec; decide
  exact fun e => absurd e (h f hf)

theorem SensTestEraTests.finite (m : SensTestEraTests) : SensTestEraTests.spec.Finite m := by
  intro f hf
  have h : ∀ f ∈ SensTestEraTests.spec.fields, f.ty ≠ .float := by unfold SensTestEraTests.spec; decide
  exact fun e => absurd e (h f hf)

theorem SensTrackerInfo.finite (m : SensTrackerInfo) : SensTrackerInfo.spec.Finite m := by
  intro f hf
  have h : ∀ f ∈ SensTrackerInfo.spec.fields, f.ty ≠ .float := by unfold SensTrackerInfo.spec; decide
  exact fun e => absurd e (h f hf)

theorem StorageRecord.goVal_doc (D : DocFmt) (m : StorageRecord) : m.goVal.json D = m.doc D := by
  unfold StorageRecord.goVal StorageRecord.doc
  rw [present_json]
  refine congrArg memberDoc ?_
  simp only [List.map_cons, List.map_nil]
  refine member_cons (val_u (by decide) _) ?_
  refine member_cons (val_u (by decide) _) ?_
  refine member_cons (val_enums _) ?_
  refine member_cons (val_u (by decide) _) ?_
  refine member_cons (val_msgs SensAccelerometerData.doc_spec _) ?_
  refine member_cons (val_msgs SensAinAinValue.doc_spec _) ?_
  refine member_cons (val_msgs SensBufferData.doc_spec _) ?_
  refine member_cons (val_msgs SensButtonPressCounter.doc_spec _) ?_
  refine member_cons (val_msgs SensCanLogData.doc_spec _) ?_
  refine member_cons (val_msgs SensCanLogTmpDataExt.doc_spec _) ?_
  refine member_cons (val_msgs SensCounterCount.doc_spec _) ?_
  refine member_cons (val_msgs SensCrashData.doc_spec _) ?_
  refine member_cons (val_msgs SensDinsFlags.doc_spec _) ?_
  refine member_cons (val_msgs SensDoutsFlags.doc_spec _) ?_
  refine member_cons (val_msgs SensFmeterFrequency.doc_spec _) ?_
  refine member_cons (val_msgs SensFuelLevel.doc_spec _) ?_
  refine member_cons (val_msgs SensGsmCellMonotoringCellMonitoring.doc_spec _) ?_
  refine member_cons (val_msgs SensNdNavData.doc_spec _) ?_
  refine member_cons (val_msgs SensStorInfo.doc_spec _) ?_
  refine member_cons (val_msgs SensTermoData.doc_spec _) ?_
  refine member_cons (val_msgs SensTestEraTests.doc_spec _) ?_
  refine member_cons (val_msgs SensTrackerInfo.doc_spec _) ?_
  rfl

theorem StorageRecord.doc_iff {D : DocFmt} (hD : D.Reads) (a b : StorageRecord) (ha : a.Finite) (hb : b.Finite) :
    a.doc D = b.doc D ↔ a.Same b := by
  unfold StorageRecord.doc
  rw [memberDoc_iff (by rfl) (by simp only [List.map_cons, List.map_nil]; decide +kernel)]
  simp only [List.cons.injEq, Prod.mk.injEq, true_and, and_true]
  unfold StorageRecord.Same
  refine and_congr (req_iff (by decide) _ _) ?_
  refine and_congr (req_iff (by decide) _ _) ?_
  refine and_congr (enums_iff _ _) ?_
  refine and_congr (req_iff (by decide) _ _) ?_
  refine and_congr (msgs_iff hD SensAccelerometerData.ok _ _ (fun x _ => SensAccelerometerData.finite x) (fun x _ => SensAccelerometerData.finite x)) ?_
  refine and_congr (msgs_iff hD SensAinAinValue.ok _ _ (fun x _ => SensAinAinValue.finite x) (fun x _ => SensAinAinValue.finite x)) ?_
  refine and_congr (msgs_iff hD SensBufferData.ok _ _ (fun x _ => SensBufferData.finite x) (fun x _ => SensBufferData.finite x)) ?_
  refine and_congr (msgs_iff hD SensButtonPressCounter.ok _ _ (fun x _ => SensButtonPressCounter.finite x) (fun x _ => SensButtonPressCounter.finite x)) ?_
  refine and_congr (msgs_iff hD SensCanLogData.ok _ _ (fun x _ => SensCanLogData.finite x) (fun x _ => SensCanLogData.finite x)) ?_
  refine and_congr (msgs_iff hD SensCanLogTmpDataExt.ok _ _ (fun x _ => SensCanLogTmpDataExt.finite x) (fun x _ => SensCanLogTmpDataExt.finite x)) ?_
  refine and_congr (msgs_iff hD SensCounterCount.ok _ _ (fun x _ => SensCounterCount.finite x) (fun x _ => SensCounterCount.finite x)) ?_
  refine and_congr (msgs_iff hD SensCrashData.ok _ _ (fun x _ => SensCrashData.finite x) (fun x _ => SensCrashData.finite x)) ?_
  refine and_congr (msgs_iff hD SensDinsFlags.ok _ _ (fun x _ => SensDinsFlags.finite x) (fun x _ => SensDinsFlags.finite x)) ?_
  refine and_congr (msgs_iff hD SensDoutsFlags.ok _ _ (fun x _ => SensDoutsFlags.finite x) (fun x _ => SensDoutsFlags.finite x)) ?_
  refine and_congr (msgs_iff hD SensFmeterFrequency.ok _ _ (fun x _ => SensFmeterFrequency.finite x) (fun x _ => SensFmeterFrequency.finite x)) ?_
  refine and_congr (msgs_iff hD SensFuelLevel.ok _ _ ha hb) ?_
  refine and_congr (msgs_iff hD SensGsmCellMonotoringCellMonitoring.ok _ _ (fun x _ => SensGsmCellMonotoringCellMonitoring.finite x) (fun x _ => SensGsmCellMonotoringCellMonitoring.finite x)) ?_
  refine and_congr (msgs_iff hD SensNdNavData.ok _ _ (fun x _ => SensNdNavData.finite x) (fun x _ => SensNdNavData.finite x)) ?_
  refine and_congr (msgs_iff hD SensStorInfo.ok _ _ (fun x _ => SensStorInfo.finite x) (fun x _ => SensStorInfo.finite x)) ?_
  refine and_congr (msgs_iff hD SensTermoData.ok _ _ (fun x _ => SensTermoData.finite x) (fun x _ => SensTermoData.finite x)) ?_
  refine and_congr (msgs_iff hD SensTestEraTests.ok _ _ (fun x _ => SensTestEraTests.finite x) (fun x _ => SensTestEraTests.finite x)) ?_
  exact (msgs_iff hD SensTrackerInfo.ok _ _ (fun x _ => SensTrackerInfo.finite x) (fun x _ => SensTrackerInfo.finite x))

theorem StorageRecord.same_plain {a b : StorageRecord} (ha : a.Plain) (hb : b.Plain) (h : a.Same b) : a = b := by
  unfold StorageRecord.Plain at ha hb
  unfold StorageRecord.Same at h
  obtain ⟨a0, a1, a2, a3, a4, a5, a6, a7, a8, a9, a10, a11, a12, a13, a14, a15, a16, a17, a18⟩ := ha
  obtain ⟨b0, b1, b2, b3, b4, b5, b6, b7, b8, b9, b10, b11, b12, b13, b14, b15, b16, b17, b18⟩ := hb
  obtain ⟨h0, h1, h2, h3, h4, h5, h6, h7, h8, h9, h10, h11, h12, h13, h14, h15, h16, h17, h18, h19, h20, h21⟩ := h
  have g1 := same_list SensAccelerometerData.ok a1 b1 h4
  have g2 := same_list SensAinAinValue.ok a2 b2 h5
  have g3 := same_list SensBufferData.ok a3 b3 h6
  have g4 := same_list SensButtonPressCounter.ok a4 b4 h7
  have g5 := same_list SensCanLogData.ok a5 b5 h8
  have g6 := same_list SensCanLogTmpDataExt.ok a6 b6 h9
  have g7 := same_list SensCounterCount.ok a7 b7 h10
  have g8 := same_list SensCrashData.ok a8 b8 h11
  have g9 := same_list SensDinsFlags.ok a9 b9 h12
  have g10 := same_list SensDoutsFlags.ok a10 b10 h13
  have g11 := same_list SensFmeterFrequency.ok a11 b11 h14
  have g12 := same_list SensFuelLevel.ok a12 b12 h15
  have g13 := same_list SensGsmCellMonotoringCellMonitoring.ok a13 b13 h16
  have g14 := same_list SensNdNavData.ok a14 b14 h17
  have g15 := same_list SensStorInfo.ok a15 b15 h18
  have g16 := same_list SensTermoData.ok a16 b16 h19
  have g17 := same_list SensTestEraTests.ok a17 b17 h20
  have g18 := same_list SensTrackerInfo.ok a18 b18 h21
  cases a; cases b
  simp_all
/-! ### reading float32 back -/

theorem f32_bits {a b : UInt32} (h1 : a.toNat / 8388608 = b.toNat / 8388608) (h2 : a.toNat % 8388608 = b.toNat % 8388608) : a = b :=
  UInt32.toNat_inj.mp (by omega)

/-- magnitudes of finite float32 are different for different bits -/
theorem f32Abs_inj {a b : UInt32} (h : f32Abs a = f32Abs b) : a.toNat % 2147483648 = b.toNat % 2147483648 := by
  have p23 : pow2 23 = ((2 ^ 23 : Nat) : ℚ) := rfl
  have p24 : pow2 24 = ((2 ^ 24 : Nat) : ℚ) := rfl
  have key : ∀ c : UInt32, (f32Abs c = ((c.toNat % 8388608 : Nat) : ℚ) * pow2 (-149) ∧ c.toNat / 8388608 % 256 = 0) ∨
      (f32Abs c = ((8388608 + c.toNat % 8388608 : Nat) : ℚ) * pow2 (((c.toNat / 8388608 % 256 : Nat) : Int) - 150) ∧
        1 ≤ c.toNat / 8388608 % 256 ∧ ilog2 (f32Abs c) = ((c.toNat / 8388608 % 256 : Nat) : Int) - 127) := by
    intro c
    by_cases he : c.toNat / 8388608 % 256 = 0
    · left
      refine ⟨?_, he⟩
      unfold f32Abs; simp only; rw [if_pos he]
    · right
      have hv : f32Abs c = ((8388608 + c.toNat % 8388608 : Nat) : ℚ) * pow2 (((c.toNat / 8388608 % 256 : Nat) : Int) - 150) := by
        unfold f32Abs; simp only; rw [if_neg he]
      refine ⟨hv, by omega, ?_⟩
      set E := ((c.toNat / 8388608 % 256 : Nat) : Int) - 150 with hE
      have pE := pow2_pos E
      have hi : ilog2 (f32Abs c) = 23 + E := by
        refine ilog2_unique ?_ ?_
        · rw [hv, pow2_add, p23]
          refine mul_le_mul_of_nonneg_right ?_ pE.le
          exact_mod_cast (by omega : 2 ^ 23 ≤ 8388608 + c.toNat % 8388608)
        · rw [hv, show 23 + E + 1 = 24 + E by ring, pow2_add, p24]
          refine mul_lt_mul_of_pos_right ?_ pE
          exact_mod_cast (by omega : 8388608 + c.toNat % 8388608 < 2 ^ 24)
      omega
  -- a subnormal number is smaller than a normal one
  have mixed : ∀ c d : UInt32, f32Abs c = ((c.toNat % 8388608 : Nat) : ℚ) * pow2 (-149) →
      f32Abs d = ((8388608 + d.toNat % 8388608 : Nat) : ℚ) * pow2 (((d.toNat / 8388608 % 256 : Nat) : Int) - 150) →
      1 ≤ d.toNat / 8388608 % 256 → f32Abs c ≠ f32Abs d := by
    intro c d h1 h2 h3 h
    have hlt : f32Abs c < ((8388608 : Nat) : ℚ) * pow2 (-149) := by
      rw [h1]
      refine mul_lt_mul_of_pos_right ?_ (pow2_pos _)
      exact_mod_cast (by omega : c.toNat % 8388608 < 8388608)
    have hge : ((8388608 : Nat) : ℚ) * pow2 (-149) ≤ f32Abs d := by
      rw [h2]
      refine mul_le_mul ?_ (pow2_mono (by omega)) (pow2_pos _).le (by positivity)
      exact_mod_cast (by omega : 8388608 ≤ 8388608 + d.toNat % 8388608)
    linarith
  have cancel : ∀ (m n : Nat) (e : Int), (m : ℚ) * pow2 e = (n : ℚ) * pow2 e → m = n := by
    intro m n e he
    have := mul_right_cancel₀ (pow2_pos e).ne' he
    exact_mod_cast this
  rcases key a with ⟨a1, a2⟩ | ⟨a1, a2, a3⟩ <;> rcases key b with ⟨b1, b2⟩ | ⟨b1, b2, b3⟩
  · rw [a1, b1] at h
    have := cancel _ _ _ h
    omega
  · exact absurd h (mixed a b a1 b1 b2)
  · exact absurd h.symm (mixed b a b1 a1 a2)
  · have he : a.toNat / 8388608 % 256 = b.toNat / 8388608 % 256 := by
      rw [h, b3] at a3
      omega
    rw [a1, b1, he] at h
    have := cancel _ _ _ h
    omega

/-- the numbers written for float32 values differ, but for the two zeros -/
theorem goNum32_iff (a b : UInt32) : goNum32 a = goNum32 b ↔ (if a = 0x80000000 then 0 else a) = if b = 0x80000000 then 0 else b := by
  have key : ∀ c : UInt32, ∃ v, 0 ≤ v ∧ goNum32 c = (if 2147483648 ≤ c.toNat then -v else v) ∧ rnd32 v = f32Abs c := by
    intro c
    obtain ⟨v, h1, h2, h3, -⟩ := float32_text c
    rw [goNum32_text] at h2
    simp only [Option.some.injEq, Prod.mk.injEq, and_true] at h2
    exact ⟨v, h1, h2, h3⟩
  have r0 : rnd32 0 = 0 := by simp [rnd32]
  have f0 : f32Abs 0 = 0 := by decide +kernel
  have z : ∀ c : UInt32, c.toNat % 2147483648 = 0 → c = 0 ∨ c = 0x80000000 := by
    intro c hc
    have := c.toNat_lt
    rcases (by omega : c.toNat = 0 ∨ c.toNat = 2147483648) with h | h
    · exact .inl (UInt32.toNat_inj.mp h)
    · exact .inr (UInt32.toNat_inj.mp h)
  constructor
  · intro h
    obtain ⟨v, v0, hv, rv⟩ := key a
    obtain ⟨w, w0, hw, rw'⟩ := key b
    rw [hv, hw] at h
    by_cases hvw : v = 0 ∨ w = 0
    · have h0 : v = 0 ∧ w = 0 := by
        split at h <;> split at h <;> rcases hvw with rfl | rfl <;> constructor <;> linarith
      rw [h0.1, r0, ← f0] at rv
      rw [h0.2, r0, ← f0] at rw'
      have ha := z a (f32Abs_inj rv.symm)
      have hb := z b (f32Abs_inj rw'.symm)
      rcases ha with rfl | rfl <;> rcases hb with rfl | rfl <;> rfl
    · have hv0 : 0 < v := lt_of_le_of_ne v0 fun e => hvw (.inl e.symm)
      have hw0 : 0 < w := lt_of_le_of_ne w0 fun e => hvw (.inr e.symm)
      have hs : (2147483648 ≤ a.toNat ↔ 2147483648 ≤ b.toNat) ∧ v = w := by
        split at h <;> split at h <;> first
          | (exfalso; linarith)
          | (next h1 h2 => exact ⟨by simp [h1, h2], by linarith⟩)
      rw [hs.2, rw'] at rv
      have hm := f32Abs_inj rv
      have : a = b := UInt32.toNat_inj.mp (by have := a.toNat_lt; have := b.toNat_lt; omega)
      rw [this]
  · intro h
    have e0 : goNum32 0x80000000 = goNum32 0 := by decide +kernel
    have : ∀ c : UInt32, goNum32 (if c = 0x80000000 then 0 else c) = goNum32 c := by
      intro c
      split
      · next hc => rw [hc, e0]
      · rfl
    rw [← this a, ← this b, h]

theorem goDoc_reads : goDoc.Reads where
  bin s t h := by
    have := base64_decode s
    have h2 := base64_decode t
    have h : base64 s = base64 t := h
    rw [h, h2] at this
    exact (Option.some.inj this).symm
  num32 a b _ _ := goNum32_iff a b

/-! ### C110 -/

theorem StorageRecord.finite_iff (m : StorageRecord) : m.Finite ↔ m.goVal.Writable := by
  rw [storage_writable]
  unfold StorageRecord.Finite MsgSpec.Finite SensFuelLevel.spec
  refine forall₂_congr fun q _ => ?_
  simp only [List.forall_mem_cons, List.not_mem_nil, false_implies, implies_true, and_true, reduceCtorEq, true_implies, Option.map_eq_some_iff,
    Val.u.injEq, exists_eq_right, true_and]

/-- C110: telematic messages in the JSON form of a package are objects with the fields that are there, under the names and with the
types of the .proto file -/
theorem storage_document (D : DocFmt) (m : StorageRecord) : m.goVal.json D = m.doc D := m.goVal_doc D

/-- C110: two messages that have a JSON form have the same one exactly if they agree in all known fields, up to empty byte strings and
the sign of a zero fuel level -/
theorem storage_document_iff {D : DocFmt} (hD : D.Reads) (a b : StorageRecord) (ha : a.goVal.Writable) (hb : b.goVal.Writable) :
    a.doc D = b.doc D ↔ a.Same b :=
  StorageRecord.doc_iff hD a b (a.finite_iff.mpr ha) (b.finite_iff.mpr hb)

theorem storage_doc_head (D : DocFmt) (m : StorageRecord) (h : m.RecordNumber ≠ none) :
    ∃ j l, m.doc D = .obj ((asc "record_number", j) :: l) := by
  cases hn : m.RecordNumber with
  | none => exact absurd hn h
  | some n =>
    unfold StorageRecord.doc memberDoc
    rw [hn]
    exact ⟨_, _, rfl⟩

/-- C110: with the formatting that is modelled, two packages whose EGTS+ messages have a number and are shown completely, whose texts are
UTF-8 and whose floats are float64 numbers, have different texts if they are different -/
theorem package_text_lossless_go_partial (f2u32OutOfRange : F64 → UInt32) (bf : Bool) : letI : Platform := protobufPlatform f2u32OutOfRange
    ∀ (nilRD : ServiceDataRecord → Bool) (p p' : Package) (t : Bytes), p.Msgs (fun m : StorageRecord => m.Plain ∧ m.RecordNumber ≠ none) →
      p'.Msgs (fun m : StorageRecord => m.Plain ∧ m.RecordNumber ≠ none) →
      (p.goVal ⟨StorageRecord.goVal, nilRD⟩).Readable goDoc → (p'.goVal ⟨StorageRecord.goVal, nilRD⟩).Readable goDoc →
      p.toBytes (goFmt bf) ⟨StorageRecord.goVal, nilRD⟩ = some t → p'.toBytes (goFmt bf) ⟨StorageRecord.goVal, nilRD⟩ = some t → p = p' := by
  let _ : Platform := protobufPlatform f2u32OutOfRange
  intro nilRD p p' t hn hn' hr hr' h h'
  refine package_text_lossless_partial (goFmt_ok bf) _ storage_keyed
    (Q := fun m : StorageRecord => m.Plain ∧ m.RecordNumber ≠ none) ⟨?_, ?_⟩ p p' t hn hn' hr hr' h h'
  · intro m hm
    obtain ⟨j, l, e⟩ := storage_doc_head goDoc m hm.2
    exact ⟨j, l, (storage_document goDoc m).trans e⟩
  · intro a b ha hb wa wb h
    refine StorageRecord.same_plain ha.1 hb.1 ((storage_document_iff goDoc_reads a b wa wb).mp ?_)
    rw [← storage_document, ← storage_document]
    exact h

/-- C110: the text of every package that has one is read as its document, with the telematic messages as the .proto file names their
fields -/
theorem package_text_messages (f2u32OutOfRange : F64 → UInt32) (bf : Bool) : letI : Platform := protobufPlatform f2u32OutOfRange
    ∀ (nilRD : ServiceDataRecord → Bool) (p : Package) (t : Bytes), p.toBytes (goFmt bf) ⟨StorageRecord.goVal, nilRD⟩ = some t →
      parse t = some (p.doc goDoc ⟨StorageRecord.doc goDoc, nilRD⟩) := by
  let _ : Platform := protobufPlatform f2u32OutOfRange
  intro nilRD p t h
  have e : (fun m : StorageRecord => m.goVal.json goDoc) = StorageRecord.doc goDoc := funext (storage_document goDoc)
  exact (package_text_go f2u32OutOfRange bf nilRD p t h).trans
    (congrArg (fun f : StorageRecord → Json => some (p.doc goDoc ⟨f, nilRD⟩)) e)

/-- C110: the same values under the numbers of the .proto file on the wire and under its names in JSON, for every kind of submessage -/
theorem storage_names (D : DocFmt) :
    (∀ m : SensAccelerometerData, m.wire = SensAccelerometerData.spec.wire m ∧ m.goVal.json D = SensAccelerometerData.spec.doc D m) ∧
    (∀ m : SensAinAinValue, m.wire = SensAinAinValue.spec.wire m ∧ m.goVal.json D = SensAinAinValue.spec.doc D m) ∧
    (∀ m : SensBufferData, m.wire = SensBufferData.spec.wire m ∧ m.goVal.json D = SensBufferData.spec.doc D m) ∧
    (∀ m : SensButtonPressCounter, m.wire = SensButtonPressCounter.spec.wire m ∧ m.goVal.json D = SensButtonPressCounter.spec.doc D m) ∧
    (∀ m : SensCanLogData, m.wire = SensCanLogData.spec.wire m ∧ m.goVal.json D = SensCanLogData.spec.doc D m) ∧
    (∀ m : SensCanLogTmpDataExt, m.wire = SensCanLogTmpDataExt.spec.wire m ∧ m.goVal.json D = SensCanLogTmpDataExt.spec.doc D m) ∧
    (∀ m : SensCounterCount, m.wire = SensCounterCount.spec.wire m ∧ m.goVal.json D = SensCounterCount.spec.doc D m) ∧
    (∀ m : SensCrashData, m.wire = SensCrashData.spec.wire m ∧ m.goVal.json D = SensCrashData.spec.doc D m) ∧
    (∀ m : SensDinsFlags, m.wire = SensDinsFlags.spec.wire m ∧ m.goVal.json D = SensDinsFlags.spec.doc D m) ∧
    (∀ m : SensDoutsFlags, m.wire = SensDoutsFlags.spec.wire m ∧ m.goVal.json D = SensDoutsFlags.spec.doc D m) ∧
    (∀ m : SensFmeterFrequency, m.wire = SensFmeterFrequency.spec.wire m ∧ m.goVal.json D = SensFmeterFrequency.spec.doc D m) ∧
    (∀ m : SensFuelLevel, m.wire = SensFuelLevel.spec.wire m ∧ m.goVal.json D = SensFuelLevel.spec.doc D m) ∧
    (∀ m : SensGsmCellMonotoringCellMonitoring, m.wire = SensGsmCellMonotoringCellMonitoring.spec.wire m ∧ m.goVal.json D = SensGsmCellMonotoringCellMonitoring.spec.doc D m) ∧
    (∀ m : SensNdNavData, m.wire = SensNdNavData.spec.wire m ∧ m.goVal.json D = SensNdNavData.spec.doc D m) ∧
    (∀ m : SensStorInfo, m.wire = SensStorInfo.spec.wire m ∧ m.goVal.json D = SensStorInfo.spec.doc D m) ∧
    (∀ m : SensTermoData, m.wire = SensTermoData.spec.wire m ∧ m.goVal.json D = SensTermoData.spec.doc D m) ∧
    (∀ m : SensTestEraTests, m.wire = SensTestEraTests.spec.wire m ∧ m.goVal.json D = SensTestEraTests.spec.doc D m) ∧
    (∀ m : SensTrackerInfo, m.wire = SensTrackerInfo.spec.wire m ∧ m.goVal.json D = SensTrackerInfo.spec.doc D m) :=
  ⟨fun m => ⟨m.wire_spec, m.doc_spec D⟩,
    fun m => ⟨m.wire_spec, m.doc_spec D⟩,
    fun m => ⟨m.wire_spec, m.doc_spec D⟩,
    fun m => ⟨m.wire_spec, m.doc_spec D⟩,
    fun m => ⟨m.wire_spec, m.doc_spec D⟩,
    fun m => ⟨m.wire_spec, m.doc_spec D⟩,
    fun m => ⟨m.wire_spec, m.doc_spec D⟩,
    fun m => ⟨m.wire_spec, m.doc_spec D⟩,
    fun m => ⟨m.wire_spec, m.doc_spec D⟩,
    fun m => ⟨m.wire_spec, m.doc_spec D⟩,
    fun m => ⟨m.wire_spec, m.doc_spec D⟩,
    fun m => ⟨m.wire_spec, m.doc_spec D⟩,
    fun m => ⟨m.wire_spec, m.doc_spec D⟩,
    fun m => ⟨m.wire_spec, m.doc_spec D⟩,
    fun m => ⟨m.wire_spec, m.doc_spec D⟩,
    fun m => ⟨m.wire_spec, m.doc_spec D⟩,
    fun m => ⟨m.wire_spec, m.doc_spec D⟩,
    fun m => ⟨m.wire_spec, m.doc_spec D⟩⟩

/-- a message: its document, and two different messages with the same document -/
example : (parse (asc "{\"record_number\":7,\"time_stamp\":5,\"status_flags\":0,\"sens_fuel_level\":[{\"value\":1.5,\"parrots\":3}]}")) =
    some (({ RecordNumber := some 7, TimeStamp := some 5, StatusFlags := some 0, SensFuelLevel := [{ Value := some 0x3FC00000, Parrots := some 3 }] } :
      StorageRecord).doc goDoc) := by kernel_rfl
example : let a : StorageRecord := { RecordNumber := some 7, SensFuelLevel := [{ Value := some 0x80000000, XXX_unrecognized := [64, 1] }], SensBufferData := [{ Data := some [] }] }
    let b : StorageRecord := { RecordNumber := some 7, SensFuelLevel := [{ Value := some 0 }], SensBufferData := [{}] }
    a.Same b ∧ a ≠ b := by
  refine ⟨?_, by simp⟩
  unfold StorageRecord.Same
  refine ⟨rfl, rfl, rfl, rfl, .nil, .nil, .cons ?_ .nil, .nil, .nil, .nil, .nil, .nil, .nil, .nil, .nil, .cons ?_ .nil, .nil, .nil, .nil, .nil, .nil, .nil⟩
  · unfold MsgSpec.Same SensBufferData.spec; decide +kernel
  · unfold MsgSpec.Same SensFuelLevel.spec; decide +kernel

/-- the hypotheses of `package_text_lossless_go_partial` hold for a package with a message -/
example (f2u32OutOfRange : F64 → UInt32) : letI : Platform := protobufPlatform f2u32OutOfRange
    let m : StorageRecord := { RecordNumber := some 7, TimeStamp := some 5, StatusFlags := some 0, SensFuelLevel := [{ Value := some 0x3FC00000 }] }
    let p : Package := { PacketType := 1, ServicesFrameData := some (.appdata [{ RecordDataSet := [{ SubrecordData := some (.storage m) }] }]) }
    p.Msgs (fun m : StorageRecord => m.Plain ∧ m.RecordNumber ≠ none) := by
  intro m p b hb
  cases hb
  intro r hr rd hrd d hd
  rw [List.mem_singleton.mp hr] at hrd
  rw [List.mem_singleton.mp hrd] at hd
  cases hd
  refine ⟨?_, by simp [m]⟩
  unfold StorageRecord.Plain
  refine ⟨rfl, ?_, ?_, ?_, ?_, ?_, ?_, ?_, ?_, ?_, ?_, ?_, ?_, ?_, ?_, ?_, ?_, ?_, ?_⟩ <;> intro x hx <;> first
    | cases hx; done
    | (rw [List.mem_singleton.mp hx]
       refine ⟨rfl, ?_⟩
       unfold SensFuelLevel.spec; decide +kernel)

end Egts
