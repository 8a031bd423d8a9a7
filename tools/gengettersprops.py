# writes lean/Verif/Props/Getters.lean from docs/egts_sr_egtsplus_data.proto
import re
src=open('/repo/docs/egts_sr_egtsplus_data.proto',encoding='utf8').read().split('\n')
camel=lambda n:''.join(p[:1].upper()+p[1:] if not p[:1].isdigit() else '_'+p for p in n.split('_'))
top=[];inn=False
for i,l in enumerate(src,1):
    t=l.split('//')[0].strip()
    m=re.match(r'message (\w+)',t)
    if m: inn=m.group(1)=='storage_record'
    m=re.match(r'(required|optional|repeated)\s+(\S+)\s+(\w+)\s*=\s*(\d+);',t)
    if m and inn: top.append(m.groups())
subs=[(camel(n),int(k)) for q,ty,n,k in top if ty.startswith('nv.')]
o=['''import Verif.Spec.Getters
import Verif.Props.StorageOrder
set_option autoImplicit false
/- C124: the getters of telematic messages tell what has been sent. The parts that go message by message were written by tools/gengettersprops.py. -/
namespace Egts
open PB (Ty Val)
open Proto

/-- what is needed of a kind of message -/
structure MsgSpec.Lawful {T : Type} (S : MsgSpec T) (wire : T → Bytes) (merge : T → T → T) (getters : Option T → List (Bytes × Val)) : Prop where
  empty : ∃ m, S.unknown m = [] ∧ wire m = [] ∧ ∀ n, S.value m n = none
  single : ∀ f ∈ S.fields, ∀ v : Val, v.has f.ty → ∃ m, S.unknown m = [] ∧ wire m = key f.num (wireType f.ty) ++ Proto.value f.ty v ∧
    ∀ n, S.value m n = if f.num = n then some v else none
  merge : ∀ a b n, S.value (merge a b) n = (S.value b n <|> S.value a n)
  told : ∀ m, getters m = S.fields.map fun f => (getterName f.name, (m.bind (S.value · f.num)).getD (zeroVal f.ty))

theorem Sent.last_cons (p : ProtoField × Val) (l : Sent) (n : Nat) :
    Sent.last (p :: l) n = (l.last n <|> if p.1.num = n then some p.2 else none) := by
  unfold Sent.last
  by_cases h : p.1.num = n
  · simp only [List.filterMap_cons, h, if_true]
    cases h2 : (l.filterMap fun p => if p.1.num = n then some p.2 else none).getLast? with
    | none => rw [List.getLast?_eq_none_iff] at h2; rw [h2]; rfl
    | some x => rw [List.getLast?_cons, h2]; rfl
  · simp only [List.filterMap_cons, h, if_false]
    cases (l.filterMap fun p => if p.1.num = n then some p.2 else none).getLast? <;> rfl

/-- the fields that are sent say a message whose values are the last ones -/
theorem sent_says {T : Type} {S : MsgSpec T} {wire : T → Bytes} {merge : T → T → T} {getters : Option T → List (Bytes × Val)}
    (hS : S.Lawful wire merge getters) (l : Sent) (hl : l.Ok S.fields) :
    ∃ m, SubSays wire (S.unknown · = []) merge l.wire m ∧ getters (some m) = l.told S.fields ∧ ∀ n, S.value m n = l.last n := by
  suffices h : ∃ m, SubSays wire (S.unknown · = []) merge l.wire m ∧ ∀ n, S.value m n = l.last n by
    obtain ⟨m, h1, h2⟩ := h
    refine ⟨m, h1, ?_, h2⟩
    rw [hS.told]
    unfold Sent.told
    refine List.map_congr_left fun f _ => ?_
    simp only [Option.bind_some, h2]
  induction l with
  | nil =>
    obtain ⟨m, h1, h2, h3⟩ := hS.empty
    refine ⟨m, ?_, h3⟩
    have := SubSays.fields (wire := wire) (plain := (S.unknown · = [])) (merge := merge) m h1
    rwa [h2] at this
  | cons p l ih =>
    obtain ⟨m, h1, h2⟩ := ih fun q hq => hl q (by simp [hq])
    obtain ⟨s, k1, k2, k3⟩ := hS.single p.1 (hl p (by simp)).1 p.2 (hl p (by simp)).2
    refine ⟨merge s m, ?_, fun n => ?_⟩
    · have := SubSays.append _ _ _ _ (SubSays.fields (wire := wire) (plain := (S.unknown · = [])) (merge := merge) s k1) h1
      rw [k2] at this
      exact this
    · rw [hS.merge, h2, k3, Sent.last_cons]

/-! ### message by message -/

theorem told_u (t : Ty) (h : zeroVal t = .u 0) (o : Option UInt32) : Val.u (match o with | some v => v | none => 0) = (o.map Val.u).getD (zeroVal t) := by
  cases o <;> simp [h]
theorem told_i (t : Ty) (h : zeroVal t = .i 0) (o : Option Int32) : Val.i (match o with | some v => v | none => 0) = (o.map Val.i).getD (zeroVal t) := by
  cases o <;> simp [h]
theorem told_b (o : Option Bool) : Val.b (match o with | some v => v | none => false) = (o.map Val.b).getD (zeroVal .bool) := by
  cases o <;> rfl
theorem told_s (o : Option Bytes) : Val.s (o.getD []) = (o.map Val.s).getD (zeroVal .bytes) := by
  cases o <;> rfl
theorem orElse_map' {α β : Type} (g : α → β) (a b : Option α) : (b <|> a).map g = (b.map g <|> a.map g) := by
  cases b <;> rfl
theorem table_cons {α β : Type} {a c : α} {b d : β} {l l' : List (α × β)} (h1 : c = a) (h2 : b = d) (h3 : l = l') : (a, b) :: l = (c, d) :: l' := by
  rw [h1, h2, h3]

local macro "lawful" t:ident : tactic => `(tactic| (
  constructor
  · exact ⟨{}, rfl, rfl, fun n => by simp only [$(Lean.mkIdent (t.getId ++ `spec)):ident]; split <;> rfl⟩
  · intro f hf v hv
    simp only [$(Lean.mkIdent (t.getId ++ `spec)):ident, List.mem_cons, List.not_mem_nil, or_false] at hf
    SINGLE
  · intro a b n
    simp only [$(Lean.mkIdent (t.getId ++ `spec)):ident, $(Lean.mkIdent (t.getId ++ `merge)):ident]
    split <;> first | exact orElse_map' _ _ _ | rfl
  · intro m
    cases m with
    | none => decide +kernel
    | some m =>
      simp only [$(Lean.mkIdent (t.getId ++ `getters)):ident, $(Lean.mkIdent (t.getId ++ `spec)):ident, List.map_cons, List.map_nil, Option.bind_some]
      repeat' first
        | exact rfl
        | refine table_cons (by decide +kernel) (told_u _ rfl _) ?_
        | refine table_cons (by decide +kernel) (told_i _ rfl _) ?_
        | refine table_cons (by decide +kernel) (told_b _) ?_
        | refine table_cons (by decide +kernel) (told_s _) ?_))
''']
con={'uint32':'u','fixed32':'u','float':'u','sint32':'i','sfixed32':'i','bool':'b','bytes':'s'}
msgs={};cur=None
for i,l in enumerate(src,1):
    t=l.split('//')[0].strip()
    m=re.match(r'message (\w+)',t)
    if m: cur=camel(m.group(1)); msgs[cur]=[]; continue
    m=re.match(r'(required|optional|repeated)\s+(\S+)\s+(\w+)\s*=\s*(\d+);',t)
    if m: msgs[cur].append(m.groups())
head=o[0]
i=head.index('local macro "lawful"')
macro=head[i:].replace("    SINGLE\n","    ")
head=head[:i]
single_i=macro.index("  · intro f hf v hv"); merge_i=macro.index("  · intro a b n")
out=[head,'''theorem val_u {t : Ty} (ht : t = .uint32 ∨ t = .fixed32 ∨ t = .float) {v : Val} (h : v.has t) : ∃ x, v = .u x := by
  rcases ht with rfl | rfl | rfl <;> cases v <;> first | exact ⟨_, rfl⟩ | cases h
theorem val_i {t : Ty} (ht : t = .sint32 ∨ t = .sfixed32) {v : Val} (h : v.has t) : ∃ x, v = .i x := by
  rcases ht with rfl | rfl <;> cases v <;> first | exact ⟨_, rfl⟩ | cases h
theorem val_b {v : Val} (h : v.has .bool) : ∃ x, v = .b x := by
  cases v <;> first | exact ⟨_, rfl⟩ | cases h
theorem val_s {v : Val} (h : v.has .bytes) : ∃ x, v = .s x := by
  cases v <;> first | exact ⟨_, rfl⟩ | cases h
''']
def mk(t): return '''local macro "one_field" t:ident h:ident : tactic => `(tactic| (
  refine ⟨rfl, ?_, fun n => ?_⟩
'''
out.append('''local macro "one_field" t:ident : tactic => `(tactic| (
  refine ⟨rfl, ?_, fun n => ?_⟩
  · simp [$(Lean.mkIdent (t.getId ++ `wire)):ident, Proto.optional]
  · simp only [$(Lean.mkIdent (t.getId ++ `spec)):ident]
    split <;> first | rfl | (simp; done) | (refine (if_neg fun h => ?_).symm; (try simp only at h); subst h; simp_all)))

local macro "merge_law" t:ident : tactic => `(tactic| (
  intro a b n
  simp only [$(Lean.mkIdent (t.getId ++ `spec)):ident, $(Lean.mkIdent (t.getId ++ `merge)):ident]
  split <;> first | exact orElse_map' _ _ _ | rfl))

local macro "told_law" t:ident : tactic => `(tactic| (
  intro m
  cases m with
  | none => decide +kernel
  | some m =>
    simp only [$(Lean.mkIdent (t.getId ++ `getters)):ident, $(Lean.mkIdent (t.getId ++ `spec)):ident, List.map_cons, List.map_nil, Option.bind_some]
    repeat' first
      | exact rfl
      | refine table_cons (by decide +kernel) (told_u _ rfl _) ?_
      | refine table_cons (by decide +kernel) (told_i _ rfl _) ?_
      | refine table_cons (by decide +kernel) (told_b _) ?_
      | refine table_cons (by decide +kernel) (told_s _) ?_))
''')
for T,fs in msgs.items():
    if T=='StorageRecord': continue
    out.append(f'''theorem {T}.lawful : {T}.spec.Lawful {T}.wire {T}.merge {T}.getters where
  empty := ⟨{{}}, rfl, by simp [{T}.wire, Proto.optional], fun n => by simp only [{T}.spec]; split <;> rfl⟩
  single := by
    intro f hf v hv
    simp only [{T}.spec, List.mem_cons, List.not_mem_nil, or_false] at hf
    rcases hf with {' | '.join(['rfl']*len(fs))}''')
    for q,ty,n,k in fs:
        c=con[ty]
        arg='(by decide) hv' if c in 'ui' else 'hv'
        out.append(f'''    · obtain ⟨x, rfl⟩ := val_{c} {arg}
      refine ⟨{{ {camel(n)} := some x }}, ?_⟩
      one_field {T}''')
    out.append(f'''  merge := by merge_law {T}
  told := by told_law {T}
''')
out=[x.replace('val_u','is_u').replace('val_i','is_i').replace('val_b','is_b').replace('val_s','is_s').replace('orElse_map\'','later_map') for x in out]
low=lambda s:s[0].lower()+s[1:]
out.append('''/-! ### the outer message -/

/-- the message `m` is what has been sent as `l` -/
structure SaidBy (l : List Part) (m : StorageRecord) : Prop where
  RecordNumber : m.RecordNumber.map .u = (l.filterMap (Part.value 1)).getLast?
  TimeStamp : m.TimeStamp.map .u = (l.filterMap (Part.value 2)).getLast?
  StatusFlags : m.StatusFlags.map .u = (l.filterMap (Part.value 4)).getLast?
  RecordReason : m.RecordReason = l.flatMap Part.reasons''')
for T,k in subs:
    out.append(f'  {T} : m.{T}.map (fun x => {T}.getters (some x)) = (l.filterMap (Part.inner {k})).map (Sent.told {T}.spec.fields)')
out.append('''
theorem later_sent (f : Part → Option Val) (l l' : List Part) (a b : Option UInt32) (ha : a.map Val.u = (l.filterMap f).getLast?) (hb : b.map Val.u = (l'.filterMap f).getLast?) :
    (b <|> a).map Val.u = ((l ++ l').filterMap f).getLast? := by
  rw [List.filterMap_append, List.getLast?_append, ← ha, ← hb]
  cases b <;> rfl

theorem both_sent {T : Type} (g : T → List (Bytes × Val)) (h : Sent → List (Bytes × Val)) (f : Part → Option Sent) (l l' : List Part) (a b : List T)
    (ha : a.map g = (l.filterMap f).map h) (hb : b.map g = (l'.filterMap f).map h) : (a ++ b).map g = ((l ++ l').filterMap f).map h := by
  rw [List.filterMap_append, List.map_append, List.map_append, ha, hb]

theorem SaidBy.append {l l' : List Part} {a b : StorageRecord} (ha : SaidBy l a) (hb : SaidBy l' b) : SaidBy (l ++ l') (a.merge b) where
  RecordNumber := later_sent _ _ _ _ _ ha.1 hb.1
  TimeStamp := later_sent _ _ _ _ _ ha.2 hb.2
  StatusFlags := later_sent _ _ _ _ _ ha.3 hb.3
  RecordReason := by
    rw [List.flatMap_append, ← ha.4, ← hb.4]
    rfl''')
for T,k in subs:
    out.append(f'  {T} := both_sent _ _ _ _ _ _ _ ha.{T} hb.{T}')
out.append('''
/-- one part -/
theorem part_says (p : Part) (hp : p.Ok) : ∃ m, StorageSays p.wire m ∧ SaidBy [p] m := by
  cases p with
  | one num t v =>
    obtain ⟨⟨name, hm⟩, hv⟩ := hp
    simp only [storageTable, List.mem_cons, Prod.mk.injEq, TopKind.one.injEq, reduceCtorEq, and_false, or_false, false_or, List.not_mem_nil] at hm
    rcases hm with ⟨-, rfl, rfl⟩ | ⟨-, rfl, rfl⟩ | ⟨-, rfl, rfl⟩
    · obtain ⟨x, rfl⟩ := is_u (by decide) hv
      exact ⟨_, .recordNumber x, by constructor <;> rfl⟩
    · obtain ⟨x, rfl⟩ := is_u (by decide) hv
      exact ⟨_, .timeStamp x, by constructor <;> rfl⟩
    · obtain ⟨x, rfl⟩ := is_u (by decide) hv
      exact ⟨_, .statusFlags x, by constructor <;> rfl⟩
  | reason x => exact ⟨_, .reason x, by constructor <;> rfl⟩
  | packed l => exact ⟨_, .packed l, by constructor <;> first | rfl | simp [Part.reasons]⟩
  | unknown num n =>
    obtain ⟨h1, h2, h3, h4⟩ := hp
    have h : num = 5 ∨ num = 6 ∨ 25 ≤ num ∧ num < 2 ^ 29 := by
      simp only [storageTable, List.forall_mem_cons, List.not_mem_nil, false_implies, implies_true, and_true] at h3
      omega
    exact ⟨_, .unknown num n h h4, by constructor <;> rfl⟩
  | msg num l =>
    obtain ⟨name, fields, hm, hl⟩ := hp
    simp only [storageTable, List.mem_cons, Prod.mk.injEq, TopKind.msgs.injEq, reduceCtorEq, and_false, or_false, false_or, List.not_mem_nil] at hm
    rcases hm with '''+' | '.join(['⟨-, rfl, rfl⟩']*len(subs)))
for T,k in subs:
    out.append(f'''    · obtain ⟨m, h1, h2, -⟩ := sent_says {T}.lawful l hl
      exact ⟨_, .{low(T)} _ m h1, by constructor <;> first | rfl | simp [Part.inner, h2]⟩''')
out.append('''
theorem parts_say (l : List Part) (hl : ∀ p ∈ l, p.Ok) : ∃ m, StorageSays (l.flatMap Part.wire) m ∧ SaidBy l m := by
  induction l with
  | nil => exact ⟨{}, .nothing, by constructor <;> rfl⟩
  | cons p l ih =>
    obtain ⟨m, h1, h2⟩ := ih fun q hq => hl q (by simp [hq])
    obtain ⟨a, k1, k2⟩ := part_says p (hl p (by simp))
    refine ⟨a.merge m, ?_, k2.append h2⟩
    rw [List.flatMap_cons]
    exact .append _ _ _ _ k1 h1

theorem told_top_u (t : Ty) (h : zeroVal t = .u 0) (o : Option UInt32) (r : Option Val) :
    o.map Val.u = r → Told.val (.u (match o with | some v => v | none => 0)) = .val (r.getD (zeroVal t)) := by
  rintro rfl
  cases o <;> simp [h]

/-- the getters of a message that is what has been sent tell what they must -/
theorem SaidBy.told {l : List Part} {m : StorageRecord} (h : SaidBy l m) : StorageRecord.getters (some m) = partsTold l := by
  unfold StorageRecord.getters partsTold storageTable
  simp only [List.map_cons, List.map_nil]
  refine table_cons (by decide +kernel) (told_top_u .uint32 rfl _ _ h.RecordNumber) ?_
  refine table_cons (by decide +kernel) (told_top_u .fixed32 rfl _ _ h.TimeStamp) ?_
  refine table_cons (by decide +kernel) (congrArg Told.enums h.RecordReason) ?_
  refine table_cons (by decide +kernel) (told_top_u .fixed32 rfl _ _ h.StatusFlags) ?_''')
for T,k in subs:
    out.append(f'  refine table_cons (by decide +kernel) (congrArg Told.msgs h.{T}) ?_')
out.append('''  rfl

/-- C124: whatever fields of the .proto file are sent, in any order and any number, inner messages and unknown fields among them: if the required ones are there, the message is
accepted, and every getter, by its name, tells the last value sent (reasons and inner messages: all of them, in order; inside of an inner message again the last values), or the
default value if nothing was sent; if a required field is missing, the message is refused. -/
theorem getters_tell (l : List Part) (hl : ∀ p ∈ l, p.Ok) (hb : (l.flatMap Part.wire).length < 2 ^ 64) :
    (requiredSent l → ∃ m, StorageRecord.unmarshal (l.flatMap Part.wire) = some m ∧ StorageRecord.getters (some m) = partsTold l) ∧
    (¬ requiredSent l → StorageRecord.unmarshal (l.flatMap Part.wire) = none) := by
  obtain ⟨m, h1, h2⟩ := parts_say l hl
  have hiff : requiredSent l ↔ m.Required := by
    have key : ∀ (o : Option UInt32) (r : List Val), o.map Val.u = r.getLast? → (r ≠ [] ↔ o ≠ none) := by
      intro o r h
      cases o with
      | none => simp only [Option.map_none] at h; simp [List.getLast?_eq_none_iff.mp h.symm]
      | some x =>
        simp only [Option.map_some] at h
        refine ⟨fun _ => nofun, fun _ hr => ?_⟩
        rw [hr] at h
        cases h
    simp only [requiredSent, List.forall_mem_cons, List.not_mem_nil, false_implies, implies_true, and_true, StorageRecord.Required,
      key _ _ h2.RecordNumber, key _ _ h2.TimeStamp, key _ _ h2.StatusFlags]
  obtain ⟨k1, k2⟩ := storage_any_order h1 (by simpa using hb)
  exact ⟨fun h => ⟨m, k1 (hiff.mp h), h2.told⟩, fun h => k2 (fun h' => h (hiff.mpr h'))⟩

/-- C124: the getters can be called on nil pointers (as on messages without the field): they return the default values -/
theorem getters_nil : StorageRecord.getters none = partsTold [] := by
  unfold StorageRecord.getters partsTold storageTable
  simp only [List.map_cons, List.map_nil]''')
for i in range(22):
    out.append('  refine table_cons (by decide +kernel) rfl ?_')
out.append('  rfl\n')
for T,k in subs:
    out.append(f'''/-- C124: nil pointers to {T} -/
theorem {T}.getters_nil : {T}.getters none = Sent.told {T}.spec.fields [] := by
  rw [{T}.lawful.told]
  rfl
''')
out.append('''/-- a message (test): the flags, two reasons packed, a position whose speed is sent twice, an unknown field, the time, another position, another reason, the number -/
def exParts : List Part := [
  .one 4 .fixed32 (.u 5), .packed [3, 7],
  .msg 7 [(⟨asc "speed", 5, .uint32⟩, .u 60), (⟨asc "longitude", 2, .sfixed32⟩, .i (-373700000)), (⟨asc "speed", 5, .uint32⟩, .u 61)],
  .unknown 99 1, .one 2 .fixed32 (.u 1000), .msg 7 [(⟨asc "latitude", 3, .sfixed32⟩, .i 557000000)], .reason 13, .one 1 .uint32 (.u 8)]

theorem exParts_ok : ∀ p ∈ exParts, p.Ok := by
  simp only [exParts, List.forall_mem_cons, List.not_mem_nil, false_implies, implies_true, and_true]
  refine ⟨⟨⟨asc "status_flags", by simp [storageTable]⟩, trivial⟩, trivial, ⟨asc "sens_nd_nav_data", SensNdNavData.spec.fields, by simp [storageTable], ?_⟩, ?_,
    ⟨⟨asc "time_stamp", by simp [storageTable]⟩, trivial⟩, ⟨asc "sens_nd_nav_data", SensNdNavData.spec.fields, by simp [storageTable], ?_⟩, trivial,
    ⟨asc "record_number", by simp [storageTable]⟩, trivial⟩
  · simp only [Sent.Ok, List.forall_mem_cons, List.not_mem_nil, false_implies, implies_true, and_true]
    refine ⟨⟨by simp [SensNdNavData.spec], trivial⟩, ⟨by simp [SensNdNavData.spec], trivial⟩, by simp [SensNdNavData.spec], trivial⟩
  · refine ⟨by decide, by decide, ?_, by decide⟩
    simp [storageTable]
  · simp only [Sent.Ok, List.forall_mem_cons, List.not_mem_nil, false_implies, implies_true, and_true]
    exact ⟨by simp [SensNdNavData.spec], trivial⟩

/-- the case (test) -/
example : requiredSent exParts ∧
    (partsTold exParts).lookup (asc "GetStatusFlags") = some (.val (.u 5)) ∧ (partsTold exParts).lookup (asc "GetRecordReason") = some (.enums [3, 7, 13]) ∧
    (partsTold exParts).lookup (asc "GetSensFuelLevel") = some (.msgs []) ∧
    (partsTold exParts).lookup (asc "GetSensNdNavData") = some (.msgs [
      [(asc "GetSensNum", .u 0), (asc "GetLongitude", .i (-373700000)), (asc "GetLatitude", .i 0), (asc "GetAltitude", .u 0), (asc "GetSpeed", .u 61),
        (asc "GetCourse", .u 0), (asc "GetSatCount", .u 0), (asc "GetPdop", .u 0), (asc "GetTrack", .u 0), (asc "GetOdometer", .u 0)],
      [(asc "GetSensNum", .u 0), (asc "GetLongitude", .i 0), (asc "GetLatitude", .i 557000000), (asc "GetAltitude", .u 0), (asc "GetSpeed", .u 0),
        (asc "GetCourse", .u 0), (asc "GetSatCount", .u 0), (asc "GetPdop", .u 0), (asc "GetTrack", .u 0), (asc "GetOdometer", .u 0)]]) := by
  refine ⟨?_, rfl, rfl, rfl, rfl⟩
  intro num h
  simp only [List.mem_cons, List.not_mem_nil, or_false] at h
  rcases h with rfl | rfl | rfl <;> nofun
''')
out.append('end Egts')
open('/verif/lean/Verif/Props/Getters.lean','w').write('\n'.join(out)+'\n')
