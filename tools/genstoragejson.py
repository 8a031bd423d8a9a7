# writes lean/Verif/Spec/StorageJson.lean from docs/egts_sr_egtsplus_data.proto, and the generated half of Props/StorageJson.lean
import re
src=open('/repo/docs/egts_sr_egtsplus_data.proto',encoding='utf8').read().split('\n')
camel=lambda n:''.join(p[:1].upper()+p[1:] if not p[:1].isdigit() else '_'+p for p in n.split('_'))
msgs=[]; cur=None
for i,l in enumerate(src,1):
    t=l.split('//')[0].strip()
    m=re.match(r'message (\w+)',t)
    if m: cur=dict(name=m.group(1),line=i,fields=[]); msgs.append(cur); continue
    m=re.match(r'(required|optional|repeated)\s+(\S+)\s+(\w+)\s*=\s*(\d+);',t)
    if m: cur['fields'].append((m.group(1),m.group(2),m.group(3),int(m.group(4)))); cur['end']=i+1
con={'uint32':'u','fixed32':'u','float':'u','sint32':'i','sfixed32':'i','bool':'b','bytes':'s'}
subs=[m for m in msgs if m['name']!='storage_record']; top=[m for m in msgs if m['name']=='storage_record'][0]
o=['''import Mathlib.Data.List.Forall2
import Verif.Spec.PackageJson
import Verif.Spec.ProtoWire
import Verif.Model.StorageRecord
set_option autoImplicit false
/- The JSON document of a telematic message, as docs/egts_sr_egtsplus_data.proto names its fields. The tables were written by a script
(tools/genstoragejson.py) from the .proto file alone; the model is written from the tags of the Go code. -/
namespace Egts
open PB (Ty Val)

/-- a field of a message -/
structure ProtoField where
  name : Bytes
  num : Nat
  ty : Ty

/-- a message: its fields, in the order of the .proto file; the value of the field with a number; the fields that are not known -/
structure MsgSpec (T : Type) where
  fields : List ProtoField
  value : T → Nat → Option Val
  unknown : T → Bytes

/-- the value of a field in JSON: numbers, byte strings in base64 (nothing for an empty one) -/
def fieldDoc (D : DocFmt) : Ty → Val → Option Json
  | .float, .u n => some (.num (D.num32 n))
  | _, .u n => some (.num n.toNat)
  | _, .i n => some (.num n.toInt)
  | _, .b x => some (.bool x)
  | _, .s x => if x = [] then none else some (.str (D.bin x))

/-- members that are there -/
def memberDoc (l : List (Bytes × Option Json)) : Json := .obj (l.filterMap fun kv => kv.2.map fun v => (kv.1, v))

/-- the document of a message: the fields that are there, under their names -/
def MsgSpec.doc {T : Type} (S : MsgSpec T) (D : DocFmt) (m : T) : Json :=
  memberDoc (S.fields.map fun f => (f.name, (S.value m f.num).bind (fieldDoc D f.ty)))

/-- the same message on the wire: the fields that are there by their numbers, then those that are not known -/
def MsgSpec.wire {T : Type} (S : MsgSpec T) (m : T) : Bytes :=
  ((List.range 25).flatMap fun n => (S.fields.filter (·.num = n)).flatMap fun f => Proto.optional n f.ty (S.value m n)) ++ S.unknown m

/-- what JSON shows of the value of a field: not the difference between an empty byte string and none, and not the sign of zero -/
def fieldShown : Ty → Val → Option Val
  | .float, .u n => some (.u (if n = 0x80000000 then 0 else n))
  | _, .s x => if x = [] then none else some (.s x)
  | _, v => some v

/-- the messages agree in all known fields, up to `fieldShown` -/
def MsgSpec.Same {T : Type} (S : MsgSpec T) (a b : T) : Prop :=
  ∀ f ∈ S.fields, (S.value a f.num).bind (fieldShown f.ty) = (S.value b f.num).bind (fieldShown f.ty)

/-- JSON shows all of the message: no unknown fields, no empty byte strings, no negative zeros -/
def MsgSpec.Plain {T : Type} (S : MsgSpec T) (m : T) : Prop :=
  S.unknown m = [] ∧ ∀ f ∈ S.fields, (S.value m f.num).bind (fieldShown f.ty) = S.value m f.num

/-- a repeated field: nothing if it is empty -/
def repeatedDoc {α : Type} (d : α → Json) (l : List α) : Option Json := if l = [] then none else some (.arr (l.map d))
''']
def typ(m): return camel(m['name'])
for m in subs:
    T=typ(m)
    o.append(f"/-- message {m['name']}, docs/egts_sr_egtsplus_data.proto:{m['line']}-{m['end']} -/")
    o.append(f"def {T}.spec : MsgSpec {T} where\n  fields := [")
    o.append(',\n'.join(f'    ⟨asc "{n}", {k}, .{ty}⟩' for _,ty,n,k in m['fields'])+']')
    o.append("  value m n := match n with")
    for _,ty,n,k in m['fields']: o.append(f"    | {k} => m.{camel(n)}.map .{con[ty]}")
    o.append("    | _ => none\n  unknown := (·.XXX_unrecognized)\n")
o.append(f"/-- message storage_record, docs/egts_sr_egtsplus_data.proto:{top['line']}-{top['end']} -/")
o.append("def StorageRecord.doc (D : DocFmt) (m : StorageRecord) : Json := memberDoc [")
L=[]
for q,ty,n,k in top['fields']:
    f=camel(n)
    if q=='required': L.append(f'  (asc "{n}", (m.{f}.map .u).bind (fieldDoc D .{ty}))')
    elif ty=='reason': L.append(f'  (asc "{n}", repeatedDoc (fun v => .num v.toInt) m.{f})')
    else:
        assert ty=='nv.'+n
        L.append(f'  (asc "{n}", repeatedDoc ({f}.spec.doc D) m.{f})')
o.append(',\n'.join(L)+']\n')
o.append("/-- the messages agree in all known fields, up to what JSON shows -/")
o.append("def StorageRecord.Same (a b : StorageRecord) : Prop :=")
L=[]
for q,ty,n,k in top['fields']:
    f=camel(n)
    L.append(f'  a.{f} = b.{f}' if not ty.startswith('nv.') else f'  List.Forall₂ {f}.spec.Same a.{f} b.{f}')
o.append(' ∧\n'.join(L)+'\n')
o.append("/-- JSON shows all of the message -/")
o.append("def StorageRecord.Plain (m : StorageRecord) : Prop :=\n  m.XXX_unrecognized = [] ∧")
L=[f'  (∀ x ∈ m.{camel(n)}, {camel(n)}.spec.Plain x)' for q,ty,n,k in top['fields'] if ty.startswith('nv.')]
o.append(' ∧\n'.join(L)+'\n')
o.append("end Egts")
open('/verif/lean/Verif/Spec/StorageJson.lean','w').write('\n'.join(o)+'\n')
# generated lemmas
g=[]
for m in subs:
    T=typ(m)
    mx=max(k for *_,k in m['fields'])
    g.append(f'''theorem {T}.wire_spec (m : {T}) : m.wire = {T}.spec.wire m := by
  wire_spec {T}

theorem {T}.doc_spec (D : DocFmt) (m : {T}) : m.goVal.json D = {T}.spec.doc D m := by
  doc_spec {T}

theorem {T}.ok : {T}.spec.Ok := by
  spec_ok {T}
''')
g.append('''theorem StorageRecord.goVal_doc (D : DocFmt) (m : StorageRecord) : m.goVal.json D = m.doc D := by
  unfold StorageRecord.goVal StorageRecord.doc
  rw [present_json]
  refine congrArg memberDoc ?_
  simp only [List.map_cons, List.map_nil]''')
for i,(q,ty,n,k) in enumerate(top['fields']):
    f=camel(n)
    if q=='required': x='val_u (by decide) _'
    elif ty=='reason': x='val_enums _'
    else: x=f'val_msgs {f}.doc_spec _'
    g.append(f"  refine member_cons ({x}) ?_")
g.append("  rfl\n")
n=len(top['fields'])
g.append('''theorem StorageRecord.doc_iff {D : DocFmt} (hD : D.Reads) (a b : StorageRecord) (ha : a.Finite) (hb : b.Finite) :
    a.doc D = b.doc D ↔ a.Same b := by
  unfold StorageRecord.doc
  rw [memberDoc_iff (by rfl) (by simp only [List.map_cons, List.map_nil]; decide +kernel)]
  simp only [List.cons.injEq, Prod.mk.injEq, true_and, and_true]
  unfold StorageRecord.Same''')
for i,(q,ty,nm,k) in enumerate(top['fields']):
    f=camel(nm)
    if q=='required': x='req_iff (by decide) _ _'
    elif ty=='reason': x='enums_iff _ _'
    elif nm=='sens_fuel_level': x=f'msgs_iff hD {f}.ok _ _ ha hb'
    else: x=f'msgs_iff hD {f}.ok _ _ (fun x _ => {f}.finite x) (fun x _ => {f}.finite x)'
    g.append(f"  refine {'and_congr ' if i<n-1 else ''}({x}) {'?_' if i<n-1 else ''}".rstrip())
g[-1]=g[-1].replace('refine','exact')
g.append('')
g.append('''theorem StorageRecord.same_plain {a b : StorageRecord} (ha : a.Plain) (hb : b.Plain) (h : a.Same b) : a = b := by
  unfold StorageRecord.Plain at ha hb
  unfold StorageRecord.Same at h''')
S=[camel(nm) for q,ty,nm,k in top['fields'] if ty.startswith('nv.')]
pa=', '.join(f'a{i}' for i in range(len(S)+1)); pb=', '.join(f'b{i}' for i in range(len(S)+1))
g.append(f"  obtain ⟨{pa}⟩ := ha\n  obtain ⟨{pb}⟩ := hb")
g.append("  obtain ⟨"+', '.join(f'h{i}' for i in range(n))+"⟩ := h")
for i,f in enumerate(S):
    g.append(f"  have g{i+1} := same_list {f}.ok a{i+1} b{i+1} h{i+n-len(S)}")
g.append("  cases a; cases b\n  simp_all\n")
body=[x for x in subs]
fin=[]
for m in subs:
    T=typ(m)
    if T=='SensFuelLevel': continue
    fin.append(f'''theorem {T}.finite (m : {T}) : {T}.spec.Finite m := by
  intro f hf
  have h : ∀ f ∈ {T}.spec.fields, f.ty ≠ .float := by unfold {T}.spec; decide
  exact fun e => absurd e (h f hf)
''')
k=g.index(next(x for x in g if x.startswith('theorem StorageRecord.goVal_doc')))
g=g[:k]+fin+g[k:]
open('/tmp/w/gen_props.lean','w').write('\n'.join(g))
