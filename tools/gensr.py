import re
src=open('/repo/libs/egts/egts_sr_egtsplus_data.go').read()
msgs={}
for m in re.finditer(r'type (\w+) struct \{(.*?)\n\}',src,re.S):
    l0=src[:m.start()].count('\n')+1; l1=src[:m.end()].count('\n')+1
    fs=[]
    for t in re.finditer(r'(\w+)\s+(\S+)\s+`protobuf:"([^"]*)"',m.group(2)):
        n,gt,tag=t.groups(); p=tag.split(',')
        fs.append((n,gt,p[0],int(p[1]),p[2]))
    msgs[m.group(1)]=(l0,l1,fs)
def ty(gt,w):
    if gt=='*bool': return 'bool','Bool','b'
    if gt=='[]byte': return 'bytes','Bytes','s'
    if w=='zigzag32': return 'sint32','Int32','i'
    if w=='varint' and gt=='*uint32': return 'uint32','UInt32','u'
    if w=='fixed32' and gt=='*uint32': return 'fixed32','UInt32','u'
    if w=='fixed32' and gt=='*int32': return 'sfixed32','Int32','i'
    if w=='fixed32' and gt=='*float32': return 'float','UInt32','u'
    raise Exception((gt,w))
F='egts_sr_egtsplus_data.go'
o='''import Verif.Go.Protobuf
import Verif.Model.Records
set_option autoImplicit false
/- Model of libs/egts/egts_sr_egtsplus_data.go (generated from docs/egts_sr_egtsplus_data.proto): the messages of the
subrecord EGTS_SR_EGTSPLUS_DATA. This file was written by a script from the struct definitions and their `protobuf` tags;
schemas are sorted by field number, the order in which the library writes fields. Pointers to scalars and byte slices
are options; a float32 is represented by its bits; `XXX_unrecognized` holds the unknown fields. The getters and the
descriptor are not modelled. -/
namespace Egts
open PB (Val)

namespace PB
def Val.asU : Val → Option UInt32
  | .u n => some n
  | _ => none
def Val.asI : Val → Option Int32
  | .i n => some n
  | _ => none
def Val.asB : Val → Option Bool
  | .b n => some n
  | _ => none
def Val.asS : Val → Option Bytes
  | .s n => some n
  | _ => none
def Slot.val : Slot → Option Val
  | .one v => v
  | _ => none
def Slot.reasons : Slot → List Int32
  | .enums l => l
  | _ => []
def Slot.subs : Slot → List Sub
  | .msgs l => l
  | _ => []
end PB

'''
subs=[k for k in msgs if k!='StorageRecord']
up={'u':'U','i':'I','b':'B','s':'S'}
lem=''
for k in subs:
    l0,l1,fs=msgs[k]
    o+=f'/-- `{k}`, {F}:{l0}-{l1} -/\nstructure {k} where\n'
    for n,gt,w,num,r in fs: o+=f'  {n} : Option {ty(gt,w)[1]} := none\n'
    o+='  XXX_unrecognized : Bytes := []\nderiving DecidableEq\n\n'
    s=sorted(fs,key=lambda x:x[3])
    o+=f'/-- the `protobuf` tags of {F}:{l0}-{l1} -/\ndef {k}.schema : PB.SubSchema :=\n  ['+', '.join(f'({x[3]}, .{ty(x[1],x[2])[0]})' for x in s)+']\n\n'
    o+=f'def {k}.toSub (m : {k}) : PB.Sub where\n  vals := ['+', '.join(f'm.{x[0]}.map .{ty(x[1],x[2])[2]}' for x in s)+']\n  unknown := m.XXX_unrecognized\n\n'
    vs=[f'v{x[3]}' for x in s]
    o+=f'def {k}.ofSub (s : PB.Sub) : {k} :=\n  match s.vals with\n  | ['+', '.join(vs)+'] =>\n    { '+', '.join(f'{x[0]} := v{x[3]}.bind Val.as{up[ty(x[1],x[2])[2]]}' for x in s)+f'\n      XXX_unrecognized := s.unknown }}\n  | _ => {{}}\n\n'
    lem+=f'theorem {k}.ofSub_toSub (m : {k}) : {k}.ofSub m.toSub = m := by\n  cases m; simp [ofSub, toSub]\n\n'
    lem+=f'theorem {k}.toSub_ofSub (s : PB.Sub) (h : PB.SubTyped schema s.vals) : ({k}.ofSub s).toSub = s := by\n  obtain ⟨vals, u⟩ := s\n  simp only [schema, PB.SubTyped] at h\n'
    cur='h'
    for x in s:
        lem+=f'  cases {cur} with\n  | @cons _ v{x[3]} _ _ h{x[3]} t{x[3]} =>\n'
        cur=f't{x[3]}'
    lem+=f'  cases {cur}\n  simp only [ofSub, toSub, '+', '.join(f'PB.map_as{up[ty(x[1],x[2])[2]]}_{ty(x[1],x[2])[0]} h{x[3]}' for x in s)+']\n\n'
    lem+=f'theorem {k}.typed (m : {k}) : PB.SubTyped schema m.toSub.vals := by\n  simp only [schema, toSub, PB.SubTyped]\n  refine '
    lem+=' ('.join(f'.cons (PB.map_has_{ty(x[1],x[2])[0]} _)' for x in s)+' .nil'+')'*(len(s)-1)+'\n\n'
    lem+=f'theorem {k}.schema_ok : PB.SchOk {k}.schema := by\n  unfold PB.SchOk; decide\n\n'
l0,l1,fs=msgs['StorageRecord']
o+=f'/-- `StorageRecord`, {F}:{l0}-{l1} -/\nstructure StorageRecord where\n'
for n,gt,w,num,r in fs:
    if gt.startswith('[]*'): o+=f'  {n} : List {gt[3:]} := []\n'
    elif gt.startswith('[]Stor'): o+=f'  {n} : List Int32 := []\n'
    else: o+=f'  {n} : Option UInt32 := none\n'
o+='  XXX_unrecognized : Bytes := []\nderiving DecidableEq\n\n'
s=sorted(fs,key=lambda x:x[3])
def fld(x):
    if x[1].startswith('[]*'): return f'.msgs {x[1][3:]}.schema'
    if x[1].startswith('[]S'): return '.enums'
    return '.one .'+ty(x[1],x[2])[0]
o+=f'/-- the `protobuf` tags of {F}:{l0}-{l1} -/\ndef StorageRecord.schema : PB.Schema :=\n  ['+',\n    '.join(f'({x[3]}, {fld(x)})' for x in s)+']\n\n'
def tos(x):
    if x[1].startswith('[]*'): return f'.msgs (m.{x[0]}.map {x[1][3:]}.toSub)'
    if x[1].startswith('[]S'): return f'.enums m.{x[0]}'
    return f'.one (m.{x[0]}.map .{ty(x[1],x[2])[2]})'
def ofs(x):
    v=f'v{x[3]}'
    if x[1].startswith('[]*'): return f'{x[0]} := {v}.subs.map {x[1][3:]}.ofSub'
    if x[1].startswith('[]S'): return f'{x[0]} := {v}.reasons'
    return f'{x[0]} := {v}.val.bind Val.asU'
o+='def StorageRecord.toMsg (m : StorageRecord) : List PB.Slot × Bytes :=\n  (['+',\n    '.join(tos(x) for x in s)+'],\n   m.XXX_unrecognized)\n\n'
o+='def StorageRecord.ofMsg (s : List PB.Slot × Bytes) : StorageRecord :=\n  match s.1 with\n  | ['+', '.join(f'v{x[3]}' for x in s)+'] =>\n    { '+'\n      '.join(ofs(x) for x in s)+'\n      XXX_unrecognized := s.2 }\n  | _ => {}\n\n'
o+=f'''/-- all `req` fields of the tags are set -/
def StorageRecord.initialized (m : StorageRecord) : Bool := m.RecordNumber.isSome && m.TimeStamp.isSome && m.StatusFlags.isSome

/-- `proto.Unmarshal(content, m)`, {F}:241-243: fails if a required field is missing. -/
def StorageRecord.unmarshal (b : Bytes) : Option StorageRecord :=
  match PB.getMsg StorageRecord.schema b with
  | none => none
  | some s => if (StorageRecord.ofMsg s).initialized then some (StorageRecord.ofMsg s) else none

/-- `proto.Marshal(m)`, {F}:245-247: fails if a required field is missing. -/
def StorageRecord.marshal (m : StorageRecord) : Option Bytes :=
  if m.initialized then some (PB.putMsg StorageRecord.schema m.toMsg) else none

/-- the external behaviour of the model with the protobuf library filled in -/
@[reducible] def protobufPlatform (f2u32OutOfRange : F64 → UInt32) : Platform where
  PBMsg := StorageRecord
  pbEmpty := {{}}
  pbUnmarshal := StorageRecord.unmarshal
  pbMarshal := StorageRecord.marshal
  f2u32OutOfRange := f2u32OutOfRange

end Egts
'''
open('/verif/lean/Verif/Model/StorageRecord.lean','w').write(o)
L='''import Verif.Model.StorageRecord
import Verif.Lemmas.Protobuf
set_option autoImplicit false
/- The structures of Model/StorageRecord correspond to the messages of their schemas (written by the same script). -/
namespace Egts

namespace PB
@[simp] theorem map_u_bind (x : Option UInt32) : (x.map Val.u).bind Val.asU = x := by cases x <;> rfl
@[simp] theorem map_i_bind (x : Option Int32) : (x.map Val.i).bind Val.asI = x := by cases x <;> rfl
@[simp] theorem map_b_bind (x : Option Bool) : (x.map Val.b).bind Val.asB = x := by cases x <;> rfl
@[simp] theorem map_s_bind (x : Option Bytes) : (x.map Val.s).bind Val.asS = x := by cases x <;> rfl
'''
for t,c in [('uint32','u'),('fixed32','u'),('float','u'),('sint32','i'),('sfixed32','i'),('enum','i'),('bool','b'),('bytes','s')]:
    C=up[c]; T={'u':'UInt32','i':'Int32','b':'Bool','s':'Bytes'}[c]
    L+=f'''theorem map_as{C}_{t} {{v : Option Val}} (h : ∀ x, v = some x → x.has .{t}) : (v.bind Val.as{C}).map Val.{c} = v := by
  cases v with
  | none => rfl
  | some x => have := h x rfl; cases x <;> first | rfl | (simp [Val.has] at this)
theorem map_has_{t} (x : Option {T}) : ∀ y, x.map Val.{c} = some y → y.has .{t} := by
  cases x <;> simp [Val.has]
'''
L+='end PB\n\n'+lem
# top
L+='theorem StorageRecord.ofMsg_toMsg (m : StorageRecord) : StorageRecord.ofMsg m.toMsg = m := by\n  cases m\n  simp only [ofMsg, toMsg, PB.Slot.val, PB.Slot.reasons, PB.Slot.subs, PB.map_u_bind, List.map_map]\n  congr 1 <;> (rw [List.map_congr_left (g := id)]; · simp\n               intro x _; first | '+' | '.join(f'exact {k}.ofSub_toSub x' for k in subs)+')\n\n'
L+='''theorem PB.subs_inv {T : Type} (sch : PB.SubSchema) (toSub : T → PB.Sub) (ofSub : PB.Sub → T)
    (hi : ∀ s : PB.Sub, PB.SubTyped sch s.vals → toSub (ofSub s) = s) (v : PB.Slot) (h : PB.SlotTyped (.msgs sch) v) :
    PB.Slot.msgs ((v.subs.map ofSub).map toSub) = v := by
  cases v with
  | msgs l =>
    simp only [PB.Slot.subs, List.map_map]
    rw [List.map_congr_left (g := id)]
    · simp
    · intro s hs
      exact hi s (h s hs).1
  | one v => exact absurd h (by simp [PB.SlotTyped])
  | enums l => exact absurd h (by simp [PB.SlotTyped])

theorem PB.one_inv_uint32 (v : PB.Slot) (h : PB.SlotTyped (.one .uint32) v) :
    PB.Slot.one ((v.val.bind PB.Val.asU).map .u) = v := by
  cases v with
  | one v => simp only [PB.Slot.val]; rw [PB.map_asU_uint32 h]
  | msgs l => exact absurd h (by simp [PB.SlotTyped])
  | enums l => exact absurd h (by simp [PB.SlotTyped])

theorem PB.one_inv_fixed32 (v : PB.Slot) (h : PB.SlotTyped (.one .fixed32) v) :
    PB.Slot.one ((v.val.bind PB.Val.asU).map .u) = v := by
  cases v with
  | one v => simp only [PB.Slot.val]; rw [PB.map_asU_fixed32 h]
  | msgs l => exact absurd h (by simp [PB.SlotTyped])
  | enums l => exact absurd h (by simp [PB.SlotTyped])

theorem PB.enums_inv (v : PB.Slot) (h : PB.SlotTyped .enums v) : PB.Slot.enums v.reasons = v := by
  cases v with
  | enums l => rfl
  | msgs l => exact absurd h (by simp [PB.SlotTyped])
  | one v => exact absurd h (by simp [PB.SlotTyped])

'''
def inv(x):
    if x[1].startswith('[]*'):
        k=x[1][3:]; return f'PB.subs_inv _ {k}.toSub {k}.ofSub {k}.toSub_ofSub v{x[3]} h{x[3]}'
    if x[1].startswith('[]S'): return f'PB.enums_inv v{x[3]} h{x[3]}'
    return f'PB.one_inv_{ty(x[1],x[2])[0]} v{x[3]} h{x[3]}'
L+='theorem StorageRecord.toMsg_ofMsg (s : List PB.Slot × Bytes) (h : PB.MsgTyped schema s.1) : (StorageRecord.ofMsg s).toMsg = s := by\n  obtain ⟨vals, u⟩ := s\n  simp only [schema, PB.MsgTyped] at h\n'
cur='h'
for x in s:
    L+=f'  cases {cur} with\n  | @cons _ v{x[3]} _ _ h{x[3]} t{x[3]} =>\n'
    cur=f't{x[3]}'
L+=f'  cases {cur}\n  simp only [ofMsg, toMsg]\n  rw ['+',\n    '.join(inv(x) for x in s)+']\n\n'
L+='theorem StorageRecord.schema_ok : PB.SchOk StorageRecord.schema := by\n  unfold PB.SchOk\n  refine ⟨by decide, ?_⟩\n  intro p hp\n  simp only [schema, List.mem_cons, List.not_mem_nil, or_false] at hp\n  rcases hp with '+' | '.join(['rfl']*len(s))+' <;> simp\n\n'
L+='theorem StorageRecord.fields_ok : ∀ p ∈ StorageRecord.schema, p.2.Ok := by\n  intro p hp\n  simp only [schema, List.mem_cons, List.not_mem_nil, or_false] at hp\n  rcases hp with '+' | '.join(['rfl']*len(s))+' <;> trivial\n\nend Egts\n'
open('/verif/lean/Verif/Lemmas/StorageRecord.lean','w').write(L)
