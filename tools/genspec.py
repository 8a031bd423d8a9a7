import re
src=open('/repo/docs/egts_sr_egtsplus_data.proto').read()
lines=src.split('\n')
def camel(n):
    # protoc-gen-go CamelCase
    out='';i=0
    t=n
    if t[0]=='_': out='X'; i=1
    while i<len(t):
        c=t[i]
        if c=='_' and i+1<len(t) and t[i+1].islower(): i+=1; continue
        if c.isdigit(): out+=c; i+=1; continue
        if c.islower(): c=c.upper()
        out+=c; i+=1
        while i<len(t) and t[i].islower(): out+=t[i]; i+=1
    return out
msgs=[];cur=None
for i,l in enumerate(lines,1):
    m=re.match(r'message (\w+)',l)
    if m: cur=[m.group(1),i,i,[]]; msgs.append(cur)
    m=re.match(r'\s*(required|optional|repeated)\s+(\S+)\s+(\w+)\s*=\s*(\d+);',l)
    if m: cur[3].append((m.group(1),m.group(2),m.group(3),int(m.group(4)))); 
    if cur: cur[2]=i if l.strip()=='}' else cur[2]
C={'uint32':'u','fixed32':'u','float':'u','sint32':'i','sfixed32':'i','bool':'b','bytes':'s'}
P='docs/egts_sr_egtsplus_data.proto'
o='''import Verif.Lemmas.StorageRecord
set_option autoImplicit false
/- C80: what EGTS_SR_EGTSPLUS_DATA looks like on the wire, message by message, as docs/egts_sr_egtsplus_data.proto says.
Written by a script from the .proto file alone (numbers, types and names; the model is written from the tags of the Go code). -/
namespace Egts
open PB

namespace PB
/-- an optional field on the wire -/
def optional (num : Nat) (t : Ty) (v : Option Val) : Bytes :=
  match v with
  | none => []
  | some v => tag num t.wire ++ putVal t v
/-- a repeated enum on the wire (not packed) -/
def repeatedEnum (num : Nat) (l : List Int32) : Bytes := l.flatMap fun x => tag num 0 ++ putVal .enum (.i x)
/-- a repeated message on the wire -/
def repeatedMsg {T : Type} (num : Nat) (wire : T → Bytes) (l : List T) : Bytes := l.flatMap fun m => tag num 2 ++ putBytes (wire m)

theorem putSubFields_cons (n : Nat) (t : Ty) (sch : SubSchema) (v : Option Val) (vals : List (Option Val)) :
    putSubFields ((n, t) :: sch) (v :: vals) = optional n t v ++ putSubFields sch vals := by
  cases v <;> simp [putSubFields, optional]
theorem putFields_cons (n : Nat) (k : Field) (sch : Schema) (v : Slot) (vals : List Slot) :
    putFields ((n, k) :: sch) (v :: vals) = putSlot n k v ++ putFields sch vals := rfl
theorem putFields_nil : putFields [] [] = [] := rfl
theorem putSlot_one (n : Nat) (t : Ty) (v : Option Val) : putSlot n (.one t) (.one v) = optional n t v := by
  cases v <;> simp [putSlot, optional]
theorem putSlot_msgs {T : Type} (n : Nat) (sch : SubSchema) (toSub : T → Sub) (wire : T → Bytes)
    (h : ∀ m, putSub sch (toSub m) = wire m) (l : List T) :
    putSlot n (.msgs sch) (.msgs (l.map toSub)) = repeatedMsg n wire l := by
  simp [putSlot, repeatedMsg, List.flatMap_map, h]
end PB

'''
names={}
for name,a,b,fs in msgs: names['nv.'+name]=camel(name)
def ren(n): return n
for name,a,b,fs in msgs:
    if name=='storage_record': continue
    k=camel(name); s=sorted(fs,key=lambda x:x[3])
    o+=f'/-- message {name}, {P}:{a}-{b} -/\ndef {k}.wire (m : {k}) : Bytes :=\n  '+' ++\n  '.join(f'optional {x[3]} .{x[1]} (m.{ren(camel(x[2]))}.map .{C[x[1]]})' for x in s)+' ++\n  m.XXX_unrecognized\n\n'
    o+=f'theorem {k}.putSub_wire (m : {k}) : PB.putSub {k}.schema m.toSub = m.wire := by\n  simp [PB.putSub, schema, toSub, wire, putSubFields_cons, putSubFields, List.append_assoc]\n\n'
name,a,b,fs=[m for m in msgs if m[0]=='storage_record'][0]
s=sorted(fs,key=lambda x:x[3])
def f(x):
    r,t,n,num=x
    if t=='reason': return f'repeatedEnum {num} m.{camel(n)}'
    if t.startswith('nv.'): return f'repeatedMsg {num} {names[t]}.wire m.{camel(n)}'
    return f'optional {num} .{t} (m.{camel(n)}.map .{C[t]})'
o+=f'/-- message {name}, {P}:{a}-{b} -/\ndef StorageRecord.wire (m : StorageRecord) : Bytes :=\n  '+' ++\n  '.join(f(x) for x in s)+' ++\n  m.XXX_unrecognized\n\n'
o+='theorem StorageRecord.putMsg_wire (m : StorageRecord) : PB.putMsg StorageRecord.schema m.toMsg = m.wire := by\n  simp only [PB.putMsg, schema, toMsg, wire, putFields_cons, putFields_nil, putSlot_one]\n  rw ['+',\n    '.join(f'putSlot_msgs {x[3]} {names[x[1]]}.schema {names[x[1]]}.toSub {names[x[1]]}.wire {names[x[1]]}.putSub_wire' for x in s if x[1].startswith('nv.'))+']\n  simp only [putSlot, repeatedEnum, List.append_assoc, List.nil_append]\n\n'
req=[camel(x[2]) for x in fs if x[0]=='required']
o+='/-- the fields the .proto file declares as required -/\ndef StorageRecord.Required (m : StorageRecord) : Prop := '+' ∧ '.join(f'm.{x} ≠ none' for x in req)+'\n\nend Egts\n'
open('/verif/lean/Verif/Props/StorageWire.lean','w').write(o)
