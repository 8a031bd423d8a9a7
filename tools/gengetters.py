# writes lean/Verif/Model/Getters.lean from libs/egts/egts_sr_egtsplus_data.go and the tables of lean/Verif/Spec/Getters.lean from the .proto file
import re
src=open('/repo/libs/egts/egts_sr_egtsplus_data.go',encoding='utf8').read().split('\n')
lean={'uint32':('UInt32','0','.u'),'int32':('Int32','0','.i'),'bool':('Bool','false','.b'),'float32':('UInt32','0','.u')}
o=['''import Verif.Model.StorageRecord
import Verif.Model.Storage
set_option autoImplicit false
/- Model of the getters of libs/egts/egts_sr_egtsplus_data.go. Written by tools/gengetters.py from the Go source. A receiver is an option (`none` is a nil
pointer); a float32 is represented by its bits; a nil slice of messages or reasons is the empty list. -/
namespace Egts
open PB (Val)

/-- what a getter returns: a number, truth value or byte slice (nil is empty); the reasons; for a slice of messages what the getters of each of them return -/
inductive Told where
  | val (v : Val)
  | enums (l : List Int32)
  | msgs (l : List (List (Bytes × Val)))
''']
get=re.compile(r'func \(m \*(\w+)\) Get(\w+)\(\) (\S+) \{')
tab={}
order=[]
i=0
while i<len(src):
    m=get.match(src[i])
    if not m: i+=1; continue
    T,F,ty=m.groups()
    body=[s.strip() for s in src[i+1:i+6]]
    cite=f'egts_sr_egtsplus_data.go:{i+1}-{i+6}'
    if T not in tab: tab[T]=[]; order.append(T)
    if ty in lean:
        lt,z,c=lean[ty]
        # the model below is only written if the text is this one
        assert body==[f'if m != nil && m.{F} != nil {{',f'return *m.{F}','}','return '+z,'}'],(T,F,body)
        o.append(f'/-- {cite} -/\ndef {T}.Get{F} (m : Option {T}) : {lt} :=\n  match m with\n  | some m => (match m.{F} with | some v => v | none => {z})\n  | none => {z}\n')
        tab[T].append((F,f'{c} ({T}.Get{F} m)',ty))
    else:
        assert body==[f'if m != nil {{',f'return m.{F}','}','return nil','}'],(T,F,body)
        if ty=='[]byte':
            o.append(f'/-- {cite} -/\ndef {T}.Get{F} (m : Option {T}) : Option Bytes :=\n  match m with\n  | some m => m.{F}\n  | none => none\n')
            tab[T].append((F,f'.s (({T}.Get{F} m).getD [])',ty))
        else:
            E='Int32' if ty=='[]StorageRecordReason' else re.match(r'\[\]\*(\w+)$',ty).group(1)
            QE=E if E=='Int32' else 'Egts.'+E
            o.append(f'/-- {cite} -/\ndef {T}.Get{F} (m : Option {T}) : List {QE} :=\n  match m with\n  | some m => m.{F}\n  | none => []\n')
            tab[T].append((F,E,ty))
    i+=6
for T in order[1:]:
    o.append(f'/-- the getters of `{T}`, by name -/\ndef {T}.getters (m : Option {T}) : List (Bytes × Val) := [')
    o.append(',\n'.join(f'  (asc "Get{F}", {e})' for F,e,ty in tab[T])+']\n')
T=order[0]
o.append(f'/-- the getters of `{T}`, by name -/\ndef {T}.getters (m : Option {T}) : List (Bytes × Told) := [')
L=[]
for F,e,ty in tab[T]:
    if ty in lean: L.append(f'  (asc "Get{F}", .val ({e}))')
    elif e=='Int32': L.append(f'  (asc "Get{F}", .enums ({T}.Get{F} m))')
    else: L.append(f'  (asc "Get{F}", .msgs (({T}.Get{F} m).map fun x => Egts.{e}.getters (some x)))')
o.append(',\n'.join(L)+']\n')
o.append('end Egts')
open('/verif/lean/Verif/Model/Getters.lean','w').write('\n'.join(o)+'\n')
print(sum(len(v) for v in tab.values()),'getters',len(tab),'types')
