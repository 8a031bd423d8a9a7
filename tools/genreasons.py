# writes the tables of lean/Verif/Model/Reason.lean (from the Go code) and lean/Verif/Spec/Reason.lean (from the .proto file)
import re
go=open('/repo/libs/egts/egts_sr_egtsplus_data.go',encoding='utf8').read().split('\n')
con=[];nam=[];val=[]
for i,l in enumerate(go,1):
    m=re.match(r'\s+StorageRecord_(\w+)\s+StorageRecordReason = (\d+)',l)
    if m: con.append((i,m.group(1),m.group(2)))
    m=re.match(r'\s+(\d+):\s+"(\w+)",',l)
    if m: nam.append((i,m.group(1),m.group(2)))
    m=re.match(r'\s+"(\w+)":\s+(\d+),',l)
    if m: val.append((i,m.group(1),m.group(2)))
rng=lambda t:f'{t[0][0]}-{t[-1][0]}'
w=lambda t,f:',\n'.join('  '+', '.join(f(x) for x in t[i:i+4]) for i in range(0,len(t),4))
model=f'''import Verif.Model.JsonText
set_option autoImplicit false
/- Model of the reasons of telematic messages, libs/egts/egts_sr_egtsplus_data.go:48-191. The tables were written by tools/genreasons.py from the Go source.
`proto.EnumName` and `proto.UnmarshalJSONEnum` (golang/protobuf 1.5.2, proto/registry.go and proto/defaults.go) are modelled; `json.Unmarshal` into a string and into an int32 is a parameter. -/
namespace Egts

/-- the constants `StorageRecord_…`, egts_sr_egtsplus_data.go:{rng(con)} -/
def reasonConsts : List (Bytes × Int32) := [
{w(con,lambda x:f'(asc "{x[1]}", {x[2]})')}]

/-- the map `StorageRecordReason_name`, egts_sr_egtsplus_data.go:{rng(nam)} -/
def reasonNames : List (Int32 × Bytes) := [
{w(nam,lambda x:f'({x[1]}, asc "{x[2]}")')}]

/-- the map `StorageRecordReason_value`, egts_sr_egtsplus_data.go:{rng(val)} -/
def reasonValues : List (Bytes × Int32) := [
{w(val,lambda x:f'(asc "{x[1]}", {x[2]})')}]

/-- `StorageRecordReason.String`, egts_sr_egtsplus_data.go:180-182; `proto.EnumName`: the name, or the number if there is none -/
def reasonString (x : Int32) : Bytes :=
  match reasonNames.lookup x with
  | some s => s
  | none => intText x.toInt

/-- `json.Unmarshal` into a string that was empty and into an int32 that was 0 -/
structure JsonReader where
  str : Bytes → Option Bytes
  int32 : Bytes → Option Int32

/-- what `UnmarshalJSON` does: panic, or whether there was an error, and the reason afterwards -/
inductive ReasonRead where
  | panic
  | failed (x : Int32)
  | ok (x : Int32)
deriving DecidableEq

/-- `StorageRecordReason.UnmarshalJSON`, egts_sr_egtsplus_data.go:183-190, on a reason that was `x`; `proto.UnmarshalJSONEnum` looks at the first byte without looking
whether there is one; the texts of the errors are not modelled -/
def reasonUnmarshal (J : JsonReader) (x : Int32) (data : Bytes) : ReasonRead :=
  match data with
  | [] => .panic
  | c :: _ =>
    if c = 34 then
      match J.str data with
      | none => .failed x
      | some s =>
        match reasonValues.lookup s with
        | none => .failed x
        | some v => .ok v
    else
      match J.int32 data with
      | none => .failed x
      | some v => .ok v

end Egts
'''
open('/verif/lean/Verif/Model/Reason.lean','w').write(model)
pr=open('/repo/docs/egts_sr_egtsplus_data.proto',encoding='utf8').read().split('\n')
t=[]
for i,l in enumerate(pr,1):
    m=re.match(r'\s+([A-Z_]+)\s*= (\d+);',l)
    if m: t.append((i,m.group(1),m.group(2)))
spec=f'''import Verif.Model.Reason
import Verif.Spec.JsonParse
set_option autoImplicit false
/- The reasons of telematic messages as docs/egts_sr_egtsplus_data.proto has them, and what `json.Unmarshal` is expected to do. -/
namespace Egts

/-- enum reason, docs/egts_sr_egtsplus_data.proto:{rng(t)} (written by tools/genreasons.py from that file) -/
def protoReasons : List (Bytes × Int32) := [
{w(t,lambda x:f'(asc "{x[1]}", {x[2]})')}]

/-- `json.Unmarshal` reads JSON (RFC 8259): a string variable takes a string (this is only said of texts in ASCII); an int32 takes an integer in its range, written without fraction and exponent, stays as it is (0) on null, and
refuses strings, truth values, arrays, objects and other numbers -/
structure JsonReader.Reads (J : JsonReader) : Prop where
  str : ∀ b s, (∀ c ∈ b, c.toNat < 128) → JsonP.parse b = some (.str s) → J.str b = some s
  int32 : ∀ n : Int32, J.int32 (intText n.toInt) = some n
  null : J.int32 (asc "null") = some 0
  other : ∀ b j, JsonP.parse b = some j → J.int32 b = none ∨ (∃ n : Int32, j = .num n.toInt ∧ J.int32 b = some n) ∨ (j = .null ∧ J.int32 b = some 0)

end Egts
'''
open('/verif/lean/Verif/Spec/Reason.lean','w').write(spec)
print(len(con),len(nam),len(val),len(t))
