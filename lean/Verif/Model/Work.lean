import Verif.Model.Records
import Verif.Spec.Frame
set_option autoImplicit false
/- The work of decoding a service data body: how many records and subrecords are read, those that are nested in record responses
included (egts_sr_response.go:33-36 decodes them and throws the result away). The loops are driven by the loop bodies of the model
themselves (`sdsStep`, `rdsStep`): an iteration is counted exactly if the decoder gets to it. -/
namespace Egts
open Frame
variable [P : Platform]

/-- the sum of `cost` over the iterations of `for buf.Len() > 0 { body }`; `cost r` is the cost of an iteration that starts with the
unread bytes `r`. The last iteration is the one that fails, if one does. -/
def loopWork {σ : Type} (body : Dec σ Unit) (cost : Bytes → Nat) : Nat → σ → Bytes → Nat
  | 0, _, _ => 0
  | n + 1, s, r =>
    if r = [] then 0
    else cost r + match body s r with
      | .ok _ s' r' => loopWork body cost n s' r'
      | _ => 0

/-- the content of the subrecord at the beginning of `r`, record_data.go:32-38 (`Next` gives what there is) -/
def contentAt (r : Bytes) : Bytes := (r.drop 3).take (word16At r 1)

/-- one iteration of `(*RecordDataSet).Decode`, record_data.go:26-83: one subrecord, and for a record response (type 0) the nested
service data behind its three bytes, egts_sr_response.go:23-36; `nested` is their work -/
def subWork (nested : Bytes → Nat) (r : Bytes) : Nat :=
  1 + if byteAt r 0 = 0 ∧ 3 ≤ (contentAt r).length then nested ((contentAt r).drop 3) else 0

/-- `(*RecordDataSet).Decode`, record_data.go:20-87 -/
def rdsWork (nested : Bytes → Nat) (b : Bytes) : Nat :=
  loopWork (rdsStep nestedDecode) (subWork nested) b.length [] b

/-- length of the header of the record at the beginning of `r`: seven bytes and four for each optional field,
service_data_records.go:42-95 -/
def recordHeaderLen (r : Bytes) : Nat :=
  7 + (if (byteAt r 4).toNat.testBit 0 then 4 else 0) + (if (byteAt r 4).toNat.testBit 1 then 4 else 0) +
    (if (byteAt r 4).toNat.testBit 2 then 4 else 0)

/-- the record data of the record at the beginning of `r`: a buffer of the announced length, filled with what there is,
service_data_records.go:99-100 -/
def recordData (r : Bytes) : Bytes :=
  let d := (r.drop (recordHeaderLen r)).take (word16At r 0)
  d ++ zeros (word16At r 0 - d.length)

/-- one iteration of `(*ServiceDataSet).Decode`, service_data_records.go:40-111: one record, and the subrecords in its data if there is
anything behind the header (line 97) -/
def recordWork (nested : Bytes → Nat) (r : Bytes) : Nat :=
  1 + if recordHeaderLen r < r.length then rdsWork nested (recordData r) else 0

/-- `(*ServiceDataSet).Decode`, service_data_records.go:33-113, with at most `n` levels of nesting -/
def sdsWork : Nat → Bytes → Nat
  | 0, _ => 0
  | n + 1, b => loopWork (sdsStep nestedDecode) (recordWork (sdsWork n)) b.length [] b

/-- the number of records and subrecords read when the body `b` is decoded (there are never more levels than nonzero bytes, `nestedDecode`) (the loops of libs/egts/service_data_records.go:33-113 and record_data.go:20-87) -/
def work (b : Bytes) : Nat := sdsWork (nz b + 1) b

end Egts
