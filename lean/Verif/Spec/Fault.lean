import Verif.Spec.Readable
set_option autoImplicit false
/- What is wrong with a body that the library does not take for records, from the bytes alone: nothing of the model of the code is used here. The fault is the first one, read
from left to right; a part that ends early is read as Spec/Readable says. -/
namespace Egts.Frame

/-- what a body is rejected for -/
inductive Fault where
  /-- the bytes end where a field has to begin -/
  | ends
  /-- an analog sensor with less than four bytes -/
  | size
  /-- subrecord type `t`, which the library does not know, of announced length `n` and with content `c` -/
  | unknown (t : UInt8) (n : Nat) (c : Bytes)
  /-- a subrecord of type 20 whose announced length `n` is not 5 -/
  | accel (n : Nat) (c : Bytes)
  /-- the content is not a telematic message -/
  | telematic

/-- the subrecord types that the library knows -/
def handledTypes : List UInt8 := [0, 1, 5, 7, 9, 15, 16, 17, 18, 19, 20, 21, 24, 25, 27]

/-- faults of a content that are not faults of records inside it; `n` is the length that the subrecord announces -/
def PlainFault (T : Bytes → Prop) (t : UInt8) (n : Nat) (c : Bytes) : Fault → Prop
  | .unknown t' n' c' => t ∉ handledTypes ∧ t' = t ∧ n' = n ∧ c' = c
  | .accel n' c' => t = 20 ∧ n ≠ 5 ∧ n' = n ∧ c' = c
  | .telematic => t = 15 ∧ ¬ T c
  | .size => t = 24 ∧ c.length < 4
  | .ends => t = 0 ∧ c.length < 3 ∨ t = 20 ∧ n = 5 ∧ c.length < 5 ∨ t ∈ [1, 5, 7, 9, 16, 17, 18, 19, 21, 25, 27] ∧ ¬ Plain T t n c

mutual
/-- faults of the content of a subrecord of type `t` that announces `n` bytes -/
inductive ContentFault (T : Bytes → Prop) : UInt8 → Nat → Bytes → Fault → Prop
  | plain {t : UInt8} {n : Nat} {c : Bytes} {f : Fault} (h : PlainFault T t n c f) : ContentFault T t n c f
  /-- the records in a confirmation have a fault -/
  | inner {n : Nat} {h c : Bytes} {f : Fault} (hl : h.length = 3) (hc : RecordsFault T c f) : ContentFault T 0 n (h ++ c) f
/-- faults of the data of a record -/
inductive SubsFault (T : Bytes → Prop) : Bytes → Fault → Prop
  /-- nothing after the type -/
  | type {t : UInt8} : SubsFault T [t] .ends
  | here {t : UInt8} {c rest : Bytes} {f : Fault} (hl : c.length < 65536) (hc : ContentFault T t c.length c f) :
      SubsFault T ([t] ++ leBytes 2 c.length ++ c ++ rest) f
  | later {t : UInt8} {c rest : Bytes} {f : Fault} (hl : c.length < 65536) (hc : ContentText T t c.length c) (hr : SubsFault T rest f) :
      SubsFault T ([t] ++ leBytes 2 c.length ++ c ++ rest) f
  | cut {t : UInt8} {n : Nat} {c : Bytes} {f : Fault} (hn : n < 65536) (hl : c.length < n) (hc : ContentFault T t n c f) : SubsFault T ([t] ++ leBytes 2 n ++ c) f
  | half {t x : UInt8} {f : Fault} (hc : ContentFault T t x.toNat [] f) : SubsFault T [t, x] f
/-- faults of records -/
inductive RecordsFault (T : Bytes → Prop) : Bytes → Fault → Prop
  /-- an incomplete header -/
  | header {b : Bytes} (hne : b ≠ []) (hl : b.length < optOff (byteAt b 4) 7 [(0, 4), (1, 4), (2, 4)]) : RecordsFault T b .ends
  | here {hdr data rest : Bytes} {f : Fault} (hh : HeaderText hdr data.length) (hd : SubsFault T data f) : RecordsFault T (hdr ++ data ++ rest) f
  | later {hdr data rest : Bytes} {f : Fault} (hh : HeaderText hdr data.length) (hd : SubsText T data) (hr : RecordsFault T rest f) :
      RecordsFault T (hdr ++ data ++ rest) f
  | cut {hdr data : Bytes} {n : Nat} {f : Fault} (hh : HeaderText hdr n) (hne : data ≠ []) (hl : data.length < n)
      (hd : SubsFault T (data ++ List.replicate (n - data.length) 0) f) : RecordsFault T (hdr ++ data) f
end

/-- faults of the body of a packet of type `t` -/
def BodyFault (T : Bytes → Prop) (t : UInt8) (b : Bytes) (f : Fault) : Prop :=
  t = 1 ∧ RecordsFault T b f ∨ t = 0 ∧ (b.length < 3 ∧ f = .ends ∨ 3 ≤ b.length ∧ RecordsFault T (b.drop 3) f)

end Egts.Frame
