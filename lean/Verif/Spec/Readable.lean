import Verif.Spec.SubWire
set_option autoImplicit false
/- Which bodies the library takes for records, from the bytes alone: nothing of the model of the code is used here. `T` says which contents are telematic messages
(Spec/ProtoGrammar). A reader that goes by the standard would ask for complete fields; the library asks only that a field begins inside its content (C72). -/
namespace Egts.Frame

/-- of the optional fields `l`, given as (bit of the flag byte that announces the field, size) and the first of which would be at offset `o`, all that are announced begin
inside `c` -/
def Begin (c : Bytes) (fl : UInt8) : Nat → List (Nat × Nat) → Prop
  | _, [] => True
  | o, (i, n) :: l => (fl.toNat.testBit i = true → o < c.length) ∧ Begin c fl (o + if fl.toNat.testBit i then n else 0) l

/-- contents of the subrecords that do not contain records; `n` is the length that the subrecord announces -/
def Plain (T : Bytes → Prop) (t : UInt8) (n : Nat) (c : Bytes) : Prop :=
  -- terminal identity: identifier, flags, what they announce
  (t = 1 ∧ 5 ≤ c.length ∧ Begin c (byteAt c 4) 5 [(0, 2), (1, 15), (2, 16), (3, 3), (5, 3), (6, 2), (7, 15)]) ∨
  -- dispatcher identity: type, identifier
  (t = 5 ∧ 2 ≤ c.length) ∨
  -- credentials: two texts that end with a zero byte; if anything follows, a third one
  (t = 7 ∧ ∃ u p : Bytes, (0 : UInt8) ∉ u ∧ (0 : UInt8) ∉ p ∧ (c = u ++ [0] ++ p ++ [0] ∨
    ∃ s rest : Bytes, (0 : UInt8) ∉ s ∧ c = u ++ [0] ++ p ++ [0] ++ s ++ [0] ++ rest)) ∨
  -- result code
  (t = 9 ∧ 1 ≤ c.length) ∨
  (t = 15 ∧ T c) ∨
  -- position: 21 bytes, and the altitude if bit 7 of byte 12 announces it
  (t = 16 ∧ 21 ≤ c.length ∧ ((byteAt c 12).toNat.testBit 7 = true → 22 ≤ c.length)) ∨
  -- extended position
  (t = 17 ∧ 1 ≤ c.length ∧ Begin c (byteAt c 0) 1 [(0, 2), (1, 2), (2, 2), (3, 1), (4, 2)]) ∨
  -- digital inputs (byte 0), outputs, analog sensors (byte 2)
  (t = 18 ∧ 3 ≤ c.length ∧ Begin c (byteAt c 0) 3 [(0, 1), (1, 1), (2, 1), (3, 1), (4, 1), (5, 1), (6, 1), (7, 1)] ∧
    Begin c (byteAt c 2) (optOff (byteAt c 0) 3 [(0, 1), (1, 1), (2, 1), (3, 1), (4, 1), (5, 1), (6, 1), (7, 1)])
      [(0, 3), (1, 3), (2, 3), (3, 3), (4, 3), (5, 3), (6, 3), (7, 3)]) ∨
  -- counters
  (t = 19 ∧ 1 ≤ c.length ∧ Begin c (byteAt c 0) 1 [(0, 3), (1, 3), (2, 3), (3, 3), (4, 3), (5, 3), (6, 3), (7, 3)]) ∨
  -- state: type 20 only with the announced length 5
  (t = 20 ∧ n = 5 ∧ 5 ≤ c.length) ∨
  (t = 21 ∧ 5 ≤ c.length) ∨
  -- one analog sensor
  (t = 24 ∧ 4 ≤ c.length) ∨
  -- one counter
  (t = 25 ∧ 2 ≤ c.length) ∨
  -- liquid level
  (t = 27 ∧ 4 ≤ c.length)

/-- `hdr` is the header of a record that announces `n` bytes of data: 7 bytes, and 4 for each of object, event and time that the flags announce -/
def HeaderText (hdr : Bytes) (n : Nat) : Prop :=
  n < 65536 ∧ hdr.take 2 = leBytes 2 n ∧ hdr.length = optOff (byteAt hdr 4) 7 [(0, 4), (1, 4), (2, 4)]

mutual
/-- contents of subrecords of type `t` that announce `n` bytes -/
inductive ContentText (T : Bytes → Prop) : UInt8 → Nat → Bytes → Prop
  | plain {t : UInt8} {n : Nat} {c : Bytes} (h : Plain T t n c) : ContentText T t n c
  /-- a confirmation: record number, result; what follows has to be records -/
  | response {n : Nat} {h c : Bytes} (hl : h.length = 3) (hc : RecordsText T c) : ContentText T 0 n (h ++ c)
/-- the data of a record: subrecords, the last of which may have less content than announced or only half of its length field -/
inductive SubsText (T : Bytes → Prop) : Bytes → Prop
  | nil : SubsText T []
  | cons {t : UInt8} {c rest : Bytes} (hl : c.length < 65536) (hc : ContentText T t c.length c) (hr : SubsText T rest) :
      SubsText T ([t] ++ leBytes 2 c.length ++ c ++ rest)
  | cut {t : UInt8} {n : Nat} {c : Bytes} (hn : n < 65536) (hl : c.length < n) (hc : ContentText T t n c) : SubsText T ([t] ++ leBytes 2 n ++ c)
  | half {t x : UInt8} (hc : ContentText T t x.toNat []) : SubsText T [t, x]
/-- records: the last may end after its header, or have less data than announced, and is then read as if it were filled up with zeros -/
inductive RecordsText (T : Bytes → Prop) : Bytes → Prop
  | nil : RecordsText T []
  | cons {hdr data rest : Bytes} (hh : HeaderText hdr data.length) (hd : SubsText T data) (hr : RecordsText T rest) : RecordsText T (hdr ++ data ++ rest)
  | bare {hdr : Bytes} {n : Nat} (hh : HeaderText hdr n) (hn : 0 < n) : RecordsText T hdr
  | cut {hdr data : Bytes} {n : Nat} (hh : HeaderText hdr n) (hne : data ≠ []) (hl : data.length < n)
      (hd : SubsText T (data ++ List.replicate (n - data.length) 0)) : RecordsText T (hdr ++ data)
end

/-- the body of a packet of type `t`: a data packet (1) holds records; an answer (0) holds the identifier of a packet, a result and, if there is more, records -/
def BodyText (T : Bytes → Prop) (t : UInt8) (b : Bytes) : Prop :=
  t = 1 ∧ RecordsText T b ∨ t = 0 ∧ 3 ≤ b.length ∧ RecordsText T (b.drop 3)

end Egts.Frame
