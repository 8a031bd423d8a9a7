import Verif.Spec.RawBody
import Verif.Props.AnyStream
import Verif.Props.Resend
import Verif.Props.PassOn
set_option autoImplicit false
/- C115: one subrecord the gate does not understand and the rest of the packet. -/
namespace Egts
open Frame
variable [P : Platform]

omit P in
theorem leValue_leBytes (k n : Nat) : leValue (leBytes k n) = n % 256 ^ k := by
  induction k generalizing n with
  | zero => simp [leBytes, leValue, Nat.mod_one]
  | succ k ih =>
    simp only [leBytes, leValue, ih]
    rw [pow_succ, Nat.mul_comm (256 ^ k) 256, Nat.mod_mul]
    simp

theorem header_same {hdr hdr' x y : Bytes} {r : ServiceDataRecord} {n : Nat} (h : RecordHeader hdr r) (h' : RawHeader hdr' n)
    (hn : n < 65536) (he : hdr ++ x = hdr' ++ y) : hdr = hdr' ∧ x = y ∧ r.RecordLength.toNat = n := by
  obtain ⟨fl, h, -⟩ := h
  obtain ⟨num, fl', opt, sst, rst, h', hnum, hopt⟩ := h'
  subst h h'
  obtain ⟨a, b, rfl⟩ : ∃ a b, num = [a, b] := by
    match num, hnum with
    | [a, b], _ => exact ⟨a, b, rfl⟩
  have hfl : fl = fl' := by
    have := congrArg (fun l : Bytes => l[4]?) he
    simpa [leBytes] using this
  subst hfl
  have hlen : (leBytes 2 r.RecordLength.toNat ++ leBytes 2 r.RecordNumber.toNat ++ [fl] ++
    (if fl.toNat.testBit 0 then leBytes 4 r.ObjectIdentifier.toNat else []) ++
    (if fl.toNat.testBit 1 then leBytes 4 r.EventIdentifier.toNat else []) ++
    (if fl.toNat.testBit 2 then leBytes 4 r.Time.toNat else []) ++ [r.SourceServiceType, r.RecipientServiceType]).length =
      (leBytes 2 n ++ [a, b] ++ [fl] ++ opt ++ [sst, rst]).length := by
    simp only [List.length_append, leBytes_len, hopt]
    split <;> split <;> split <;> simp [leBytes_len]
  obtain ⟨h1, h2⟩ := List.append_inj he hlen
  refine ⟨h1, h2, ?_⟩
  have h3 := congrArg (fun l : Bytes => l.take 2) h1
  have h4 : leBytes 2 r.RecordLength.toNat = leBytes 2 n := by simpa [leBytes] using h3
  have h5 := congrArg leValue h4
  rw [leValue_leBytes, leValue_leBytes] at h5
  have := r.RecordLength.toNat_lt
  simp at h5
  omega

theorem subs_understood {b : Bytes} {l : List (UInt8 × Bytes)} (h : RawSubs b l) :
    ∀ {s : List RecordData}, Subs b s → ∀ x ∈ l, Understood x := by
  induction h with
  | nil => simp
  | @cons t c rest l hc hr ih =>
    intro s hs
    have key : ∀ (c' rest' : Bytes) (rd : RecordData) (k : Nat), [t] ++ leBytes 2 c.length ++ c ++ rest = [rd.SubrecordType] ++ leBytes 2 k ++ c' ++ rest' →
        k < 65536 → t = rd.SubrecordType ∧ k = c.length ∧ c ++ rest = c' ++ rest' := by
      intro c' rest' rd k he hk
      simp only [List.append_assoc, List.cons_append, List.nil_append, List.cons.injEq] at he
      obtain ⟨h1, h2⟩ := he
      obtain ⟨h3, h4⟩ := List.append_inj h2 (by simp [leBytes_len])
      have h5 := congrArg leValue h3
      rw [leValue_leBytes, leValue_leBytes] at h5
      exact ⟨h1, by simp at h5; omega, h4⟩
    generalize hb : [t] ++ leBytes 2 c.length ++ c ++ rest = b at hs
    cases hs with
    | nil => simp at hb
    | @cut _ rd hcut =>
      exfalso
      rcases hcut with ⟨c', d, he, hl, -⟩ | ⟨d, he, -⟩
      · rw [he] at hb
        have := key c' [] rd rd.SubrecordLength.toNat (by simpa using hb) rd.SubrecordLength.toNat_lt
        obtain ⟨-, h2, h3⟩ := this
        have := congrArg List.length h3
        simp at this
        omega
      · have := congrArg List.length (hb.trans he)
        simp [leBytes_len] at this
        omega
    | @cons _ rest' rd l' hcomp hsub =>
      obtain ⟨c', d, he, hl, hd, hcont⟩ := hcomp
      rw [he] at hb
      obtain ⟨h1, h2, h3⟩ := key c' rest' rd c'.length hb (by rw [hl]; exact rd.SubrecordLength.toNat_lt)
      obtain ⟨rfl, rfl⟩ := List.append_inj h3 h2.symm
      intro x hx
      rcases List.mem_cons.mp hx with rfl | hx
      · refine ⟨d, ?_⟩
        have : UInt16.ofNat c.length = rd.SubrecordLength := by rw [hl]; simp
        simp only [this, h1]
        exact hcont
      · exact ih hsub x hx

theorem records_understood {b : Bytes} {l : List (UInt8 × Bytes)} (h : RawRecords b l) :
    ∀ {s : List ServiceDataRecord}, Records b s → ∀ x ∈ l, Understood x := by
  induction h with
  | nil => simp
  | @cons hdr data rest l l' hh hn hs hr ih =>
    intro s hrec
    generalize hb : hdr ++ data ++ rest = b at hrec
    cases hrec with
    | nil =>
      obtain ⟨num, fl, opt, sst, rst, rfl, -⟩ := hh
      simp at hb
    | @cons hdr' data' rest' r l2 hh' hl' hs' hr' =>
      rw [List.append_assoc, List.append_assoc] at hb
      obtain ⟨-, h2, h3⟩ := header_same hh' hh hn hb.symm
      obtain ⟨rfl, rfl⟩ := List.append_inj h2 (by omega)
      intro x hx
      rcases List.mem_append.mp hx with hx | hx
      · exact subs_understood hs hs' x hx
      · exact ih hr' x hx
    | @bare _ r hh' hl' =>
      exfalso
      rw [List.append_assoc] at hb
      obtain ⟨-, h2, h3⟩ := header_same (x := []) hh' hh hn (by simpa using hb.symm)
      have := congrArg List.length h2
      simp at this
      omega
    | @cut hdr' data' r hh' hne hl' hs' =>
      exfalso
      rw [List.append_assoc] at hb
      obtain ⟨-, h2, h3⟩ := header_same hh' hh hn hb.symm
      have := congrArg List.length h2
      simp at this
      omega


theorem subs_build {b : Bytes} {l : List (UInt8 × Bytes)} (h : RawSubs b l) (hu : ∀ x ∈ l, Understood x) :
    ∃ s, CompleteSubs b s ∧ List.Forall₂ (fun x d => Content x.1 (UInt16.ofNat x.2.length) x.2 d) l (s.filterMap (·.SubrecordData)) := by
  induction h with
  | nil => exact ⟨[], .nil, by simp⟩
  | @cons t c rest l hc hr ih =>
    obtain ⟨s, h1, h2⟩ := ih (fun x hx => hu x (List.mem_cons_of_mem _ hx))
    obtain ⟨d, hd⟩ := hu (t, c) (by simp)
    refine ⟨⟨t, UInt16.ofNat c.length, some d⟩ :: s, .cons ⟨c, d, rfl, ?_, rfl, hd⟩ h1, ?_⟩
    · simp; omega
    · simp only [List.filterMap_cons]
      exact .cons hd h2

theorem header_build {hdr : Bytes} {n : Nat} (h : RawHeader hdr n) (hn : n < 65536) (s : List RecordData) :
    ∃ r, RecordHeader hdr r ∧ r.RecordLength.toNat = n ∧ r.RecordDataSet = s := by
  obtain ⟨num, fl, opt, sst, rst, rfl, hnum, hopt⟩ := h
  have hsplit : ∀ (k : Nat) (c : Bool) (a : Bytes), (if c then k else 0) ≤ a.length →
      ∃ x y, a = x ++ y ∧ x.length = (if c then k else 0) ∧ y.length = a.length - (if c then k else 0) := by
    intro k c a ha
    exact ⟨a.take (if c then k else 0), a.drop (if c then k else 0), (List.take_append_drop _ _).symm, by simp only [List.length_take]; omega, by simp only [List.length_drop]⟩
  obtain ⟨o0, opt1, rfl, h0, h0'⟩ := hsplit 4 (fl.toNat.testBit 0) opt (by rw [hopt]; omega)
  obtain ⟨o1, o2, rfl, h1, h1'⟩ := hsplit 4 (fl.toNat.testBit 1) opt1 (by rw [h0']; omega)
  have h2 : o2.length = (if fl.toNat.testBit 2 then 4 else 0) := by omega
  have word : ∀ (c : Bool) (o : Bytes), o.length = (if c then 4 else 0) →
      ∃ v : UInt32, o = (if c then leBytes 4 v.toNat else []) ∧ (c = false → v = 0) := by
    intro c o ho
    cases c with
    | false => exact ⟨0, by simpa using ho, fun _ => rfl⟩
    | true =>
      have h4 : o.length = 4 := by simpa using ho
      refine ⟨UInt32.ofNat (leValue o), ?_, by simp⟩
      have hlt : leValue o < 2 ^ 32 := by
        have := leBytes_leValue o
        have h5 := congrArg leValue this
        rw [leValue_leBytes, h4] at h5
        have : leValue o % 256 ^ 4 < 256 ^ 4 := Nat.mod_lt _ (by norm_num)
        omega
      have : (UInt32.ofNat (leValue o)).toNat = leValue o := by simp; omega
      rw [this]
      simp only [if_true]
      rw [← h4, leBytes_leValue]
  obtain ⟨oid, e0, z0⟩ := word _ _ h0
  obtain ⟨evid, e1, z1⟩ := word _ _ h1
  obtain ⟨tm, e2, z2⟩ := word _ _ h2
  obtain ⟨v, hv⟩ : ∃ v : UInt16, num = leBytes 2 v.toNat := by
    match num, hnum with
    | [a, b], _ =>
      refine ⟨UInt16.ofNat (leValue [a, b]), ?_⟩
      have ha := a.toNat_lt
      have hb := b.toNat_lt
      have : (UInt16.ofNat (leValue [a, b])).toNat = leValue [a, b] := by simp [leValue]; omega
      rw [this]
      exact (leBytes_leValue [a, b]).symm
  have hN : (UInt16.ofNat n).toNat = n := by simp; omega
  refine ⟨{
      RecordLength := UInt16.ofNat n
      RecordNumber := v
      SourceServiceOnDevice := bitText fl 7
      RecipientServiceOnDevice := bitText fl 6
      Group := bitText fl 5
      RecordProcessingPriority := bitText fl 4 ++ bitText fl 3
      TimeFieldExists := bitText fl 2
      EventIDFieldExists := bitText fl 1
      ObjectIDFieldExists := bitText fl 0
      ObjectIdentifier := oid
      EventIdentifier := evid
      Time := tm
      SourceServiceType := sst
      RecipientServiceType := rst
      RecordDataSet := s }, ⟨fl, ?_, rfl, rfl, rfl, rfl, rfl, rfl, rfl, z0, z1, z2⟩, hN, rfl⟩
  simp only [hN]
  rw [hv]
  conv_lhs => rw [e0, e1, e2]
  simp

theorem records_build {b : Bytes} {l : List (UInt8 × Bytes)} (h : RawRecords b l) (hu : ∀ x ∈ l, Understood x) :
    ∃ s, CompleteRecords b s ∧ List.Forall₂ (fun x d => Content x.1 (UInt16.ofNat x.2.length) x.2 d) l (subsOf s) := by
  induction h with
  | nil => exact ⟨[], .nil, by simp [subsOf]⟩
  | @cons hdr data rest l l' hh hn hs hr ih =>
    obtain ⟨s, h1, h2⟩ := ih (fun x hx => hu x (List.mem_append_right _ hx))
    obtain ⟨rs, h3, h4⟩ := subs_build hs (fun x hx => hu x (List.mem_append_left _ hx))
    obtain ⟨r, h5, h6, h7⟩ := header_build hh hn rs
    refine ⟨r :: s, .cons h5 h6.symm (by rw [h7]; exact h3) h1, ?_⟩
    have : subsOf (r :: s) = rs.filterMap (·.SubrecordData) ++ subsOf s := by simp [subsOf, h7]
    rw [this]
    exact List.rel_append h4 h2

/-- a body whose length fields tell the truth is read as service data exactly when every subrecord in it is understood -/
theorem raw_accept_iff (b : Bytes) (subs : List (UInt8 × Bytes)) (h : RawRecords b subs) :
    (∃ l, ServiceDataSet.decode [] b = .ok l) ↔ ∀ s ∈ subs, Understood s := by
  constructor
  · rintro ⟨l, hl⟩
    exact records_understood h ((body_decode_iff b l).mp hl)
  · intro hu
    obtain ⟨l, hl, -⟩ := records_build h hu
    exact ⟨l, body_decoded b l hl⟩

/-- Decode rejects a packet with right header whose body is not read, with code 129 -/
theorem packet_rejected {hdr b : Bytes} {t : UInt8} {pid : Nat} (hh : RightHeader hdr t pid b.length) (hb : b ≠ [])
    (ht : t = 0 ∨ t = 1) (hlen : (packet hdr b).length < 65536) {e : Err} {body : Body} (hd : decodeBody t b = .err e body) (p : Package) (spare : Bytes) :
    ∃ q, Package.decode p (packet hdr b) spare = .ret 129 (some e) q := by
  have h10 := right_header_len hh
  have hsplit : packet hdr b = hdr ++ ([crc8 hdr] ++ b ++ leBytes 2 (crc16 b).toNat) := by simp [packet]
  have hsize : headerSize (packet hdr b) = hdr.length + 1 := by rw [hsplit, headerSize_append _ _ (by omega), hh.size]
  have hfdl : declaredFDL (packet hdr b) = b.length := by
    rw [hsplit]; unfold declaredFDL; rw [word16_append _ _ _ (by omega)]; exact hh.fdl
  have hplen : (packet hdr b).length = hdr.length + 1 + b.length + 2 := by simp [packet, leBytes_len]; omega
  have hcons : Consistent (packet hdr b) := by
    refine ⟨by omega, ?_, by omega⟩
    rw [hsize, hsplit]
    unfold declaredHL
    rw [byteAt_append _ _ _ (by omega), hh.size]
    exact hh.hl
  have hdrop : (packet hdr b).drop (hdr.length + 1) = b ++ leBytes 2 (crc16 b).toNat := by
    have : packet hdr b = (hdr ++ [crc8 hdr]) ++ (b ++ leBytes 2 (crc16 b).toNat) := by simp [packet]
    rw [this, List.drop_left' (by simp)]
  have hbody : bodyBytes (packet hdr b) = b := by
    unfold bodyBytes
    rw [hsize, hfdl, hdrop, hplen]
    have : b.length - (hdr.length + 1 + b.length + 2 - (hdr.length + 1)) = 0 := by omega
    rw [this]
    simp [zeros]
  have h9 : byteAt (packet hdr b) 9 = t := by rw [hsplit, byteAt_append _ _ _ (by omega), hh.type]
  have hcrc : byteAt (packet hdr b) (headerSize (packet hdr b) - 1) = crc8 ((packet hdr b).take (headerSize (packet hdr b) - 1)) := by
    rw [hsize]
    simp only [Nat.add_sub_cancel]
    have : (packet hdr b).take hdr.length = hdr := by rw [hsplit, List.take_left' rfl]
    rw [this, hsplit]
    unfold byteAt
    simp [List.getD]
  have hbl := List.length_pos_iff.mpr hb
  exact (((decode_code_choice p (packet hdr b) spare).2 hcons).2 hcrc).2 (by omega) |>.2 (by rw [h9]; exact ht) e body (by rw [h9, hbody]; exact hd)

omit P in
theorem raw_ne_nil {b : Bytes} {subs : List (UInt8 × Bytes)} (hr : RawRecords b subs) {s : UInt8 × Bytes} (hs : s ∈ subs) : b ≠ [] := by
  rintro rfl
  generalize hb : ([] : Bytes) = b at hr
  cases hr with
  | nil => simp at hs
  | cons h =>
    obtain ⟨num, fl, opt, sst, rst, rfl, -⟩ := h
    simp at hb

/-- C115 is false of the code: whatever else a packet holds, one subrecord that is not understood makes the gate throw all of it
away. The packet is correctly framed, its checksums are right, and all its length fields tell the truth, so the other subrecords can be
found; nothing is saved and the only answer is a rejection with code 129 ("decryption error") that confirms no record. -/
theorem one_bad_loses_all (now spare hdr b : Bytes) (pid : Nat) (subs : List (UInt8 × Bytes)) (hh : RightHeader hdr 1 pid b.length)
    (hl : (packet hdr b).length < 65536) (hr : RawRecords b subs) (s : UInt8 × Bytes) (hs : s ∈ subs) (hbad : ¬ Understood s) :
    react now spare (packet hdr b) = some [.write (answerBytes pid 129 0 [])] := by
  have hb := raw_ne_nil hr hs
  have hno : ¬ ∃ l, ServiceDataSet.decode [] b = .ok l := fun h => hbad ((raw_accept_iff b subs hr).mp h s hs)
  obtain ⟨e, body, he⟩ : ∃ e body, decodeBody 1 b = .err e body := by
    have h1 := decodeBody_safe 1 b
    cases hd : decodeBody 1 b with
    | err e body => exact ⟨e, body, rfl⟩
    | panic => rw [hd] at h1; simp [Out.Safe] at h1
    | diverge => rw [hd] at h1; simp [Out.Safe] at h1
    | ok body =>
      unfold decodeBody at hd
      rw [if_pos rfl] at hd
      obtain ⟨l, hl, -⟩ := out_map_iff.mp hd
      exact absurd ⟨l, hl⟩ hno
  obtain ⟨q, hq⟩ := packet_rejected hh hb (.inr rfl) hl he {} spare
  have hpid : word16At (packet hdr b) 7 = pid := by
    have h10 := right_header_len hh
    have hsplit : packet hdr b = hdr ++ ([crc8 hdr] ++ b ++ leBytes 2 (crc16 b).toNat) := by simp [packet]
    rw [hsplit, word16_append _ _ _ (by omega)]
    exact hh.pid
  unfold react
  rw [hq]
  simp only [hpid]

/-- C115: the same on a connection, in any cutting of the packet into chunks. -/
theorem one_bad_on_connection (env : Env) (tail : Tail) (chunks : List Bytes) (hdr b : Bytes) (pid : Nat) (subs : List (UInt8 × Bytes))
    (hh : RightHeader hdr 1 pid b.length) (hl : (packet hdr b).length < 65536) (hr : RawRecords b subs) (s : UInt8 × Bytes) (hs : s ∈ subs)
    (hbad : ¬ Understood s) (hc : chunks.flatten = packet hdr b) :
    (handleConn env true tail chunks).1 = [.write (answerBytes pid 129 0 [])] ∧ savesOf (handleConn env true tail chunks).1 = [] := by
  have hcut : CutInto chunks.flatten [packet hdr b] [] := by
    refine ⟨by rw [hc]; simp, fun x hx => ?_, .inl (by simp)⟩
    rw [List.mem_singleton.mp hx]
    exact framed_taken (packet_framed hh (raw_ne_nil hr hs) hl)
  have := stream_behaviour env tail chunks _ _ hcut
  rw [this]
  unfold reactAll
  rw [one_bad_loses_all (env.now 0) (env.spare 0) hdr b pid subs hh hl hr s hs hbad]
  simp [reactAll, savesOf]

/-- C115 (partial): if every subrecord of such a packet is understood, nothing is lost: the packet is a data packet as the standard
describes it whose subrecords hold, one for one and in order, the contents that were sent; what the gate does with it is `react_data`.
Missing: packets with a subrecord of another type (`one_bad_loses_all`). -/
theorem all_understood_partial (hdr b : Bytes) (pid : Nat) (subs : List (UInt8 × Bytes)) (hh : RightHeader hdr 1 pid b.length)
    (hb : b ≠ []) (hl : (packet hdr b).length < 65536) (hr : RawRecords b subs) (hu : ∀ s ∈ subs, Understood s) :
    ∃ l, DataPacket (packet hdr b) pid l ∧ List.Forall₂ (fun x d => Content x.1 (UInt16.ofNat x.2.length) x.2 d) subs (subsOf l) := by
  obtain ⟨l, h1, h2⟩ := records_build hr hu
  exact ⟨l, ⟨hdr, b, rfl, hl, hb, hh, h1⟩, h2⟩

/-- C115: no content of a subrecord of a type without decoder is understood -/
theorem unknown_type (t : UInt8) (c : Bytes) (h : t ∉ knownTypes) : ¬ Understood (t, c) := by
  rintro ⟨d, hd⟩
  apply h
  cases d with
  | state d =>
    obtain ⟨h | h, -⟩ := hd
    · obtain ⟨rfl, -⟩ := h; decide
    · dsimp only at h; subst h; decide
  | _ =>
    obtain ⟨h, -⟩ := hd
    dsimp only at h
    subst h
    decide

/-! ### a concrete packet: a record with a counter and a subrecord of type 99 -/

/-- the body: one record, counter 110 with value 1 (type 25), and two bytes of type 99 -/
def mixedBody : Bytes := [12, 0, 1, 0, 0, 2, 2, 25, 4, 0, 110, 1, 0, 0, 99, 2, 0, 7, 7]

omit P in
theorem mixed_raw : RawRecords mixedBody [(25, [110, 1, 0, 0]), (99, [7, 7])] := by
  refine RawRecords.cons (hdr := [12, 0, 1, 0, 0, 2, 2]) (data := [25, 4, 0, 110, 1, 0, 0, 99, 2, 0, 7, 7]) (rest := [])
    (l := [(25, [110, 1, 0, 0]), (99, [7, 7])]) (l' := []) ⟨[1, 0], 0, [], 2, 2, rfl, rfl, rfl⟩ (by decide) ?_ .nil
  exact .cons (t := 25) (c := [110, 1, 0, 0]) (rest := [99, 2, 0, 7, 7]) (by decide) (.cons (t := 99) (c := [7, 7]) (rest := []) (by decide) .nil)

/-- the header meets `RightHeader`, and the packet meets the hypotheses of `one_bad_loses_all` -/
example (now spare : Bytes) : react now spare (packet [1, 0, 0, 11, 0, 19, 0, 5, 0, 1] mixedBody) = some [.write (answerBytes 5 129 0 [])] :=
  one_bad_loses_all now spare _ _ 5 _ ⟨by decide, by decide, by decide, by decide, by decide, by decide⟩
    (by simp [packet, leBytes_len, mixedBody]) mixed_raw (99, [7, 7]) (by simp) (unknown_type 99 _ (by decide))

/-- without the subrecord of type 99 the same record meets the hypotheses of `all_understood_partial` -/
example : ∃ l, DataPacket (packet [1, 0, 0, 11, 0, 14, 0, 5, 0, 1] [7, 0, 1, 0, 0, 2, 2, 25, 4, 0, 110, 1, 0, 0]) 5 l ∧
    List.Forall₂ (fun x d => Content x.1 (UInt16.ofNat x.2.length) x.2 d) [(25, [110, 1, 0, 0])] (subsOf l) := by
  refine all_understood_partial _ _ 5 _ ⟨by decide, by decide, by decide, by decide, by decide, by decide⟩ (by simp)
    (by simp [packet, leBytes_len]) ?_ ?_
  · exact RawRecords.cons (hdr := [7, 0, 1, 0, 0, 2, 2]) (data := [25, 4, 0, 110, 1, 0, 0]) (rest := [])
      (l := [(25, [110, 1, 0, 0])]) (l' := []) ⟨[1, 0], 0, [], 2, 2, rfl, rfl, rfl⟩ (by decide)
      (.cons (t := 25) (c := [110, 1, 0, 0]) (rest := []) (by decide) .nil) .nil
  · intro s hs
    rw [List.mem_singleton.mp hs]
    exact ⟨.absCntr { CounterNumber := 110, CounterValue := 1 }, rfl, rfl⟩

end Egts
