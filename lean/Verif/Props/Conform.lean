import Verif.Spec.Conform
import Verif.Props.Body
import Verif.Props.Server
set_option autoImplicit false
/- C70: the bytes of the answers; C73: packets as the standard describes them are accepted and served. -/
namespace Egts
open Frame
variable [P : Platform]

/-! ### C73 -/

omit P in
theorem word16_append (a b : Bytes) (i : Nat) (h : i + 1 < a.length) : word16At (a ++ b) i = word16At a i := by
  unfold word16At
  rw [byteAt_append a b i (by omega), byteAt_append a b (i + 1) h]

omit P in
theorem headerSize_append (a b : Bytes) (h : 2 < a.length) : headerSize (a ++ b) = headerSize a := by
  unfold headerSize routed
  rw [byteAt_append a b 2 h]

omit P in
theorem right_header_len {hdr : Bytes} {t : UInt8} {pid n : Nat} (h : RightHeader hdr t pid n) : 10 ≤ hdr.length := by
  have h1 := h.size
  have h2 : 11 ≤ headerSize hdr := by unfold headerSize; split <;> omega
  omega

/-- decoding of a packet with right header and checksums -/
theorem packet_decoded {hdr b : Bytes} {t : UInt8} {pid : Nat} (hh : RightHeader hdr t pid b.length) (hb : b ≠ [])
    (ht : t = 0 ∨ t = 1) (hlen : (packet hdr b).length < 65536) {body : Body} (hd : decodeBody t b = .ok body) (p : Package) (spare : Bytes) :
    ∃ q, Package.decode p (packet hdr b) spare = .ret 0 none q ∧ q.ServicesFrameData = some body ∧
      q.PacketIdentifier.toNat = pid ∧ q.PacketType = t := by
  have h10 := right_header_len hh
  have hsplit : packet hdr b = hdr ++ ([crc8 hdr] ++ b ++ leBytes 2 (crc16 b).toNat) := by simp [packet]
  have hsize : headerSize (packet hdr b) = hdr.length + 1 := by rw [hsplit, headerSize_append _ _ (by omega), hh.size]
  have hfdl : declaredFDL (packet hdr b) = b.length := by
    rw [hsplit]; unfold declaredFDL; rw [word16_append _ _ _ (by omega)]; exact hh.fdl
  have hplen : (packet hdr b).length = hdr.length + 1 + b.length + 2 := by simp [packet, leBytes_len]; omega
  have hcons : Consistent (packet hdr b) := by
    refine ⟨by omega, ?_, by omega⟩
    rw [hsize, hsplit]
    unfold declaredHL
    rw [byteAt_append _ _ _ (by omega), hh.size]
    exact hh.hl
  have hdrop : (packet hdr b).drop (hdr.length + 1) = b ++ leBytes 2 (crc16 b).toNat := by
    have : packet hdr b = (hdr ++ [crc8 hdr]) ++ (b ++ leBytes 2 (crc16 b).toNat) := by simp [packet]
    rw [this, List.drop_left' (by simp)]
  have hbody : bodyBytes (packet hdr b) = b := by
    unfold bodyBytes
    rw [hsize, hfdl, hdrop, hplen]
    have : b.length - (hdr.length + 1 + b.length + 2 - (hdr.length + 1)) = 0 := by omega
    rw [this]
    simp [zeros]
  have htail : tailBytes (packet hdr b) = leBytes 2 (crc16 b).toNat := by
    unfold tailBytes
    rw [hsize, hfdl, ← List.drop_drop, hdrop, List.drop_left' rfl]
  have h9 : byteAt (packet hdr b) 9 = t := by rw [hsplit, byteAt_append _ _ _ (by omega), hh.type]
  have hcrc : byteAt (packet hdr b) (headerSize (packet hdr b) - 1) = crc8 ((packet hdr b).take (headerSize (packet hdr b) - 1)) := by
    rw [hsize]
    simp only [Nat.add_sub_cancel]
    have : (packet hdr b).take hdr.length = hdr := by rw [hsplit, List.take_left' rfl]
    rw [this, hsplit]
    unfold byteAt
    simp [List.getD]
  have hbl := List.length_pos_iff.mpr hb
  have hct : ∀ x : UInt16, u16 (List.take 2 (leBytes 2 x.toNat) ++ List.drop (leBytes 2 x.toNat).length (zeros 2)) = x := by
    intro x
    rw [← le16_eq]
    have : List.take 2 (le16 x) ++ List.drop (le16 x).length (zeros 2) = le16 x := by simp [le16, zeros]
    rw [this, u16_le16']
  have hpid : (u16 [byteAt (packet hdr b) 7, byteAt (packet hdr b) 8]).toNat = pid := by
    have : (u16 [byteAt (packet hdr b) 7, byteAt (packet hdr b) 8]).toNat = word16At (packet hdr b) 7 := by
      rw [u16_toNat]; simp [word16At, leValue]
    rw [this, hsplit, word16_append _ _ _ (by omega)]
    exact hh.pid
  rw [decode_consistent p _ spare hcons, if_neg (by simpa using hcrc), if_neg (by omega), h9, hbody, hd, htail]
  have h01 : ¬ (t ≠ 0 ∧ t ≠ 1) := by rintro ⟨h0, h1⟩; rcases ht with h | h <;> contradiction
  rw [if_neg h01]
  simp only
  have hne : ¬ leBytes 2 (crc16 b).toNat = [] := by simp [leBytes]
  rw [if_neg hne, hct]
  simp only [ne_eq, not_true_eq_false, if_false]
  exact ⟨_, rfl, rfl, hpid, h9⟩

/-- C73: every data packet as the standard describes it is accepted by Decode, whatever the receiver was and whatever
lies behind the slice, and the records found are exactly those in the packet. -/
theorem data_packet_accepted (c : Bytes) (pid : Nat) (l : List ServiceDataRecord) (h : DataPacket c pid l) (p : Package) (spare : Bytes) :
    ∃ q, Package.decode p c spare = .ret 0 none q ∧ q.ServicesFrameData = some (.appdata l) ∧ q.PacketIdentifier.toNat = pid ∧
      q.PacketType = 1 := by
  obtain ⟨hdr, b, rfl, hlen, hb, hh, hr⟩ := h
  refine packet_decoded hh hb (.inr rfl) hlen ?_ p spare
  unfold decodeBody
  rw [if_pos rfl, body_decoded b l hr]
  rfl

/-- C73: every RESPONSE packet as the standard describes it is accepted by Decode. -/
theorem response_packet_accepted (c : Bytes) (pid rpid : Nat) (result : UInt8) (l : List ServiceDataRecord)
    (h : ResponsePacket c pid rpid result l) (p : Package) (spare : Bytes) :
    ∃ q r, Package.decode p c spare = .ret 0 none q ∧ q.ServicesFrameData = some (.response r) ∧ q.PacketIdentifier.toNat = pid ∧
      r.ResponsePacketID.toNat = rpid ∧ r.ProcessingResult = result ∧ r.SDR.getD [] = l := by
  obtain ⟨hdr, b, rfl, hlen, hrp, hh, hr⟩ := h
  have hbl : 3 + b.length = (leBytes 2 rpid ++ [result] ++ b).length := by simp [leBytes_len]; omega
  rw [hbl] at hh
  have hrpn : (UInt16.ofNat rpid).toNat = rpid := by rw [UInt16.toNat_ofNat']; exact Nat.mod_eq_of_lt hrp
  have hd : decodeBody 0 (leBytes 2 rpid ++ [result] ++ b) =
      .ok (.response { ResponsePacketID := UInt16.ofNat rpid, ProcessingResult := result, SDR := if b = [] then none else some l }) := by
    unfold decodeBody
    rw [if_neg (by decide)]
    unfold PtResponse.decode
    have : PtResponse.decodeM {} (leBytes 2 rpid ++ [result] ++ b) = .ok ()
        { ResponsePacketID := UInt16.ofNat rpid, ProcessingResult := result, SDR := if b = [] then none else some l } b := by
      unfold PtResponse.decodeM
      have : leBytes 2 rpid = le16 (UInt16.ofNat rpid) := by rw [le16_eq, hrpn]
      rw [this]
      simp only [List.append_assoc, List.cons_append, List.nil_append]
      refine Dec.step (Dec.read_le16 _ _ _ (UInt16.ofNat rpid) rfl) ?_
      refine Dec.step (Dec.upd_apply _ _ _) ?_; try dsimp only
      refine Dec.step (Dec.readByteTo_cons _ _ _ _) ?_; try dsimp only
      refine Dec.step (Dec.unread_apply _ _) ?_; try dsimp only
      rw [u16_le16']
      by_cases hb : b = []
      · subst hb; rfl
      · have : decide (b.length > 0) = true := by simpa using List.length_pos_iff.mpr hb
        rw [this]
        simp only [Dec.when, body_decoded b l hr, if_neg hb]
        rfl
    rw [Dec.run_of_ok this]
    rfl
  obtain ⟨q, h1, h2, h3, -⟩ := packet_decoded hh (by simp [leBytes]) (.inl rfl) hlen hd p spare
  refine ⟨q, _, h1, h2, h3, hrpn, rfl, ?_⟩
  by_cases hb : b = []
  · subst hb
    have : l = [] := records_nil hr.records
    simp [this]
  · simp [hb]

/-- the packets of the standard are complete frames for the server -/
theorem packet_framed {hdr b : Bytes} {t : UInt8} {pid : Nat} (hh : RightHeader hdr t pid b.length) (hb : b ≠ [])
    (hlen : (packet hdr b).length < 65536) : Framed (packet hdr b) := by
  have h10 := right_header_len hh
  have hsplit : packet hdr b = hdr ++ ([crc8 hdr] ++ b ++ leBytes 2 (crc16 b).toNat) := by simp [packet]
  have hplen : (packet hdr b).length = hdr.length + 1 + b.length + 2 := by simp [packet, leBytes_len]; omega
  have hbl := List.length_pos_iff.mpr hb
  have hfr : frameLen (packet hdr b) = (packet hdr b).length := by
    unfold frameLen declaredFDL declaredHL
    rw [hplen, hsplit, byteAt_append _ _ _ (by omega), word16_append _ _ _ (by omega)]
    have e1 : (byteAt hdr 3).toNat = hdr.length + 1 := by rw [hh.size]; exact hh.hl
    have e2 : word16At hdr 5 = b.length := hh.fdl
    rw [e1, e2, if_neg (by omega)]
    omega
  refine ⟨?_, by omega, hfr.symm, by omega⟩
  rw [hsplit, byteAt_append _ _ _ (by omega), hh.version]

/-- C73: a data packet as the standard describes it, without record responses, that reaches the server in any
segmentation is acknowledged: exactly one RESPONSE packet with its identifier, result 0 and one confirmation per
record in order (followed by the authorisation result if it holds a login or a terminal identity); a record is
saved, before that, exactly if it holds a position, with the positions in order. -/
theorem data_packet_served (env : Env) (chunks : List Bytes) (pid : Nat) (l : List ServiceDataRecord)
    (h : DataPacket chunks.flatten pid l) (hn : NoResponses l) :
    ∃ (saves : List NavRecord) (ack : Bytes) (more : List Bytes), handleConn env true .silent chunks = (saves.map .save ++ .write ack :: more.map .write, .waiting) ∧
      Answers ack (UInt16.ofNat pid) 0 (l.map (·.RecordNumber)) ∧
      (more.length = if (subsOf l).any (·.isLogin) then 1 else 0) ∧
      saves.map (·.LocStates) = if positions (subsOf l) = [] then [] else [(positions (subsOf l)).map locOf] := by
  have hseg : handleConn env true .silent chunks = handleConn env true .silent [chunks.flatten] :=
    segmentation_irrelevant env true .silent chunks [chunks.flatten] (by simp)
  generalize chunks.flatten = c at h hseg
  rw [hseg]
  obtain ⟨q, hd, hb, hp, -⟩ := data_packet_accepted c pid l h {} (env.spare 0)
  have hf : Framed c := by
    obtain ⟨hdr, b, rfl, hlen, hb, hh, hr⟩ := h
    exact packet_framed hh hb hlen
  have hpid : q.PacketIdentifier = UInt16.ofNat pid := by rw [← hp]; simp
  obtain ⟨ack, ha, hs⟩ := handle_data (env.now 0) (env.spare 0) c q l hd hb hn
  refine ⟨if (positions (subsOf l)).isEmpty then [] else [exportOf (env.now 0) q.PacketIdentifier l], ack,
    if (subsOf l).any (·.isLogin) then [resultPacket q.PacketIdentifier 0] else [], ?_, ?_, ?_, ?_⟩
  · rw [alone_eq env c hf, hs]
    by_cases h1 : (positions (subsOf l)).isEmpty <;> by_cases h2 : (subsOf l).any (·.isLogin) <;> simp [h1, h2]
  · rw [← hpid]; exact ha
  · by_cases h2 : (subsOf l).any (·.isLogin) <;> simp [h2]
  · by_cases h1 : positions (subsOf l) = []
    · simp [h1]
    · simp only [h1, if_false]
      have : (positions (subsOf l)).isEmpty = false := by simpa using h1
      rw [this]
      rfl

/-- the record of the example: counter 110 with the value 1 -/
def countRecord : ServiceDataRecord := { cutRecord with
  RecordDataSet := [⟨25, 4, some (.absCntr { CounterNumber := 110, CounterValue := 1 })⟩] }

/-- a body with two records, the second without subrecords, in a routed packet: meets `DataPacket` -/
theorem exDataPacket : DataPacket (packet [1, 0, 32, 16, 0, 21, 0, 5, 0, 1, 7, 0, 8, 0, 9]
      [7, 0, 1, 0, 0, 2, 2, 25, 4, 0, 110, 1, 0, 0, 0, 0, 1, 0, 0, 2, 2]) 5
    [countRecord, { cutRecord with
      RecordLength := 0
      RecordDataSet := [] }] := by
  refine ⟨_, _, rfl, by simp [packet, leBytes_len], by simp, ⟨by decide, by decide, by decide, by decide, by decide, by decide⟩, ?_⟩
  refine CompleteRecords.cons (hdr := [7, 0, 1, 0, 0, 2, 2]) (data := [25, 4, 0, 110, 1, 0, 0]) (rest := [0, 0, 1, 0, 0, 2, 2])
    (cut_header 7 _) rfl ?_ ?_
  · exact .cons (rest := []) ⟨[110, 1, 0, 0], .absCntr { CounterNumber := 110, CounterValue := 1 }, rfl, rfl, rfl, rfl, rfl⟩ .nil
  · exact CompleteRecords.cons (hdr := [0, 0, 1, 0, 0, 2, 2]) (data := []) (rest := []) (cut_header 0 []) rfl .nil .nil

/-- it has no record responses -/
example : NoResponses [countRecord, { cutRecord with
      RecordLength := 0
      RecordDataSet := [] }] := by
  intro d hd
  simp [subsOf, countRecord] at hd
  subst hd
  rfl

/-- a response packet with one confirmation: meets `ResponsePacket` -/
example : ResponsePacket (packet [1, 0, 0, 11, 0, 16, 0, 6, 0, 0]
      (leBytes 2 5 ++ [0] ++ [6, 0, 1, 0, 0, 2, 2, 0, 3, 0, 1, 0, 0])) 6 5 0
    [{ cutRecord with
      RecordLength := 6
      RecordDataSet := [⟨0, 3, some (.response { ConfirmedRecordNumber := 1, RecordStatus := 0 })⟩] }] := by
  refine ⟨_, _, rfl, by simp [packet, leBytes_len], by decide, ⟨by decide, by decide, by decide, by decide, by decide, by decide⟩, ?_⟩
  refine CompleteRecords.cons (hdr := [6, 0, 1, 0, 0, 2, 2]) (data := [0, 3, 0, 1, 0, 0]) (rest := []) (cut_header 6 _) rfl ?_ .nil
  refine .cons (rest := []) ⟨[1, 0, 0], .response { ConfirmedRecordNumber := 1, RecordStatus := 0 }, rfl, rfl, rfl, rfl, ?_⟩ .nil
  obtain ⟨b, h1, h2⟩ := srresponse_roundtrip { ConfirmedRecordNumber := 1, RecordStatus := 0 }
  obtain rfl : b = [1, 0, 0] := by
    have h3 : SrResponse.encode { ConfirmedRecordNumber := 1, RecordStatus := 0 } = .ok [1, 0, 0] := by rfl
    rw [h3] at h1
    exact (Go.ok.inj h1).symm
  exact h2.2

/-! ### C70 -/

/-- C70: the acknowledgement of an accepted data packet without record responses, byte by byte (`answerBytes`): the
identifier of the packet, result 0, the source service of its last record, its record numbers. -/
theorem ack_bytes (env : Env) (c : Bytes) (p : Package) (l : List ServiceDataRecord) (hf : Framed c)
    (hd : Package.decode {} c (env.spare 0) = .ret 0 none p) (hb : p.ServicesFrameData = some (.appdata l)) (hn : NoResponses l) :
    ∃ more, writesOf (handleConn env true .silent [c]).1 =
      answerBytes (word16At c 7) 0 ((l.getLast?.map (·.SourceServiceType)).getD 0) (l.map fun r => r.RecordNumber.toNat) :: more := by
  obtain ⟨-, hs⟩ := handle_data_bytes (env.now 0) (env.spare 0) c p l hd hb hn
  obtain ⟨hc, -, hp, -⟩ := decode_ok_facts hd
  have hpid : p.PacketIdentifier.toNat = word16At c 7 := by rw [hp, u16_toNat]; simp [word16At, leValue]
  rw [alone_eq env c hf, hs]
  unfold ackBytes writesOf
  rw [hpid]
  by_cases h1 : (positions (subsOf l)).isEmpty <;> by_cases h2 : (subsOf l).any (·.isLogin) <;> simp [h1, h2]

/-- C70: the answer to a rejected packet, byte by byte. -/
theorem nack_bytes (env : Env) (c : Bytes) (p : Package) (code : UInt8) (e : Err) (hf : Framed c)
    (hd : Package.decode {} c (env.spare 0) = .ret code (some e) p) :
    handleConn env true .silent [c] = ([.write (answerBytes (word16At c 7) code 0 [])], .waiting) := by
  obtain ⟨-, hs⟩ := handle_rejected_bytes (env.now 0) (env.spare 0) c p code e hd
  have hpid : p.PacketIdentifier.toNat = word16At c 7 := by
    rw [decode_pid (by rw [hf.complete]; exact hf.header) hd, u16_toNat]; simp [word16At, leValue]
  rw [alone_eq env c hf, hs, hpid]

/-- the length of an answer -/
theorem answer_length (pid : Nat) (code st : UInt8) (rns : List Nat) :
    (answerBytes pid code st rns).length = if rns = [] then 16 else 23 + 6 * rns.length := by
  unfold answerBytes packet
  by_cases h : rns = []
  · simp [h, leBytes_len]
  · simp only [h, if_false, List.length_append, leBytes_len, flatMap_len, List.length_cons, List.length_nil]
    omega

/-- C70: two answers are equal only if they answer the same packet with the same result and confirmations (identifiers and
record numbers below 65536): nothing is lost in the bytes. -/
theorem answer_injective (pid pid' : UInt16) (code code' st st' : UInt8) (rns rns' : List UInt16) (hn : rns.length < 10000)
    (hn' : rns'.length < 10000)
    (h : answerBytes pid.toNat code st (rns.map (·.toNat)) = answerBytes pid'.toNat code' st' (rns'.map (·.toNat))) :
    pid = pid' ∧ code = code' ∧ rns = rns' := by
  have h1 := answerBytes_answers pid code st rns hn
  have h2 := answerBytes_answers pid' code' st' rns' hn'
  rw [h] at h1
  obtain ⟨q, r, a1, -, a3, a4, a5, a6, a7⟩ := h1.2.2 []
  obtain ⟨q', r', b1, -, b3, b4, b5, b6, b7⟩ := h2.2.2 []
  rw [a1] at b1
  cases b1
  rw [a3] at b3
  cases b3
  refine ⟨a4.symm.trans b4, a5.symm.trans b5, ?_⟩
  by_cases he : rns = []
  · by_cases he' : rns' = []
    · rw [he, he']
    · obtain ⟨rec, hr, -⟩ := b7 he'
      rw [a6 he] at hr; cases hr
  · obtain ⟨rec, hr, hr2⟩ := a7 he
    by_cases he' : rns' = []
    · rw [b6 he'] at hr; cases hr
    · obtain ⟨rec', hr', hr2'⟩ := b7 he'
      rw [hr] at hr'
      cases hr'
      rw [hr2] at hr2'
      have : Function.Injective (fun rn : UInt16 => (⟨0, 3, some (.response { ConfirmedRecordNumber := rn, RecordStatus := 0 })⟩ : RecordData)) := by
        intro a b hab
        simp only [RecordData.mk.injEq, Option.some.injEq, SubData.response.injEq, SrResponse.mk.injEq, and_true, true_and] at hab
        exact hab
      exact (List.map_injective_iff.mpr this) hr2'

/-- a data packet with two records is acknowledged by these bytes (test of the specification) -/
example : answerBytes 5 0 2 [1, 2] = [1, 0, 0, 11, 0, 22, 0, 6, 0, 0, crc8 [1, 0, 0, 11, 0, 22, 0, 6, 0, 0]] ++
    ([5, 0, 0, 12, 0, 1, 0, 32, 2, 2, 0, 3, 0, 1, 0, 0, 0, 3, 0, 2, 0, 0] ++
      leBytes 2 (crc16 [5, 0, 0, 12, 0, 1, 0, 32, 2, 2, 0, 3, 0, 1, 0, 0, 0, 3, 0, 2, 0, 0]).toNat) := rfl

end Egts
