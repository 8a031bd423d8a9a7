import Verif.Lemmas.Reply
import Verif.Spec.Answer
set_option autoImplicit false
/- The bytes of the packets built by createPtResponse. -/
namespace Egts
open Frame
variable [P : Platform]

theorem confirmations_bytes (rns : List UInt16) :
    RecordDataSet.encode (rns.map confirmation : List RecordData) =
      .ok ((rns.map (·.toNat)).flatMap fun rn => [0, 3, 0] ++ leBytes 2 rn ++ [0]) := by
  induction rns with
  | nil => rfl
  | cons rn rns ih =>
    unfold RecordDataSet.encode at ih ⊢
    simp only [List.map_cons, encodeAll, confirmation_encode, ih, Go.ok_bind, Go.pure_def, List.flatMap_cons, le16_eq]

omit P in
theorem flatMap_len (l : List Nat) : (l.flatMap fun rn => [0, 3, 0] ++ leBytes 2 rn ++ [0]).length = 6 * l.length := by
  induction l with
  | nil => rfl
  | cons a l ih => simp [leBytes_len] at ih ⊢; omega

/-- the packet built by the server -/
theorem createPtResponse_bytes (pid : UInt16) (code st : UInt8) (rns : List UInt16) (hn : rns.length < 10000) :
    createPtResponse pid code st (rns.map confirmation) = .ok (answerBytes pid.toNat code st (rns.map (·.toNat))) := by
  set conf := (rns.map (·.toNat)).flatMap fun rn => [0, 3, 0] ++ leBytes 2 rn ++ [0] with hconf
  have hcl : conf.length = 6 * rns.length := by rw [hconf, flatMap_len]; simp
  have henc : RecordDataSet.encode (rns.map confirmation : List RecordData) = .ok conf := confirmations_bytes rns
  have hlen16 : (len16 conf).toNat = 6 * rns.length := by
    unfold len16; rw [UInt16.toNat_ofNat', hcl]; exact Nat.mod_eq_of_lt (by omega)
  set sdr : Option ServiceDataSet :=
    if rns = [] then none else some [replyRecord (len16 conf) st (rns.map confirmation)] with hsdr
  set sec : PtResponse := { ResponsePacketID := pid, ProcessingResult := code, SDR := sdr } with hsec
  set body := leBytes 2 pid.toNat ++ [code] ++ (if rns.map (·.toNat) = [] then [] else
    leBytes 2 (6 * (rns.map (·.toNat)).length) ++ [1, 0, 0x20, st, st] ++ conf) with hbody
  have hx : sec.encode = .ok body := by
    by_cases h : rns = []
    · simp [PtResponse.encode, hsec, hsdr, h, hbody, le16_eq]
    · have hrl : len16 conf ≠ 0 := by
        intro h0
        rw [h0] at hlen16
        have := List.length_pos_iff.mpr h
        have h00 : (0 : UInt16).toNat = 0 := rfl
        omega
      have hm : rns.map (·.toNat) ≠ [] := by simpa using h
      have e1 : le16 (1 : UInt16) = [1, 0] := rfl
      simp only [PtResponse.encode, hsec, hsdr, h, if_false, ServiceDataSet.encode, encodeAll,
        replyRecord_encode _ _ _ _ henc hrl, Go.ok_bind, Go.pure_def, List.append_nil, hbody, hm, le16_eq, hlen16, List.length_map]
      simp [leBytes]
  have hbl : body.length < 65525 := by
    rw [hbody]
    by_cases h : rns = []
    · simp [h, leBytes_len]
    · simp [h, leBytes_len]; omega
  have hbne : body ≠ [] := by rw [hbody]; simp [leBytes]
  have hfdl : sec.length16 = .ok (len16 body) := by unfold PtResponse.length16; rw [hx]; rfl
  unfold createPtResponse
  have h1 : (if (rns.map confirmation : List RecordData).isEmpty then .ok none else do
      let rl ← RecordDataSet.length16 (rns.map confirmation : List RecordData)
      pure (some [replyRecord rl st (rns.map confirmation)]) : Go (Option ServiceDataSet)) = .ok sdr := by
    by_cases h : rns = []
    · simp [hsdr, h]
    · have hl16 : RecordDataSet.length16 (rns.map confirmation : List RecordData) = .ok (len16 conf) := by
        unfold RecordDataSet.length16; rw [henc]; rfl
      have : (rns.map confirmation : List RecordData).isEmpty = false := by
        cases rns with
        | nil => exact absurd rfl h
        | cons => rfl
      rw [this, hl16]
      simp [hsdr, h]
  rw [h1]
  simp only [Go.ok_bind]
  rw [show ({ ResponsePacketID := pid, ProcessingResult := code, SDR := sdr } : PtResponse) = sec from rfl, hfdl]
  simp only [Go.ok_bind]
  set p := replyPackage (len16 body) pid (.response sec) with hp
  have hflags : parseFlags (p.Prefix ++ p.Route ++ p.EncryptionAlg ++ p.Compression ++ p.Priority) = .ok 0 := by kernel_rfl
  obtain ⟨hl, rfl, he⟩ := encode_eq p 0 body hflags hx
  rw [he]
  simp only [Go.ok_bind, Go.pure_def]
  congr 1
  have hpos : 0 < len16 body := len16_pos body (by omega) hbne
  have hlb : (len16 body).toNat = body.length := by
    unfold len16; rw [UInt16.toNat_ofNat']; exact Nat.mod_eq_of_lt (by omega)
  have hpid1 : le16 (pid + 1) = leBytes 2 (pid.toNat + 1) := by
    rw [le16_eq]
    have : (pid + 1).toNat = (pid.toNat + 1) % 65536 := by rw [UInt16.toNat_add]; rfl
    rw [this]
    simp only [leBytes]
    congr 2
    · omega
    · congr 1; omega
  have hhdr : hdrOf p 0 (if p.HeaderLength = 0 then UInt8.ofNat p.headerBytes else p.HeaderLength) (len16 body) =
      [1, 0, 0, 11, 0] ++ leBytes 2 body.length ++ leBytes 2 (pid.toNat + 1) ++ [0] := by
    rw [← hpid1, ← hlb, ← le16_eq]
    rfl
  unfold answerBytes
  simp only [← hconf, ← hbody]
  rw [if_pos hpos, hhdr]
  unfold packet
  rw [le16_eq]
  simp only [List.append_assoc]

end Egts
