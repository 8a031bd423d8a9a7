import Verif.Model.Server
import Verif.Spec.Server
import Verif.Props.Package
set_option autoImplicit false
/- The packets the server sends (createPtResponse, createSrResultCode). -/
namespace Egts
open Frame
variable [P : Platform]

theorem confirmation_encode (rn : UInt16) : (confirmation rn : RecordData).encode = .ok ([0, 3, 0] ++ le16 rn ++ [0]) :=
  rd_encode_eq _ _ 0 3 _ rfl rfl rfl rfl

theorem confirmations_encode (rns : List UInt16) :
    ∃ b, RecordDataSet.encode (rns.map confirmation : List RecordData) = .ok b ∧ b.length = 6 * rns.length := by
  induction rns with
  | nil => exact ⟨[], rfl, rfl⟩
  | cons rn rns ih =>
    obtain ⟨b, hb, hl⟩ := ih
    refine ⟨[0, 3, 0] ++ le16 rn ++ [0] ++ b, ?_, by simp [length_le16, hl]; omega⟩
    unfold RecordDataSet.encode at hb ⊢
    simp only [List.map_cons, encodeAll, confirmation_encode, hb, Go.ok_bind, Go.pure_def]

theorem confirmation_wf (rn : UInt16) : (confirmation rn : RecordData).WellFormed :=
  ⟨⟨_, rfl, .inl rfl⟩, ⟨_, _, rfl, rfl, by simp [length_le16], .inr rfl⟩, _, rfl, trivial⟩

theorem confirmation_same {rn : UInt16} {rd : RecordData} (h : (confirmation rn : RecordData).Same rd) :
    rd = confirmation rn := by
  obtain ⟨d, b, d', hd, hb, hs, rfl⟩ := h
  obtain rfl := Option.some.inj hd
  have hs' : d' = .response { ConfirmedRecordNumber := rn, RecordStatus := 0 } := hs
  subst hs'
  have : b.length = 3 := by
    have := Go.ok.inj hb
    rw [← this]; simp [length_le16]
  rw [this]
  rfl

theorem confirmations_same (rns : List UInt16) (l : List RecordData)
    (h : List.Forall₂ RecordData.Same (rns.map confirmation) l) : l = rns.map confirmation := by
  induction rns generalizing l with
  | nil => cases h; rfl
  | cons rn rns ih =>
    cases h with
    | cons h1 h2 => rw [confirmation_same h1, ih _ h2]; rfl

omit P in
theorem isB0 : IsBit [48] := .inl rfl
omit P in
theorem isB1 : IsBit [49] := .inr rfl
omit P in
theorem isB00 : IsBit2 [48, 48] := ⟨[48], [48], isB0, isB0, rfl⟩

theorem replyPackage_flags (fdl pid : UInt16) (body : Body) : (replyPackage fdl pid body).FlagsOk :=
  ⟨isB00, isB0, isB00, isB0, isB00⟩

theorem replyRecord_flags (rl : UInt16) (st : UInt8) (rds : List RecordData) : (replyRecord rl st rds).FlagsOk :=
  ⟨isB0, isB0, isB1, isB00, isB0, isB0, isB0⟩

theorem replyRecord_encode (rl : UInt16) (st : UInt8) (rds : List RecordData) (b : Bytes)
    (hb : RecordDataSet.encode rds = .ok b) (hrl : rl ≠ 0) :
    (replyRecord rl st rds).encode = .ok (le16 rl ++ le16 1 ++ [32] ++ [st, st] ++ b) := by
  unfold ServiceDataRecord.encode
  have h1 : (replyRecord rl st rds).RecordDataSet = rds := rfl
  have h2 : parseFlags ((replyRecord rl st rds).SourceServiceOnDevice ++ (replyRecord rl st rds).RecipientServiceOnDevice ++
    (replyRecord rl st rds).Group ++ (replyRecord rl st rds).RecordProcessingPriority ++
    (replyRecord rl st rds).TimeFieldExists ++ (replyRecord rl st rds).EventIDFieldExists ++
    (replyRecord rl st rds).ObjectIDFieldExists) = .ok 32 := by kernel_rfl
  rw [h1, hb, h2]
  simp only [Go.ok_bind, Go.pure_def]
  have h3 : (replyRecord rl st rds).RecordLength = rl := rfl
  rw [h3, if_neg hrl]
  simp [replyRecord]

/-- what Encode produces is one complete frame -/
theorem encode_framed (p q : Package) (out b : Bytes) (h : p.encode = .ok (out, q)) (hb : p.HasBody b) (hv : p.ProtocolVersion = 1)
    (hhl : p.HeaderLength = 0 ∨ p.HeaderLength.toNat = p.headerBytes) (hlt : p.headerBytes + b.length + 2 < 65536) :
    Framed out := by
  obtain ⟨fl, hdr, ho, hh, hlen, -⟩ := encode_layout p q out b h hb (by omega)
  have hHL : (if p.HeaderLength = 0 then UInt8.ofNat p.headerBytes else p.HeaderLength).toNat = p.headerBytes := by
    by_cases h0 : p.HeaderLength = 0
    · rw [if_pos h0, UInt8.toNat_ofNat']
      unfold Package.headerBytes; split <;> rfl
    · rw [if_neg h0]
      rcases hhl with h1 | h1
      · exact absurd h1 h0
      · exact h1
  have hb0 : byteAt out 0 = p.ProtocolVersion := by rw [ho, hh]; rfl
  have hb3 : declaredHL out = p.headerBytes := by rw [← hHL, ho, hh]; rfl
  have hw : declaredFDL out = b.length := by
    have h5 : declaredFDL out = leValue [UInt8.ofNat (b.length % 256), UInt8.ofNat (b.length / 256 % 256)] := by
      rw [ho, hh]; rfl
    rw [h5]
    simp only [leValue, UInt8.toNat_ofNat']
    omega
  have h11 : 11 ≤ p.headerBytes := by unfold Package.headerBytes; split <;> omega
  have hfr : frameLen out = out.length := by
    unfold frameLen
    rw [hb3, hw, ho]
    by_cases hbe : b = []
    · subst hbe; simp; omega
    · have : b.length ≠ 0 := by simpa using hbe
      rw [if_neg this, if_neg hbe]
      simp [leBytes]
      omega
  have hol : frameLen out ≤ p.headerBytes + b.length + 2 := by unfold frameLen; rw [hb3, hw]; split <;> omega
  exact ⟨by rw [hb0, hv], by unfold frameLen; rw [hb3]; omega, hfr.symm, by omega⟩

/-- what the packet sent by `createPtResponse` says -/
theorem ptReply (pid : UInt16) (code st : UInt8) (rns : List UInt16) (hn : rns.length < 10000) :
    ∃ out, createPtResponse pid code st (rns.map confirmation) = .ok out ∧ Framed out ∧ out.length ≤ 24 + 6 * rns.length ∧ ∀ spare,
      ∃ q r, Package.decode {} out spare = .ret 0 none q ∧ q.PacketType = 0 ∧ q.PacketIdentifier = pid + 1 ∧
        q.ServicesFrameData = some (.response r) ∧ r.ResponsePacketID = pid ∧ r.ProcessingResult = code ∧
        (rns = [] → r.SDR = none) ∧
        (rns ≠ [] → ∃ rec, r.SDR = some [rec] ∧ rec.RecordDataSet = rns.map confirmation ∧
          rec.SourceServiceType = st ∧ rec.RecipientServiceType = st) := by
  obtain ⟨b, hb, hbl⟩ := confirmations_encode rns
  set sdr : Option ServiceDataSet :=
    if rns = [] then none else some [replyRecord (len16 b) st (rns.map confirmation)] with hsdr
  set sec : PtResponse := { ResponsePacketID := pid, ProcessingResult := code, SDR := sdr } with hsec
  have hlen : (len16 b).toNat = b.length := by
    unfold len16; rw [UInt16.toNat_ofNat']; exact Nat.mod_eq_of_lt (by omega)
  have hrec : (replyRecord (len16 b) st (rns.map confirmation)).WellFormed := by
    refine ⟨replyRecord_flags _ _ _, ⟨b, hb, by omega, .inr hlen⟩, ?_⟩
    intro rd hrd
    obtain ⟨rn, -, rfl⟩ := List.mem_map.mp hrd
    exact confirmation_wf rn
  have hwf : sec.WellFormed := by
    unfold PtResponse.WellFormed
    by_cases h : rns = []
    · simp [hsec, hsdr, h]
    · simp [hsec, hsdr, h, hrec]
  have henc : ∃ x, sec.encode = .ok x ∧ x.length ≤ 10 + b.length ∧ x ≠ [] := by
    by_cases h : rns = []
    · refine ⟨le16 pid ++ [code], ?_, by simp [length_le16]; omega, by simp⟩
      simp [PtResponse.encode, hsec, hsdr, h]
    · have hrl : len16 b ≠ 0 := by
        intro h0
        have : (len16 b).toNat = 0 := by rw [h0]; rfl
        have := List.length_pos_iff.mpr h
        omega
      refine ⟨le16 pid ++ [code] ++ (le16 (len16 b) ++ le16 1 ++ [32] ++ [st, st] ++ b), ?_,
        by simp [length_le16]; omega, by simp⟩
      simp only [PtResponse.encode, hsec, hsdr, h, if_false, ServiceDataSet.encode, encodeAll,
        replyRecord_encode _ _ _ _ hb hrl, Go.ok_bind, Go.pure_def, List.append_nil]
  obtain ⟨x, hx, hxl, hxne⟩ := henc
  have hfdl : sec.length16 = .ok (len16 x) := by unfold PtResponse.length16; rw [hx]; rfl
  set p := replyPackage (len16 x) pid (.response sec) with hp
  have hpwf : p.WellFormed := by
    refine ⟨replyPackage_flags _ _ _, .inr rfl, .inr ⟨rfl, sec, rfl, hwf⟩, ?_⟩
    intro b' hb'
    have : b' = x := Go.ok.inj (hb'.symm.trans hx)
    have h11 : p.headerBytes = 11 := rfl
    rw [this, h11]; omega
  have hcreate : ∀ out q, p.encode = .ok (out, q) → createPtResponse pid code st (rns.map confirmation) = .ok out := by
    intro out q ho
    unfold createPtResponse
    have h1 : (if (rns.map confirmation : List RecordData).isEmpty then .ok none else do
        let rl ← RecordDataSet.length16 (rns.map confirmation : List RecordData)
        pure (some [replyRecord rl st (rns.map confirmation)]) : Go (Option ServiceDataSet)) = .ok sdr := by
      by_cases h : rns = []
      · simp [hsdr, h]
      · have hl16 : RecordDataSet.length16 (rns.map confirmation : List RecordData) = .ok (len16 b) := by
          unfold RecordDataSet.length16; rw [hb]; rfl
        have : (rns.map confirmation : List RecordData).isEmpty = false := by
          cases rns with
          | nil => exact absurd rfl h
          | cons => rfl
        rw [this, hl16]
        simp [hsdr, h]
    rw [h1]
    simp only [Go.ok_bind]
    rw [show ({ ResponsePacketID := pid, ProcessingResult := code, SDR := sdr } : PtResponse) = sec from rfl, hfdl]
    simp only [Go.ok_bind]
    rw [← hp, ho]
    rfl
  obtain ⟨out, q0, -, -, -, he, -⟩ := package_roundtrip p hpwf []
  have hfr : Framed out := by
    refine encode_framed p q0 out x he hx rfl (.inr rfl) ?_
    have h11 : p.headerBytes = 11 := rfl
    omega
  have hlo : out.length ≤ 24 + 6 * rns.length := by
    obtain ⟨fl, hdr, ho, -, hl, -⟩ := encode_layout p q0 out x he hx (by omega)
    have h11 : p.headerBytes = 11 := rfl
    rw [ho, if_neg hxne]
    simp [leBytes]
    omega
  refine ⟨out, hcreate out q0 he, hfr, hlo, fun spare => ?_⟩
  obtain ⟨out', q, y, body, body', he', hy, hbody, hsame, hdec⟩ := package_roundtrip p hpwf spare
  obtain ⟨rfl, rfl⟩ : out' = out ∧ q = q0 := by
    have := Go.ok.inj (he'.symm.trans he)
    exact ⟨(Prod.mk.inj this).1, (Prod.mk.inj this).2⟩
  obtain rfl : body = .response sec := (Option.some.inj hbody).symm
  obtain ⟨r, rfl, hr1, hr2, hr3⟩ := hsame
  refine ⟨_, r, hdec, rfl, rfl, rfl, hr1, hr2, ?_, ?_⟩
  · intro h
    have hs : sec.SDR = none := by simp [hsec, hsdr, h]
    rw [hs] at hr3
    cases hq : r.SDR with
    | none => rfl
    | some l => rw [hq] at hr3; exact hr3.elim
  · intro h
    have hs : sec.SDR = some [replyRecord (len16 b) st (rns.map confirmation)] := by simp [hsec, hsdr, h]
    rw [hs] at hr3
    cases hq : r.SDR with
    | none => rw [hq] at hr3; exact hr3.elim
    | some l =>
      rw [hq] at hr3
      have hr3' : List.Forall₂ ServiceDataRecord.Same [replyRecord (len16 b) st (rns.map confirmation)] l := hr3
      cases hr3' with
      | cons h1 h2 =>
        cases h2
        obtain ⟨b1, rds, hb1, hrds, rfl⟩ := h1
        refine ⟨_, rfl, ?_, rfl, rfl⟩
        exact confirmations_same rns rds hrds

end Egts
