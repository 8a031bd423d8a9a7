import Verif.Spec.Package
import Verif.Props.Records
import Verif.Props.Decode2
set_option autoImplicit false
/- C13-C15: packages. -/
namespace Egts
open Frame
variable [P : Platform]

theorem hasBody_iff (p : Package) (b : Bytes) : p.HasBody b ↔
    (match p.ServicesFrameData with
    | none => .ok []
    | some b => b.encode : Go Bytes) = .ok b := by
  unfold Package.HasBody
  cases p.ServicesFrameData with
  | none => simp [eq_comm]
  | some x => cases x <;> rfl

/-- the header bytes before the checksum -/
def hdrOf (p : Package) (fl hl : UInt8) (fdl : UInt16) : Bytes :=
  [p.ProtocolVersion, p.SecurityKeyID, fl, hl, p.HeaderEncoding] ++ le16 fdl ++ le16 p.PacketIdentifier ++ [p.PacketType]
    ++ (if p.Route == [49] then le16 p.PeerAddress ++ le16 p.RecipientAddress ++ [p.TimeToLive] else [])

theorem encode_eq (p : Package) (fl : UInt8) (b : Bytes)
    (hf : parseFlags (p.Prefix ++ p.Route ++ p.EncryptionAlg ++ p.Compression ++ p.Priority) = .ok fl) (hb : p.HasBody b) :
    ∃ hl, hl = (if p.HeaderLength = 0 then UInt8.ofNat p.headerBytes else p.HeaderLength) ∧
    p.encode = .ok (hdrOf p fl hl (len16 b) ++ [crc8 (hdrOf p fl hl (len16 b))] ++
      (if 0 < len16 b then b ++ le16 (crc16 b) else []), { p with HeaderLength := hl, FrameDataLength := len16 b }) := by
  rw [hasBody_iff] at hb
  refine ⟨_, rfl, ?_⟩
  have e : (if p.HeaderLength = 0 then (if p.Route == [49] then (11 + 5 : UInt8) else 11) else p.HeaderLength) =
      if p.HeaderLength = 0 then UInt8.ofNat p.headerBytes else p.HeaderLength := by
    unfold Package.headerBytes
    by_cases h : p.Route = [49]
    · simp [h]
    · simp [h]
  unfold Package.encode hdrOf
  rw [hf]
  simp only [Go.ok_bind, e, Go.pure_def, GT.gt]
  cases hs : p.ServicesFrameData with
  | none =>
    rw [hs] at hb
    cases hb
    simp only [Go.ok_bind]
    by_cases h0 : 0 < len16 []
    · simp only [h0, if_true, List.append_assoc]
    · simp only [h0, if_false, List.append_nil]
  | some x =>
    rw [hs] at hb
    simp only at hb
    simp only [hb, Go.ok_bind]
    by_cases h0 : 0 < len16 b
    · simp only [h0, if_true, List.append_assoc]
    · simp only [h0, if_false, List.append_nil]

theorem flags_parse (p : Package) (h : p.FlagsOk) : ∃ fl : UInt8,
    parseFlags (p.Prefix ++ p.Route ++ p.EncryptionAlg ++ p.Compression ++ p.Priority) = .ok fl ∧
    p.Prefix = bitText fl 7 ++ bitText fl 6 ∧ p.Route = bitText fl 5 ∧ p.EncryptionAlg = bitText fl 4 ++ bitText fl 3 ∧
    p.Compression = bitText fl 2 ∧ p.Priority = bitText fl 1 ++ bitText fl 0 := by
  obtain ⟨⟨a, b, ha, hb, h1⟩, h2, ⟨c, d, hc, hd, h3⟩, h4, e, f, he, hf, h5⟩ := h
  obtain ⟨a, rfl⟩ := isBit_iff.mp ha
  obtain ⟨b, rfl⟩ := isBit_iff.mp hb
  obtain ⟨c, rfl⟩ := isBit_iff.mp hc
  obtain ⟨d, rfl⟩ := isBit_iff.mp hd
  obtain ⟨e, rfl⟩ := isBit_iff.mp he
  obtain ⟨f, rfl⟩ := isBit_iff.mp hf
  obtain ⟨r, hr⟩ := isBit_iff.mp h2
  obtain ⟨m, hm⟩ := isBit_iff.mp h4
  refine ⟨flagByte a b r c d m e f, ?_, ?_⟩
  · rw [h1, hr, h3, hm, h5]; exact parse_bits _ _ _ _ _ _ _ _
  · obtain ⟨t7, t6, t5, t4, t3, t2, t1, t0, -⟩ := bitText_flagByte a b r c d m e f
    rw [h1, hr, h3, hm, h5, t7, t6, t5, t4, t3, t2, t1, t0]
    exact ⟨rfl, rfl, rfl, rfl, rfl⟩

omit P in
theorem le16_two (x : UInt16) : ∃ a b, le16 x = [a, b] ∧ u16 [a, b] = x := ⟨_, _, rfl, u16_le16' x⟩

/-- decoding a complete frame -/
theorem frame_decode (p : Package) (fl hl : UInt8) (b : Bytes) (body : Body) (spare : Bytes)
    (h1 : p.Prefix = bitText fl 7 ++ bitText fl 6) (h2 : p.Route = bitText fl 5)
    (h3 : p.EncryptionAlg = bitText fl 4 ++ bitText fl 3) (h4 : p.Compression = bitText fl 2)
    (h5 : p.Priority = bitText fl 1 ++ bitText fl 0) (hhl : hl.toNat = p.headerBytes)
    (hfit : p.headerBytes + b.length < 65536) (hne : b ≠ []) (hpt : p.PacketType = 0 ∨ p.PacketType = 1)
    (hd : decodeBody p.PacketType b = .ok body) (H out : Bytes) (hH : H = hdrOf p fl hl (len16 b))
    (hout : out = H ++ [crc8 H] ++ (b ++ le16 (crc16 b))) :
    Package.decode {} out spare = .ret 0 none (p.received out b body) := by
  have hlt : b.length < 65536 := by omega
  have hlen : (len16 b).toNat = b.length := by
    unfold len16; rw [UInt16.toNat_ofNat']; exact Nat.mod_eq_of_lt hlt
  obtain ⟨f0, f1, hf, hfu⟩ := le16_two (len16 b)
  obtain ⟨i0, i1, hi, hiu⟩ := le16_two p.PacketIdentifier
  obtain ⟨a0, a1, ha, hau⟩ := le16_two p.PeerAddress
  obtain ⟨r0, r1, hr, hru⟩ := le16_two p.RecipientAddress
  obtain ⟨c0, c1, hc, hcu⟩ := le16_two (crc16 b)
  have hHL : H.length + 1 = p.headerBytes := by
    rw [hH]; unfold hdrOf Package.headerBytes
    by_cases h : p.Route = [49]
    · simp [h]
    · simp [h]
  have hb2 : byteAt out 2 = fl := by rw [hout, hH]; rfl
  have hrt : routed out = decide (p.Route = [49]) := by
    unfold routed; rw [hb2, h2]
    unfold bitText
    cases fl.toNat.testBit 5 <;> simp
  have hhs : headerSize out = p.headerBytes := by
    unfold headerSize Package.headerBytes; rw [hrt]; simp
  have hfdl : declaredFDL out = b.length := by
    have e5 : byteAt out 5 = f0 := by simp [hout, hH, hdrOf, byteAt, hf]
    have e6 : byteAt out 6 = f1 := by simp [hout, hH, hdrOf, byteAt, hf]
    rw [← fdl_eq, e5, e6, hfu, hlen]
  have hol : out.length = p.headerBytes + b.length + 2 := by
    simp only [hout, List.length_append, List.length_singleton, hc, List.length_cons, List.length_nil]; omega
  have hcons : Consistent out := by
    refine ⟨by omega, ?_, by omega⟩
    rw [hhs, ← hhl, hout, hH]; rfl
  have htake : out.take (p.headerBytes - 1) = H := by
    have : p.headerBytes - 1 = H.length := by omega
    simp [hout, this]
  have hcs : byteAt out (p.headerBytes - 1) = crc8 H := by
    have : p.headerBytes - 1 = H.length := by omega
    rw [this]; simp [hout, byteAt]
  have hdrop : out.drop p.headerBytes = b ++ le16 (crc16 b) := by
    rw [← hHL]
    have : H.length + 1 = (H ++ [crc8 H]).length := by simp
    rw [this, hout]; exact List.drop_left
  have hbody : bodyBytes out = b := by
    unfold bodyBytes; rw [hhs, hfdl, hdrop]
    have : b.length - (out.length - p.headerBytes) = 0 := by omega
    rw [this]; simp [zeros]
  have htail : tailBytes out = le16 (crc16 b) := by
    unfold tailBytes; rw [hhs, hfdl, ← List.drop_drop, hdrop]; exact List.drop_left
  have hpt' : byteAt out 9 = p.PacketType := by simp [hout, hH, hdrOf, byteAt, hf, hi]
  rw [decode_consistent {} out spare hcons, hhs, htake, hcs, hpt', hbody, htail, hd, if_neg (by simp), if_neg (by omega),
    if_neg (by rcases hpt with h | h <;> simp [h]), hc]
  have ht2 : ([c0, c1] : Bytes).take 2 ++ (zeros 2).drop ([c0, c1] : Bytes).length = [c0, c1] := rfl
  simp only [ht2, hcu, ne_eq, not_true_eq_false, if_false, List.cons_ne_nil, reduceCtorEq]
  congr 1
  have e0 : byteAt out 0 = p.ProtocolVersion := by rw [hout, hH]; rfl
  have e1 : byteAt out 1 = p.SecurityKeyID := by rw [hout, hH]; rfl
  have e3 : byteAt out 3 = UInt8.ofNat p.headerBytes := by
    have : byteAt out 3 = hl := by rw [hout, hH]; rfl
    rw [this, ← hhl]; simp
  have e4 : byteAt out 4 = p.HeaderEncoding := by rw [hout, hH]; rfl
  have e5 : u16 [byteAt out 5, byteAt out 6] = UInt16.ofNat b.length := by
    have e5 : byteAt out 5 = f0 := by simp [hout, hH, hdrOf, byteAt, hf]
    have e6 : byteAt out 6 = f1 := by simp [hout, hH, hdrOf, byteAt, hf]
    rw [e5, e6, hfu]; rfl
  have e7 : u16 [byteAt out 7, byteAt out 8] = p.PacketIdentifier := by
    have e7 : byteAt out 7 = i0 := by simp [hout, hH, hdrOf, byteAt, hf, hi]
    have e8 : byteAt out 8 = i1 := by simp [hout, hH, hdrOf, byteAt, hf, hi]
    rw [e7, e8, hiu]
  have er : p.Route = [49] → u16 [byteAt out 10, byteAt out 11] = p.PeerAddress ∧
      u16 [byteAt out 12, byteAt out 13] = p.RecipientAddress ∧ byteAt out 14 = p.TimeToLive := by
    intro hroute
    have q : ∀ i, 10 ≤ i → i < 15 → byteAt out i = byteAt [a0, a1, r0, r1, p.TimeToLive] (i - 10) := by
      intro i h1 h2
      have : i = 10 ∨ i = 11 ∨ i = 12 ∨ i = 13 ∨ i = 14 := by omega
      rcases this with rfl | rfl | rfl | rfl | rfl <;> simp [hout, hH, hdrOf, byteAt, hf, hi, hroute, ha, hr]
    rw [q 10 (by omega) (by omega), q 11 (by omega) (by omega), q 12 (by omega) (by omega), q 13 (by omega) (by omega),
      q 14 (by omega) (by omega)]
    exact ⟨hau, hru, rfl⟩
  unfold Package.received hdrPkg
  rw [htake, hrt, hhs, hcs, hpt', hb2, ← h1, ← h2, ← h3, ← h4, ← h5, e0, e1, e3, e4, e5, e7]
  by_cases hroute : p.Route = [49]
  · obtain ⟨q1, q2, q3⟩ := er hroute
    simp only [hroute, decide_true, if_true, q1, q2, q3]
  · simp only [hroute, decide_false, Bool.false_eq_true, if_false]

/-! ### C13 -/

theorem len16_pos (b : Bytes) (h : b.length < 65536) (hne : b ≠ []) : 0 < len16 b := by
  rw [UInt16.lt_iff_toNat_lt]
  unfold len16
  rw [UInt16.toNat_ofNat', Nat.mod_eq_of_lt h]
  exact List.length_pos_iff.mpr hne

/-- C13 (composition): a package whose flags have their widths, whose header length is right or left 0 and whose
non-empty body, of the kind given by the packet type, comes back from its encoding as `body`, is encoded successfully
and comes back with code 0, `body`, all header fields, and the derived fields filled in. -/
theorem package_composes (p : Package) (b : Bytes) (body : Body) (spare : Bytes) (hf : p.FlagsOk)
    (hhl : p.HeaderLength = 0 ∨ p.HeaderLength.toNat = p.headerBytes) (hb : p.HasBody b) (hne : b ≠ [])
    (hfit : p.headerBytes + b.length < 65536)
    (hd : (p.PacketType = 1 ∧ ∃ l, body = .appdata l ∧ ServiceDataSet.decode [] b = .ok l) ∨
      (p.PacketType = 0 ∧ ∃ r, body = .response r ∧ PtResponse.decode {} b = .ok r)) :
    ∃ out q, p.encode = .ok (out, q) ∧ Package.decode {} out spare = .ret 0 none (p.received out b body) := by
  obtain ⟨fl, hp, h1, h2, h3, h4, h5⟩ := flags_parse p hf
  obtain ⟨hl, hhl', he⟩ := encode_eq p fl b hp hb
  have hpos := len16_pos b (by omega) hne
  rw [if_pos hpos] at he
  refine ⟨_, _, he, ?_⟩
  refine frame_decode p fl hl b body spare h1 h2 h3 h4 h5 ?_ hfit hne ?_ ?_ _ _ rfl rfl
  · rw [hhl']
    rcases hhl with h | h
    · rw [if_pos h]
      unfold Package.headerBytes
      split <;> rfl
    · rw [if_neg ?_, h]
      intro h0
      rw [h0] at h
      unfold Package.headerBytes at h
      split at h <;> simp at h
  · rcases hd with h | h
    · exact .inr h.1
    · exact .inl h.1
  · unfold decodeBody
    rcases hd with ⟨ht, l, rfl, hl⟩ | ⟨ht, r, rfl, hr⟩
    · rw [if_pos ht, hl]; rfl
    · rw [ht, hr]; rfl

/-- C13: every well-formed package (APPDATA with any number of records and subrecords of all kinds, or RESPONSE) is
encoded successfully; decoding the result into a fresh package succeeds with code 0 and yields the package with its
derived fields filled in and the same body. -/
theorem package_roundtrip (p : Package) (h : p.WellFormed) (spare : Bytes) :
    ∃ out q b body body', p.encode = .ok (out, q) ∧ p.HasBody b ∧ p.ServicesFrameData = some body ∧ body.Same body' ∧
      Package.decode {} out spare = .ret 0 none (p.received out b body') := by
  rcases h.body with ⟨ht, l, hl, hne, hw⟩ | ⟨ht, r, hr, hw⟩
  · obtain ⟨b, l', hb, hd, hs⟩ := sds_roundtrip l hw
    have hB : p.HasBody b := by unfold Package.HasBody; rw [hl]; exact hb
    have hbne : b ≠ [] := by
      rintro rfl
      unfold ServiceDataSet.decode sdsDecodeWith Dec.run at hd
      rw [sds_loop_unfold, if_pos rfl] at hd
      have : l' = [] := (Out.ok.inj hd).symm
      subst this
      cases hs
      exact hne rfl
    obtain ⟨out, q, he, hdec⟩ := package_composes p b (.appdata l') spare h.flags h.hl hB hbne (h.fits b hB)
      (.inl ⟨ht, l', rfl, hd⟩)
    exact ⟨out, q, b, _, _, he, hB, hl, ⟨l', rfl, hs⟩, hdec⟩
  · obtain ⟨b, r', hb, hd, hs⟩ := ptresponse_roundtrip r hw
    have hB : p.HasBody b := by unfold Package.HasBody; rw [hr]; exact hb
    have hbne : b ≠ [] := by
      rintro rfl
      have : PtResponse.decode {} [] = .err .eof {} := rfl
      rw [this] at hd; cases hd
    obtain ⟨out, q, he, hdec⟩ := package_composes p b (.response r') spare h.flags h.hl hB hbne (h.fits b hB)
      (.inr ⟨ht, r', rfl, hd⟩)
    exact ⟨out, q, b, _, _, he, hB, hr, ⟨r', rfl, hs⟩, hdec⟩

/-- a package without body (or APPDATA without records) is encoded, but the result cannot be decoded (code 132): this is
why C13 asks for at least one record. -/
theorem package_empty_body (p : Package) (hf : p.FlagsOk) (hb : p.HasBody [])
    (hhl : p.HeaderLength = 0 ∨ p.HeaderLength.toNat = p.headerBytes) :
    ∃ out q, p.encode = .ok (out, q) ∧ out.length = p.headerBytes ∧
      ∃ p', Package.decode {} out [] = .ret 132 (some .eof) p' := by
  obtain ⟨fl, hp, h1, h2, h3, h4, h5⟩ := flags_parse p hf
  obtain ⟨hl, hhl', he⟩ := encode_eq p fl [] hp hb
  rw [if_neg (show ¬ 0 < len16 [] by decide), List.append_nil] at he
  have hhlv : hl.toNat = p.headerBytes := by
    rw [hhl']
    rcases hhl with h | h
    · rw [if_pos h]; unfold Package.headerBytes; split <;> rfl
    · rw [if_neg ?_, h]
      intro h0
      rw [h0] at h
      unfold Package.headerBytes at h
      split at h <;> simp at h
  generalize hH : hdrOf p fl hl (len16 []) = H at he
  have hHL : H.length + 1 = p.headerBytes := by
    rw [← hH]; unfold hdrOf Package.headerBytes
    by_cases h : p.Route = [49]
    · simp [h]
    · simp [h]
  refine ⟨_, _, he, by simp [hHL], ?_⟩
  generalize hout : H ++ [crc8 H] = out
  have hb2 : byteAt out 2 = fl := by rw [← hout, ← hH]; rfl
  have hrt : routed out = decide (p.Route = [49]) := by
    unfold routed; rw [hb2, h2]
    unfold bitText
    cases fl.toNat.testBit 5 <;> simp
  have hhs : headerSize out = p.headerBytes := by
    unfold headerSize Package.headerBytes; rw [hrt]; simp
  have hol : out.length = p.headerBytes := by rw [← hout]; simp [hHL]
  have hfdl : declaredFDL out = 0 := by
    have e5 : byteAt out 5 = 0 := by rw [← hout, ← hH]; rfl
    have e6 : byteAt out 6 = 0 := by rw [← hout, ← hH]; rfl
    rw [← fdl_eq, e5, e6]; rfl
  have hcons : Consistent out := by
    refine ⟨by omega, ?_, ?_⟩
    · rw [hhs, ← hhlv, ← hout, ← hH]; rfl
    · rw [hfdl]; rcases headerSize_cases out with h | h <;> rw [h] <;> decide
  have htake : out.take (p.headerBytes - 1) = H := by
    have : p.headerBytes - 1 = H.length := by omega
    simp [← hout, this]
  have hcs : byteAt out (p.headerBytes - 1) = crc8 H := by
    have : p.headerBytes - 1 = H.length := by omega
    rw [this]; simp [← hout, byteAt]
  rw [decode_consistent {} out [] hcons, hhs, htake, hcs, if_neg (by simp), if_pos hol]
  exact ⟨_, rfl⟩

/-! ### C14, C15 -/

/-- C14: layout of every encoded package whose body is shorter than 65536 bytes. The flag byte holds the concatenated
flag strings when these have their widths. -/
theorem encode_layout (p q : Package) (out b : Bytes) (h : p.encode = .ok (out, q)) (hb : p.HasBody b)
    (hlt : b.length < 65536) : ∃ (fl : UInt8) (hdr : Bytes),
    out = hdr ++ [crc8 hdr] ++ (if b = [] then [] else b ++ leBytes 2 (crc16 b).toNat) ∧
    hdr = [p.ProtocolVersion, p.SecurityKeyID, fl, if p.HeaderLength = 0 then UInt8.ofNat p.headerBytes else p.HeaderLength,
        p.HeaderEncoding] ++ leBytes 2 b.length ++ leBytes 2 p.PacketIdentifier.toNat ++ [p.PacketType] ++
      (if p.Route = [49] then leBytes 2 p.PeerAddress.toNat ++ leBytes 2 p.RecipientAddress.toNat ++ [p.TimeToLive]
        else []) ∧
    hdr.length + 1 = p.headerBytes ∧
    (p.FlagsOk → p.Prefix ++ p.Route ++ p.EncryptionAlg ++ p.Compression ++ p.Priority =
      bitText fl 7 ++ bitText fl 6 ++ bitText fl 5 ++ bitText fl 4 ++ bitText fl 3 ++ bitText fl 2 ++ bitText fl 1 ++
      bitText fl 0) := by
  cases hp : parseFlags (p.Prefix ++ p.Route ++ p.EncryptionAlg ++ p.Compression ++ p.Priority) with
  | err e => unfold Package.encode at h; rw [hp] at h; simp at h
  | panic => unfold Package.encode at h; rw [hp] at h; simp at h
  | ok fl =>
    obtain ⟨hl, rfl, he⟩ := encode_eq p fl b hp hb
    rw [h] at he
    simp only [Go.ok.injEq, Prod.mk.injEq] at he
    have hlen : (len16 b).toNat = b.length := by
      unfold len16; rw [UInt16.toNat_ofNat']; exact Nat.mod_eq_of_lt hlt
    refine ⟨fl, hdrOf p fl (if p.HeaderLength = 0 then UInt8.ofNat p.headerBytes else p.HeaderLength) (len16 b), ?_, ?_, ?_, ?_⟩
    · rw [he.1, ← le16_eq]
      by_cases h0 : b = []
      · rw [if_pos h0, h0, if_neg (show ¬ 0 < len16 [] by decide)]
      · rw [if_neg h0, if_pos (len16_pos b hlt h0)]
    · unfold hdrOf
      rw [← hlen, ← le16_eq, ← le16_eq, ← le16_eq, ← le16_eq]
      by_cases h : p.Route = [49]
      · simp [h]
      · simp [h]
    · unfold hdrOf Package.headerBytes
      by_cases h : p.Route = [49]
      · simp [h]
      · simp [h]
    · intro hf
      obtain ⟨fl', hp', h1, h2, h3, h4, h5⟩ := flags_parse p hf
      obtain rfl : fl' = fl := Go.ok.inj (hp'.symm.trans hp)
      rw [h1, h2, h3, h4, h5]
      simp only [List.append_assoc]

/-- C15 (partial): if Encode succeeds and the body is shorter than 65536 bytes, the whole body is in the output, directly
after the header, and the declared body length is its length. -/
theorem encode_keeps_body_partial (p q : Package) (out b : Bytes) (h : p.encode = .ok (out, q)) (hb : p.HasBody b)
    (hlt : b.length < 65536) :
    (out.drop p.headerBytes).take b.length = b ∧ declaredFDL out = b.length := by
  obtain ⟨fl, hdr, ho, hh, hl, -⟩ := encode_layout p q out b h hb hlt
  constructor
  · rw [ho, ← hl]
    have : hdr.length + 1 = (hdr ++ [crc8 hdr]).length := by simp
    rw [this, List.drop_left]
    by_cases h0 : b = []
    · simp [h0]
    · rw [if_neg h0, List.take_left]
  · have hl2 : leBytes 2 b.length = [UInt8.ofNat b.length, UInt8.ofNat (b.length / 256)] := by
      simp only [leBytes]
      congr 1
      · apply UInt8.toNat_inj.mp; simp
      congr 1
      · apply UInt8.toNat_inj.mp; simp
    have e5 : byteAt out 5 = UInt8.ofNat b.length := by rw [ho, hh, hl2]; rfl
    have e6 : byteAt out 6 = UInt8.ofNat (b.length / 256) := by rw [ho, hh, hl2]; rfl
    unfold declaredFDL word16At
    rw [e5, e6]
    simp only [leValue, UInt8.toNat_ofNat']
    omega

/-- what Encode does with longer bodies: the declared body length is the length modulo 65536, and if that is 0 the
body is dropped. -/
theorem encode_overflow (p q : Package) (out b : Bytes) (h : p.encode = .ok (out, q)) (hb : p.HasBody b) :
    q.FrameDataLength.toNat = b.length % 65536 ∧
    out.length = p.headerBytes + (if b.length % 65536 = 0 then 0 else b.length + 2) := by
  cases hp : parseFlags (p.Prefix ++ p.Route ++ p.EncryptionAlg ++ p.Compression ++ p.Priority) with
  | err e => unfold Package.encode at h; rw [hp] at h; simp at h
  | panic => unfold Package.encode at h; rw [hp] at h; simp at h
  | ok fl =>
    obtain ⟨hl, -, he⟩ := encode_eq p fl b hp hb
    rw [h] at he
    simp only [Go.ok.injEq, Prod.mk.injEq] at he
    have hlen : (len16 b).toNat = b.length % 65536 := by
      unfold len16; rw [UInt16.toNat_ofNat']
    have hH : (hdrOf p fl hl (len16 b)).length + 1 = p.headerBytes := by
      unfold hdrOf Package.headerBytes
      by_cases h : p.Route = [49]
      · simp [h]
      · simp [h]
    constructor
    · rw [he.2]; exact hlen
    · rw [he.1]
      by_cases h0 : b.length % 65536 = 0
      · rw [if_pos h0, if_neg (by rw [UInt16.lt_iff_toNat_lt, hlen, h0]; decide)]
        simp [hH]
      · rw [if_neg h0, if_pos (by rw [UInt16.lt_iff_toNat_lt, hlen]; exact Nat.pos_of_ne_zero h0)]
        simp only [List.length_append, List.length_singleton, hH, length_le16]

/-- a record without subrecords, numbered 1 -/
def emptyRecord : ServiceDataRecord :=
  { RecordNumber := 1, SourceServiceOnDevice := [48], RecipientServiceOnDevice := [48], Group := [48],
    RecordProcessingPriority := [48, 48], TimeFieldExists := [48], EventIDFieldExists := [48], ObjectIDFieldExists := [48],
    SourceServiceType := 2, RecipientServiceType := 2 }

theorem emptyRecord_encode : emptyRecord.encode = .ok [0, 0, 1, 0, 0, 2, 2] := by kernel_rfl

theorem emptyRecords_encode (n : Nat) :
    ∃ b, ServiceDataSet.encode (List.replicate n emptyRecord) = .ok b ∧ b.length = 7 * n := by
  induction n with
  | zero => exact ⟨[], rfl, rfl⟩
  | succ n ih =>
    obtain ⟨b, hb, hl⟩ := ih
    refine ⟨[0, 0, 1, 0, 0, 2, 2] ++ b, ?_, by simp [hl]; omega⟩
    unfold ServiceDataSet.encode at hb ⊢
    rw [List.replicate_succ]
    simp only [encodeAll, emptyRecord_encode, hb, Go.ok_bind, Go.pure_def]

/-- C15 is false of the code: a package with 65536 records, whose body is 458752 bytes, is encoded successfully as the
11 bytes of a header that declares an empty body. -/
theorem encode_drops_body : ∃ (p q : Package) (out b : Bytes),
    p.ServicesFrameData = some (.appdata (List.replicate 65536 emptyRecord)) ∧ p.HasBody b ∧ b.length = 458752 ∧
    p.encode = .ok (out, q) ∧ out.length = 11 ∧ q.FrameDataLength = 0 := by
  obtain ⟨b, hb, hl⟩ := emptyRecords_encode 65536
  let p : Package := {
    Prefix := [48, 48], Route := [48], EncryptionAlg := [48, 48], Compression := [48], Priority := [48, 48]
    PacketType := 1, ServicesFrameData := some (.appdata (List.replicate 65536 emptyRecord)) }
  have hB : p.HasBody b := hb
  have hf : p.FlagsOk := by
    refine ⟨⟨[48], [48], ?_, ?_, rfl⟩, ?_, ⟨[48], [48], ?_, ?_, rfl⟩, ?_, ⟨[48], [48], ?_, ?_, rfl⟩⟩ <;> exact .inl rfl
  obtain ⟨fl, hp, -⟩ := flags_parse p hf
  obtain ⟨hl2, -, he⟩ := encode_eq p fl b hp hB
  have ho := encode_overflow p _ _ b he hB
  have h0 : b.length % 65536 = 0 := by rw [hl]
  rw [h0] at ho
  exact ⟨p, _, _, b, rfl, hB, by rw [hl], he, ho.2, UInt16.toNat_inj.mp ho.1⟩

end Egts
