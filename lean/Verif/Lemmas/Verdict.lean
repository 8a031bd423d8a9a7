import Verif.Lemmas.Frame
/- Package.Decode split into "what is decided" (independent of the receiver) and "what is stored". -/
set_option autoImplicit false
namespace Egts
open Frame
variable [P : Platform]

inductive Verdict where
  | ret (code : UInt8) (err : Option Err) (body : Option Body) (crc : Option UInt16)
  | panic
  | diverge

def Verdict.apply (q : Package) : Verdict → PkgOut
  | .ret code err body crc => .ret code err { q with
      ServicesFrameData := match body with
        | some b => some b
        | none => q.ServicesFrameData
      ServicesFrameDataCheckSum := match crc with
        | some w => w
        | none => q.ServicesFrameDataCheckSum }
  | .panic => .panic
  | .diverge => .diverge

def tailVerdict (hl : UInt8) (fdl : UInt16) (backing r : Bytes) (b : Body) : Verdict :=
  if r = [] then .ret 129 (some .eof) (some b) none
  else match goSlice backing hl.toNat (hl.toUInt16 + fdl).toNat with
    | none => .panic
    | some x =>
      if u16 (r.take 2 ++ (zeros 2).drop r.length) ≠ crc16 x then
        .ret 137 (some .bodyCrc) (some b) (some (u16 (r.take 2 ++ (zeros 2).drop r.length)))
      else .ret 0 none (some b) (some (u16 (r.take 2 ++ (zeros 2).drop r.length)))

def verdict (c spare : Bytes) : Verdict :=
  let backing := c ++ spare
  match goSlice backing 0 (byteAt c 3 - 1).toNat with
  | none => .panic
  | some h =>
    if byteAt c (headerSize c - 1) ≠ crc8 h then .ret 137 (some .headerCrc) none none
    else if c.length = headerSize c then .ret 132 (some .eof) none none
    else if byteAt c 9 ≠ 0 ∧ byteAt c 9 ≠ 1 then .ret 133 (some (.unsupportedPacketType (byteAt c 9))) none none
    else match decodeBody (byteAt c 9) (bodyBytes c) with
      | .err e b => .ret 129 (some e) (some b) none
      | .panic => .panic
      | .diverge => .diverge
      | .ok b => tailVerdict (byteAt c 3) (u16 [byteAt c 5, byteAt c 6]) backing (tailBytes c) b

theorem decodeTail_verdict (q : Package) (backing r : Bytes) (b : Body) :
    Package.decodeTail { q with ServicesFrameData := some b } backing r =
      (tailVerdict q.HeaderLength q.FrameDataLength backing r b).apply q := by
  unfold Package.decodeTail tailVerdict
  cases r with
  | nil => rfl
  | cons x r =>
    rw [Dec.read_cons]
    simp only [List.length_cons, length_zeros, reduceCtorEq, ↓reduceIte]
    cases goSlice backing q.HeaderLength.toNat (q.HeaderLength.toUInt16 + q.FrameDataLength).toNat with
    | none => rfl
    | some y =>
      simp only
      split <;> rfl

theorem decode_verdict (p : Package) (c spare : Bytes) (h : headerSize c ≤ c.length) :
    Package.decode p c spare = (verdict c spare).apply (hdrPkg p c) := by
  unfold Package.decode verdict
  rw [header_ok p c h]
  simp only
  have hHL : (hdrPkg p c).HeaderLength = byteAt c 3 := rfl
  have hPT : (hdrPkg p c).PacketType = byteAt c 9 := rfl
  have hHC : (hdrPkg p c).HeaderCheckSum = byteAt c (headerSize c - 1) := rfl
  have hFD : (hdrPkg p c).FrameDataLength.toNat = declaredFDL c := fdl_eq c
  rw [hHL, hHC, hFD]
  cases goSlice (c ++ spare) 0 (byteAt c 3 - 1).toNat with
  | none => rfl
  | some hh =>
  simp only
  by_cases hcrc : byteAt c (headerSize c - 1) ≠ crc8 hh
  · rw [if_pos hcrc, if_pos hcrc]; rfl
  rw [if_neg hcrc, if_neg hcrc]
  by_cases hlen : c.length = headerSize c
  · have : c.drop (headerSize c) = [] := by rw [← hlen]; simp
    rw [if_pos hlen, this]
    rfl
  rw [if_neg hlen]
  rcases read_props (zeros (declaredFDL c)) (hdrPkg p c) (c.drop (headerSize c)) with ⟨h0, -⟩ | ⟨-, hr⟩
  · simp at h0; omega
  rw [hr]
  have hb : (c.drop (headerSize c)).take (zeros (declaredFDL c)).length ++
      (zeros (declaredFDL c)).drop (c.drop (headerSize c)).length = bodyBytes c := by
    unfold bodyBytes
    simp [zeros]
  have ht : (c.drop (headerSize c)).drop (zeros (declaredFDL c)).length = tailBytes c := by
    unfold tailBytes
    rw [List.drop_drop, length_zeros]
  rw [hb, ht]
  simp only
  by_cases h1 : byteAt c 9 = 1
  · have : ¬ (byteAt c 9 ≠ 0 ∧ byteAt c 9 ≠ 1) := by simp [h1]
    rw [if_pos (hPT.trans h1), if_neg this]
    unfold decodeBody
    rw [if_pos h1]
    cases hd : ServiceDataSet.decode [] (bodyBytes c) <;> first | exact decodeTail_verdict _ _ _ _ | rfl
  · rw [if_neg (fun hh => h1 (hPT.symm.trans hh))]
    by_cases h0 : byteAt c 9 = 0
    · have : ¬ (byteAt c 9 ≠ 0 ∧ byteAt c 9 ≠ 1) := by simp [h0]
      rw [if_pos (hPT.trans h0), if_neg this]
      unfold decodeBody
      rw [if_neg h1]
      cases hd : PtResponse.decode {} (bodyBytes c) <;> first | exact decodeTail_verdict _ _ _ _ | rfl
    · rw [if_neg (fun hh => h0 (hPT.symm.trans hh)), if_pos ⟨h0, h1⟩, hPT]; rfl

/-- a packet shorter than its header is rejected with code 131 -/
theorem decode_short (p : Package) (c spare : Bytes) (h : c.length < headerSize c) :
    ∃ q, Package.decode p c spare = .ret 131 (some .eof) q := by
  obtain ⟨q, hq⟩ := header_short p c h
  exact ⟨q, by unfold Package.decode; rw [hq]⟩

theorem apply_ret {q q' : Package} {v : Verdict} {code : UInt8} {e : Option Err}
    (h : v.apply q = .ret code e q') : ∃ b w, v = .ret code e b w ∧ q' = { q with
      ServicesFrameData := match b with
        | some b => some b
        | none => q.ServicesFrameData
      ServicesFrameDataCheckSum := match w with
        | some w => w
        | none => q.ServicesFrameDataCheckSum } := by
  cases v with
  | ret c e b w => cases h; exact ⟨b, w, rfl, rfl⟩
  | panic => cases h
  | diverge => cases h

theorem verdict_not_diverge (c spare : Bytes) : verdict c spare ≠ .diverge := by
  unfold verdict
  simp only
  split
  · simp
  · split
    · simp
    · split
      · simp
      · split
        · simp
        · have := decodeBody_safe (byteAt c 9) (bodyBytes c)
          revert this
          cases decodeBody (byteAt c 9) (bodyBytes c) with
          | err e b => simp
          | panic => simp [Out.Safe]
          | diverge => simp [Out.Safe]
          | ok b =>
            intro _
            unfold tailVerdict
            simp only
            split
            · simp
            · split
              · simp
              · split <;> simp

/-- what acceptance means, for every packet -/
theorem verdict_accept {c spare : Bytes} {e : Option Err} {b : Option Body} {w : Option UInt16} (h : verdict c spare = .ret 0 e b w) :
    e = none ∧ ∃ hd body b', goSlice (c ++ spare) 0 (byteAt c 3 - 1).toNat = some hd ∧
      byteAt c (headerSize c - 1) = crc8 hd ∧ c.length ≠ headerSize c ∧ (byteAt c 9 = 0 ∨ byteAt c 9 = 1) ∧
      decodeBody (byteAt c 9) (bodyBytes c) = .ok b' ∧ b = some b' ∧ tailBytes c ≠ [] ∧
      goSlice (c ++ spare) (byteAt c 3).toNat ((byteAt c 3).toUInt16 + u16 [byteAt c 5, byteAt c 6]).toNat = some body ∧
      u16 ((tailBytes c).take 2 ++ (zeros 2).drop (tailBytes c).length) = crc16 body ∧
      w = some (u16 ((tailBytes c).take 2 ++ (zeros 2).drop (tailBytes c).length)) := by
  unfold verdict at h
  simp only at h
  split at h
  · cases h
  · rename_i hd hhd
    split at h
    · cases h
    · rename_i hcrc
      split at h
      · cases h
      · rename_i hlen
        split at h
        · cases h
        · rename_i hty
          split at h
          · cases h
          · cases h
          · cases h
          · rename_i b' hb'
            unfold tailVerdict at h
            split at h
            · cases h
            · rename_i htl
              split at h
              · cases h
              · rename_i body hbody
                split at h
                · cases h
                · rename_i hw
                  cases h
                  exact ⟨rfl, hd, body, b', hhd, Decidable.not_not.mp hcrc, hlen,
                    by by_cases h0 : byteAt c 9 = 0
                       · exact .inl h0
                       · by_cases h1 : byteAt c 9 = 1
                         · exact .inr h1
                         · exact absurd ⟨h0, h1⟩ hty,
                    hb', rfl, htl, hbody, Decidable.not_not.mp hw, rfl⟩

end Egts
