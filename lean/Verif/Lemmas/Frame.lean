import Verif.Lemmas.Header
/- Package.Decode on packets whose declared header length is the real one. -/
set_option autoImplicit false
namespace Egts
open Frame
variable [P : Platform]

/-- the declared header length is the real one and the frame length fits 16 bits -/
structure Consistent (c : Bytes) : Prop where
  complete : headerSize c ≤ c.length
  hl : declaredHL c = headerSize c
  fits : headerSize c + declaredFDL c < 65536

/-- decoding of the body according to the packet type -/
def decodeBody (t : UInt8) (b : Bytes) : Out Body :=
  if t = 1 then (ServiceDataSet.decode [] b).map .appdata else (PtResponse.decode {} b).map .response

theorem decodeBody_safe (t : UInt8) (b : Bytes) : (decodeBody t b).Safe := by
  unfold decodeBody
  exact Out.safe_ite (ServiceDataSet.decode_safe _ _).map (PtResponse.decode_safe _ _).map

/-- bytes handed to the body decoder: the bytes after the header, zero-padded when the packet is too short -/
def bodyBytes (c : Bytes) : Bytes :=
  (c.drop (headerSize c)).take (declaredFDL c) ++ zeros (declaredFDL c - (c.length - headerSize c))

/-- bytes after the body -/
def tailBytes (c : Bytes) : Bytes := c.drop (headerSize c + declaredFDL c)

omit P in
theorem fdl_eq (c : Bytes) : (u16 [byteAt c 5, byteAt c 6]).toNat = declaredFDL c := by
  rw [u16_toNat]; simp [declaredFDL, word16At, leValue]

omit P in
theorem headerSize_cases (c : Bytes) : headerSize c = 11 ∨ headerSize c = 16 := by
  unfold headerSize; split <;> simp

/-- `Package.decodeTail` when the slice bounds are right -/
theorem decodeTail_eq (p : Package) (backing r body : Bytes) (lo hi : Nat)
    (hlo : p.HeaderLength.toNat = lo) (hhi : (p.HeaderLength.toUInt16 + p.FrameDataLength).toNat = hi)
    (hs : r ≠ [] → goSlice backing lo hi = some body) :
    Package.decodeTail p backing r =
      if r = [] then .ret 129 (some .eof) p
      else if u16 (r.take 2 ++ (zeros 2).drop r.length) ≠ crc16 body then
        .ret 137 (some .bodyCrc) { p with ServicesFrameDataCheckSum := u16 (r.take 2 ++ (zeros 2).drop r.length) }
      else .ret 0 none { p with ServicesFrameDataCheckSum := u16 (r.take 2 ++ (zeros 2).drop r.length) } := by
  unfold Package.decodeTail
  cases r with
  | nil => simp
  | cons x r =>
    rw [Dec.read_cons]
    simp only [List.length_cons, length_zeros]
    rw [hlo, hhi, hs (by simp)]
    simp

theorem goSlice_header (c spare : Bytes) (h : Consistent c) :
    goSlice (c ++ spare) 0 (byteAt c 3 - 1).toNat = some (c.take (headerSize c - 1)) := by
  have hl := h.hl
  have hc := h.complete
  unfold declaredHL at hl
  have e : (byteAt c 3 - 1).toNat = headerSize c - 1 := by
    have : (1 : UInt8) ≤ byteAt c 3 := by
      rw [UInt8.le_iff_toNat_le, hl]
      rcases headerSize_cases c with h | h <;> rw [h] <;> decide
    rw [UInt8.toNat_sub_of_le _ _ this, hl]; rfl
  unfold goSlice
  rw [e, if_pos ⟨by omega, by simp; omega⟩, List.drop_zero, Nat.sub_zero,
    List.take_append_of_le_length (by omega)]

theorem goSlice_body (c spare : Bytes) (h : Consistent c) (ht : tailBytes c ≠ []) :
    goSlice (c ++ spare) (headerSize c) (headerSize c + declaredFDL c)
      = some ((c.drop (headerSize c)).take (declaredFDL c)) := by
  have hlen : headerSize c + declaredFDL c < c.length := by
    unfold tailBytes at ht
    simpa using ht
  unfold goSlice
  rw [if_pos ⟨by omega, by simp; omega⟩]
  congr 1
  rw [List.drop_append_of_le_length h.complete, Nat.add_sub_cancel_left,
    List.take_append_of_le_length (by simp; omega)]

/-- after the header of a consistent packet -/
theorem decode_consistent (p : Package) (c spare : Bytes) (h : Consistent c) :
    Package.decode p c spare =
      if byteAt c (headerSize c - 1) ≠ crc8 (c.take (headerSize c - 1)) then
        .ret 137 (some .headerCrc) (hdrPkg p c)
      else if c.length = headerSize c then .ret 132 (some .eof) (hdrPkg p c)
      else if byteAt c 9 ≠ 0 ∧ byteAt c 9 ≠ 1 then
        .ret 133 (some (.unsupportedPacketType (byteAt c 9))) (hdrPkg p c)
      else match decodeBody (byteAt c 9) (bodyBytes c) with
        | .err e b => .ret 129 (some e) { hdrPkg p c with ServicesFrameData := some b }
        | .panic => .panic
        | .diverge => .diverge
        | .ok b =>
          if tailBytes c = [] then .ret 129 (some .eof) { hdrPkg p c with ServicesFrameData := some b }
          else if u16 ((tailBytes c).take 2 ++ (zeros 2).drop (tailBytes c).length) ≠ crc16 (bodyBytes c) then
            .ret 137 (some .bodyCrc) { hdrPkg p c with
              ServicesFrameData := some b
              ServicesFrameDataCheckSum := u16 ((tailBytes c).take 2 ++ (zeros 2).drop (tailBytes c).length) }
          else .ret 0 none { hdrPkg p c with
              ServicesFrameData := some b
              ServicesFrameDataCheckSum := u16 ((tailBytes c).take 2 ++ (zeros 2).drop (tailBytes c).length) } := by
  unfold Package.decode
  rw [header_ok p c h.complete]
  simp only
  have hHL : (hdrPkg p c).HeaderLength = byteAt c 3 := rfl
  have hPT : (hdrPkg p c).PacketType = byteAt c 9 := rfl
  have hHC : (hdrPkg p c).HeaderCheckSum = byteAt c (headerSize c - 1) := rfl
  have hFD : (hdrPkg p c).FrameDataLength.toNat = declaredFDL c := fdl_eq c
  rw [hHL, goSlice_header c spare h, hPT, hHC, hFD]
  simp only
  by_cases hcrc : byteAt c (headerSize c - 1) ≠ crc8 (c.take (headerSize c - 1))
  · rw [if_pos hcrc, if_pos hcrc]
  rw [if_neg hcrc, if_neg hcrc]
  by_cases hlen : c.length = headerSize c
  · have : c.drop (headerSize c) = [] := by rw [← hlen]; simp
    rw [if_pos hlen, this]
    simp
  rw [if_neg hlen]
  have hgt : headerSize c < c.length := by have := h.complete; omega
  rcases read_props (zeros (declaredFDL c)) (hdrPkg p c) (c.drop (headerSize c)) with ⟨h0, -⟩ | ⟨-, hr⟩
  · simp at h0; omega
  rw [hr]
  have hb : (c.drop (headerSize c)).take (zeros (declaredFDL c)).length ++
      (zeros (declaredFDL c)).drop (c.drop (headerSize c)).length = bodyBytes c := by
    unfold bodyBytes
    simp [zeros]
  have ht : (c.drop (headerSize c)).drop (zeros (declaredFDL c)).length = tailBytes c := by
    unfold tailBytes
    rw [List.drop_drop, length_zeros]
  rw [hb, ht]
  simp only
  have htail : ∀ b, Package.decodeTail { hdrPkg p c with ServicesFrameData := some b } (c ++ spare) (tailBytes c) = 
      if tailBytes c = [] then .ret 129 (some .eof) { hdrPkg p c with ServicesFrameData := some b }
          else if u16 ((tailBytes c).take 2 ++ (zeros 2).drop (tailBytes c).length) ≠ crc16 (bodyBytes c) then
            .ret 137 (some .bodyCrc) { hdrPkg p c with
              ServicesFrameData := some b
              ServicesFrameDataCheckSum := u16 ((tailBytes c).take 2 ++ (zeros 2).drop (tailBytes c).length) }
          else .ret 0 none { hdrPkg p c with
              ServicesFrameData := some b
              ServicesFrameDataCheckSum := u16 ((tailBytes c).take 2 ++ (zeros 2).drop (tailBytes c).length) } := by
    intro b
    apply decodeTail_eq _ _ _ _ (headerSize c) (headerSize c + declaredFDL c)
    · exact h.hl
    · show ((byteAt c 3).toUInt16 + u16 [byteAt c 5, byteAt c 6]).toNat = _
      have h1 := h.hl
      unfold declaredHL at h1
      have h2 := h.fits
      rw [UInt16.toNat_add, fdl_eq, UInt8.toNat_toUInt16, h1]
      exact Nat.mod_eq_of_lt h2
    · intro hne
      rw [goSlice_body c spare h hne]
      congr 1
      unfold bodyBytes
      have hlen : headerSize c + declaredFDL c < c.length := by
        unfold tailBytes at hne
        simpa using hne
      have : declaredFDL c - (c.length - headerSize c) = 0 := by omega
      rw [this]
      simp [zeros]
  by_cases h1 : byteAt c 9 = 1
  · have : ¬ (byteAt c 9 ≠ 0 ∧ byteAt c 9 ≠ 1) := by simp [h1]
    rw [if_pos (hPT.trans h1), if_neg this]
    unfold decodeBody
    rw [if_pos h1]
    cases hd : ServiceDataSet.decode [] (bodyBytes c) <;> first | exact htail _ | rfl
  · rw [if_neg (fun hh => h1 (hPT.symm.trans hh))]
    by_cases h0 : byteAt c 9 = 0
    · have : ¬ (byteAt c 9 ≠ 0 ∧ byteAt c 9 ≠ 1) := by simp [h0]
      rw [if_pos (hPT.trans h0), if_neg this]
      unfold decodeBody
      rw [if_neg h1]
      cases hd : PtResponse.decode {} (bodyBytes c) <;> first | exact htail _ | rfl
    · rw [if_neg (fun hh => h0 (hPT.symm.trans hh)), if_pos ⟨h0, h1⟩, hPT]

end Egts
