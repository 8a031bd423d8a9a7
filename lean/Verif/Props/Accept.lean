import Verif.Props.Conform
set_option autoImplicit false
/- C74: exactly which frames are accepted. -/
namespace Egts
open Frame
variable [P : Platform]

theorem recordHeader_len {hdr : Bytes} {r : ServiceDataRecord} (h : RecordHeader hdr r) : 7 ≤ hdr.length := by
  obtain ⟨fl, rfl, -⟩ := h
  simp only [List.length_append, leBytes_len, List.length_cons, List.length_nil]
  omega

theorem records_short {b : Bytes} {l : List ServiceDataRecord} (h : Records b l) (h7 : b.length < 7) : b = [] := by
  cases h with
  | nil => rfl
  | cons hh _ _ _ => have := recordHeader_len hh; simp at h7; omega
  | bare hh _ _ => have := recordHeader_len hh; omega
  | cut hh _ _ _ => have := recordHeader_len hh; simp at h7; omega

/-- PtResponse.Decode accepts exactly the RESPONSE bodies of `BodyOf` -/
theorem ptresponse_decode_iff (b : Bytes) (r : PtResponse) :
    PtResponse.decode {} b = .ok r ↔ BodyOf 0 b (.response r) := by
  unfold PtResponse.decode
  constructor
  · intro h
    refine ⟨rfl, ?_⟩
    match b, h with
    | [], h => cases h
    | [_], h => cases h
    | [x, y], h => cases h
    | x :: y :: z :: b', h =>
      have e : PtResponse.decodeM {} (x :: y :: z :: b') =
          Dec.when (decide (b'.length > 0)) (fun s r =>
            match ServiceDataSet.decode [] b' with
            | .ok sds => .ok () { s with SDR := some sds } r
            | .err e sds => .err e { s with SDR := some sds }
            | .panic => .panic
            | .diverge => .diverge) ({ ResponsePacketID := u16 [x, y], ProcessingResult := z } : PtResponse) b' := rfl
      unfold Dec.run at h
      rw [e] at h
      by_cases hb : b' = []
      · subst hb
        cases h
        exact ⟨[], by simp [leBytes_u16], .inl ⟨rfl, rfl⟩⟩
      · have hd : decide (b'.length > 0) = true := by simpa using List.length_pos_iff.mpr hb
        rw [hd] at h
        simp only [Dec.when] at h
        cases hs : ServiceDataSet.decode [] b' with
        | ok l =>
          rw [hs] at h
          cases h
          exact ⟨b', by simp [leBytes_u16], .inr ⟨hb, l, rfl, (body_decode_iff _ _).mp hs⟩⟩
        | err e s => rw [hs] at h; cases h
        | panic => rw [hs] at h; cases h
        | diverge => rw [hs] at h; cases h
  · rintro ⟨-, b', rfl, h⟩
    obtain ⟨rp, pr, sdr⟩ := r
    simp only at h ⊢
    apply Dec.run_of_ok (u := ()) (r := b')
    unfold PtResponse.decodeM
    rw [← le16_eq]
    simp only [List.append_assoc, List.cons_append, List.nil_append]
    refine Dec.step (Dec.read_le16 _ _ _ rp rfl) ?_
    refine Dec.step (Dec.upd_apply _ _ _) ?_; try dsimp only
    refine Dec.step (Dec.readByteTo_cons _ _ _ _) ?_; try dsimp only
    refine Dec.step (Dec.unread_apply _ _) ?_; try dsimp only
    rw [u16_le16']
    rcases h with ⟨rfl, rfl⟩ | ⟨hb, l, rfl, hl⟩
    · rfl
    · have : decide (b'.length > 0) = true := by simpa using List.length_pos_iff.mpr hb
      rw [this]
      simp only [Dec.when, (body_decode_iff b' l).mpr hl]
      rfl

/-- the body decoder accepts exactly the bodies of `BodyOf` -/
theorem decodeBody_iff (t : UInt8) (ht : t = 0 ∨ t = 1) (b : Bytes) (body : Body) :
    decodeBody t b = .ok body ↔ BodyOf t b body := by
  unfold decodeBody
  rcases ht with rfl | rfl
  · rw [if_neg (by decide), out_map_iff]
    constructor
    · rintro ⟨r, h, rfl⟩; exact (ptresponse_decode_iff b r).mp h
    · intro h
      cases body with
      | appdata l => exact absurd h.1 (by decide)
      | response r => exact ⟨r, (ptresponse_decode_iff b r).mpr h, rfl⟩
  · rw [if_pos rfl, out_map_iff]
    constructor
    · rintro ⟨r, h, rfl⟩; exact ⟨rfl, (body_decode_iff b r).mp h⟩
    · intro h
      cases body with
      | appdata l => exact ⟨l, (body_decode_iff b l).mpr h.2, rfl⟩
      | response r => exact absurd h.1 (by decide)

omit P in
/-- a complete frame whose header length is right, cut into its parts -/
theorem framed_parts {c : Bytes} (hf : Framed c) (hl : declaredHL c = headerSize c) (hd : declaredFDL c ≠ 0) :
    ∃ hdr x b y z, c = hdr ++ [x] ++ b ++ [y, z] ∧ hdr.length + 1 = headerSize c ∧ b.length = declaredFDL c := by
  have h1 := hf.complete
  unfold frameLen at h1
  rw [if_neg hd, hl] at h1
  have h11 : 11 ≤ headerSize c := by unfold headerSize; split <;> omega
  have key : ∀ (n m k : Nat) (l : Bytes), l.length = n + 1 + m + 2 → ∃ hdr x b y z, l = hdr ++ [x] ++ b ++ [y, z] ∧
      hdr.length = n ∧ b.length = m := by
    intro n m k l hlen
    obtain ⟨x, t, e1⟩ : ∃ x t, l.drop n = x :: t := by
      cases h : l.drop n with
      | nil => have := congrArg List.length h; simp at this; omega
      | cons x t => exact ⟨x, t, rfl⟩
    have ht : t.length = m + 2 := by have := congrArg List.length e1; simp at this; omega
    obtain ⟨y, z, e2⟩ : ∃ y z, t.drop m = [y, z] := by
      match h : t.drop m with
      | [] => have := congrArg List.length h; simp at this; omega
      | [_] => have := congrArg List.length h; simp at this; omega
      | [y, z] => exact ⟨y, z, rfl⟩
      | _ :: _ :: _ :: _ => have := congrArg List.length h; simp at this; omega
    refine ⟨l.take n, x, t.take m, y, z, ?_, ?_, ?_⟩
    · rw [← e2, List.append_assoc _ (t.take m), List.take_append_drop, List.append_assoc]
      show l = l.take n ++ x :: t
      rw [← e1, List.take_append_drop]
    · rw [List.length_take]; omega
    · rw [List.length_take]; omega
  obtain ⟨hdr, x, b, y, z, e, h2, h3⟩ := key (headerSize c - 1) (declaredFDL c) 0 c (by omega)
  exact ⟨hdr, x, b, y, z, e, by omega, h3⟩

/-- C74: a complete frame whose header length is right is accepted by Decode with the contents `body` exactly if it has a right header,
right checksums and a body that holds `body` (`BodyOf`). -/
theorem accepted_iff (c : Bytes) (hf : Framed c) (hl : declaredHL c = headerSize c) (p : Package) (spare : Bytes) (body : Body) :
    (∃ q, Package.decode p c spare = .ret 0 none q ∧ q.ServicesFrameData = some body) ↔
      ∃ hdr b, c = packet hdr b ∧ RightHeader hdr (byteAt c 9) (word16At c 7) b.length ∧ BodyOf (byteAt c 9) b body := by
  have h1 := hf.complete
  have h11 : 11 ≤ headerSize c := by unfold headerSize; split <;> omega
  have hfits := hf.fits
  have hlen : c.length = headerSize c + if declaredFDL c = 0 then 0 else declaredFDL c + 2 := by rw [h1]; unfold frameLen; rw [hl]
  have hcons : Consistent c := by
    refine ⟨by omega, hl, ?_⟩
    unfold frameLen at hfits
    rw [hl] at hfits
    split at hfits <;> omega
  constructor
  · rintro ⟨q, hq, hb⟩
    rw [decode_consistent p c spare hcons] at hq
    split at hq
    · cases hq
    rename_i hcrc
    simp only [ne_eq, Decidable.not_not] at hcrc
    split at hq
    · cases hq
    rename_i hne
    have hd : declaredFDL c ≠ 0 := by
      intro h0
      rw [if_pos h0] at hlen
      exact hne (by omega)
    split at hq
    · cases hq
    rename_i h9
    have ht : byteAt c 9 = 0 ∨ byteAt c 9 = 1 := by
      by_cases h0 : byteAt c 9 = 0
      · exact .inl h0
      · by_cases h1 : byteAt c 9 = 1
        · exact .inr h1
        · exact absurd ⟨h0, h1⟩ h9
    cases hB : decodeBody (byteAt c 9) (bodyBytes c) with
    | err e b => rw [hB] at hq; cases hq
    | panic => rw [hB] at hq; cases hq
    | diverge => rw [hB] at hq; cases hq
    | ok b0 =>
      rw [hB] at hq
      simp only at hq
      split at hq
      · cases hq
      split at hq
      · cases hq
      rename_i hc16
      simp only [ne_eq, Decidable.not_not] at hc16
      obtain ⟨hdr, x, b, y, z, e, hh, hbl⟩ := framed_parts hf hl hd
      have hdrop : c.drop (headerSize c) = b ++ [y, z] := by
        have e' : c = (hdr ++ [x]) ++ (b ++ [y, z]) := by rw [e]; simp
        rw [← hh]
        conv_lhs => rw [e']
        exact List.drop_left' (by simp)
      have hbody : bodyBytes c = b := by
        unfold bodyBytes
        have : declaredFDL c - (c.length - headerSize c) = 0 := by rw [hlen, if_neg hd]; omega
        rw [this, hdrop, ← hbl]
        simp [zeros]
      have htail : tailBytes c = [y, z] := by
        unfold tailBytes
        rw [← List.drop_drop, hdrop, ← hbl, List.drop_left' rfl]
      have hx : x = crc8 hdr := by
        have h2 : headerSize c - 1 = hdr.length := by omega
        rw [h2] at hcrc
        have h3 : c.take hdr.length = hdr := by
          conv_lhs => rw [e]
          rw [List.append_assoc, List.append_assoc, List.take_left' rfl]
        have h4 : byteAt c hdr.length = x := by
          rw [e]; unfold byteAt; simp [List.getD]
        rw [h3, h4] at hcrc
        exact hcrc
      rw [hbody] at hB hc16
      rw [htail] at hc16
      have hyz : [y, z] = leBytes 2 (crc16 b).toNat := by
        rw [← hc16]
        have : List.take 2 [y, z] ++ List.drop [y, z].length (zeros 2) = [y, z] := rfl
        rw [this, leBytes_u16]
      have hb0 : b0 = body := by
        have := PkgOut.ret.inj hq
        rw [← this.2.2] at hb
        exact Option.some.inj hb
      have hpk : c = packet hdr b := by
        unfold packet
        rw [← hx, ← hyz]
        exact e
      have hc' : c = hdr ++ ([x] ++ b ++ [y, z]) := by rw [e]; simp
      refine ⟨hdr, b, hpk, ⟨?_, ?_, ?_, ?_, ?_, ?_⟩, ?_⟩
      · have := hf.version
        rwa [hc', byteAt_append _ _ _ (by omega)] at this
      · rw [hh, hc', headerSize_append _ _ (by omega)]
      · rw [hc', headerSize_append _ _ (by omega)] at hl
        unfold declaredHL at hl ⊢
        rwa [byteAt_append _ _ _ (by omega)] at hl
      · rw [hbl, hc']
        unfold declaredFDL
        rw [word16_append _ _ _ (by omega)]
      · conv_rhs => rw [hc']
        rw [word16_append _ _ _ (by omega)]
      · conv_rhs => rw [hc']
        rw [byteAt_append _ _ _ (by omega)]
      · rw [← hb0]
        exact (decodeBody_iff _ ht b b0).mp hB
  · rintro ⟨hdr, b, hpk, hh, hB⟩
    have ht : byteAt c 9 = 0 ∨ byteAt c 9 = 1 := by
      cases body with
      | appdata l => exact .inr hB.1
      | response r => exact .inl hB.1
    have hb : b ≠ [] := by
      rintro rfl
      have h10 := right_header_len hh
      have hs := hh.size
      have hd := hh.fdl
      have e : c = hdr ++ ([crc8 hdr] ++ leBytes 2 (crc16 []).toNat) := by rw [hpk]; simp [packet]
      have hd' : declaredFDL c = 0 := by
        rw [e]; unfold declaredFDL; rw [word16_append _ _ _ (by omega)]; exact hd
      have hs' : headerSize c = hdr.length + 1 := by rw [e, headerSize_append _ _ (by omega), hs]
      rw [if_pos hd', hs', hpk] at hlen
      simp [packet, leBytes_len] at hlen
    obtain ⟨q, h1, h2, -⟩ := packet_decoded hh hb ht (by rw [← hpk, hf.complete]; exact hfits) ((decodeBody_iff _ ht b body).mpr hB) p spare
    exact ⟨q, by rw [hpk]; exact h1, h2⟩

omit P in
/-- the hypotheses of `accepted_iff` are met by a routed packet with two records -/
theorem accepted_hyps : Framed (packet [1, 0, 32, 16, 0, 21, 0, 5, 0, 1, 7, 0, 8, 0, 9]
      [7, 0, 1, 0, 0, 2, 2, 25, 4, 0, 110, 1, 0, 0, 0, 0, 1, 0, 0, 2, 2]) ∧
    declaredHL (packet [1, 0, 32, 16, 0, 21, 0, 5, 0, 1, 7, 0, 8, 0, 9]
      [7, 0, 1, 0, 0, 2, 2, 25, 4, 0, 110, 1, 0, 0, 0, 0, 1, 0, 0, 2, 2]) = 16 := by
  decide +kernel

/-- C74: a RESPONSE body with one to six stray bytes after the result is not accepted (no record has fewer than seven bytes) -/
theorem response_stray (rp : UInt16) (code : UInt8) (b : Bytes) (h0 : b ≠ []) (h7 : b.length < 7) (r : PtResponse) :
    PtResponse.decode {} (leBytes 2 rp.toNat ++ [code] ++ b) ≠ .ok r := by
  rw [ne_eq, ptresponse_decode_iff]
  rintro ⟨-, b', e, h⟩
  have hl := congrArg List.length e
  simp only [List.length_append, leBytes_len] at hl
  have e2 : b = b' := by
    have := List.append_inj_right e (by simp [leBytes_len])
    exact this
  subst e2
  rcases h with ⟨rfl, -⟩ | ⟨-, l, -, hr⟩
  · exact h0 rfl
  · have h := records_short hr h7
    exact h0 h

end Egts
