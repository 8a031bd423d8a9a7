import Verif.Spec.Decode
import Verif.Props.Accept
import Verif.Props.PanicWrap
set_option autoImplicit false
/- C05, C06: exactly when Decode panics and when it accepts, for all inputs, also those whose header length field is wrong. -/
namespace Egts
open Frame
variable [P : Platform]

omit P in
theorem hl_sub (c : Bytes) : (byteAt c 3 - 1).toNat = checkedHeader c := by
  unfold checkedHeader declaredHL
  rw [UInt8.toNat_sub]
  simp
  omega

omit P in
theorem hl_fdl (c : Bytes) : ((byteAt c 3).toUInt16 + u16 [byteAt c 5, byteAt c 6]).toNat = checkedEnd c := by
  rw [UInt16.toNat_add, fdl_eq, UInt8.toNat_toUInt16]; rfl

omit P in
theorem hl_def (c : Bytes) : (byteAt c 3).toNat = declaredHL c := rfl

omit P in
theorem bodyBytes_eq (c : Bytes) : bodyBytes c = decodedBody c := rfl

omit P in
theorem goSlice_some {b : Bytes} {lo hi : Nat} (h : lo ≤ hi ∧ hi ≤ b.length) : goSlice b lo hi = some ((b.drop lo).take (hi - lo)) := by
  unfold goSlice; rw [if_pos h]

omit P in
theorem goSlice_none {b : Bytes} {lo hi : Nat} (h : ¬ (lo ≤ hi ∧ hi ≤ b.length)) : goSlice b lo hi = none := by
  unfold goSlice; rw [if_neg h]

theorem body_type {t : UInt8} {b : Bytes} {body : Body} (h : BodyOf t b body) : t = 0 ∨ t = 1 := by
  cases body with
  | appdata l => exact .inr h.1
  | response r => exact .inl h.1

/-- what is decided about a packet with a right header and a body that can be decoded -/
theorem verdict_body (c spare : Bytes) (h : HeaderOk c spare) (hd : headerSize c + declaredFDL c < c.length) (body : Body)
    (hb : BodyOf (byteAt c 9) (decodedBody c) body) :
    verdict c spare = tailVerdict (byteAt c 3) (u16 [byteAt c 5, byteAt c 6]) (c ++ spare) (tailBytes c) body := by
  obtain ⟨h1, h2, h3⟩ := h
  have ht := body_type hb
  unfold verdict
  simp only
  rw [hl_sub, goSlice_some ⟨by omega, h2⟩]
  simp only [List.drop_zero, Nat.sub_zero]
  rw [if_neg (by simpa using h3), if_neg (by omega), if_neg (by
    rcases ht with ht | ht <;> rw [ht] <;> decide), bodyBytes_eq, (decodeBody_iff _ ht _ _).mpr hb]

/-- every decided outcome other than the errors comes from a packet with a right header and a body that can be decoded -/
theorem verdict_cases (c spare : Bytes) (h1 : headerSize c ≤ c.length) :
    (verdict c spare = .panic ∧ (c ++ spare).length < checkedHeader c) ∨ (∃ code e b w, verdict c spare = .ret code (some e) b w) ∨
    (HeaderOk c spare ∧ headerSize c + declaredFDL c < c.length ∧ ∃ body, BodyOf (byteAt c 9) (decodedBody c) body) := by
  by_cases h2 : checkedHeader c ≤ (c ++ spare).length
  · right
    by_cases h3 : byteAt c (headerSize c - 1) = crc8 ((c ++ spare).take (checkedHeader c))
    · have hok : HeaderOk c spare := ⟨h1, h2, h3⟩
      by_cases h4 : c.length = headerSize c
      · left
        unfold verdict
        simp only
        rw [hl_sub, goSlice_some ⟨by omega, h2⟩]
        simp only [List.drop_zero, Nat.sub_zero]
        rw [if_neg (by simpa using h3), if_pos h4]
        exact ⟨_, _, _, _, rfl⟩
      by_cases h9 : byteAt c 9 ≠ 0 ∧ byteAt c 9 ≠ 1
      · left
        unfold verdict
        simp only
        rw [hl_sub, goSlice_some ⟨by omega, h2⟩]
        simp only [List.drop_zero, Nat.sub_zero]
        rw [if_neg (by simpa using h3), if_neg h4, if_pos h9]
        exact ⟨_, _, _, _, rfl⟩
      have ht : byteAt c 9 = 0 ∨ byteAt c 9 = 1 := by
        by_cases h0 : byteAt c 9 = 0
        · exact .inl h0
        · exact .inr (by by_contra h; exact h9 ⟨h0, h⟩)
      have hs := decodeBody_safe (byteAt c 9) (bodyBytes c)
      have hv : verdict c spare = match decodeBody (byteAt c 9) (bodyBytes c) with
          | .err e b => .ret 129 (some e) (some b) none
          | .panic => .panic
          | .diverge => .diverge
          | .ok b => tailVerdict (byteAt c 3) (u16 [byteAt c 5, byteAt c 6]) (c ++ spare) (tailBytes c) b := by
        unfold verdict
        simp only
        rw [hl_sub, goSlice_some ⟨by omega, h2⟩]
        simp only [List.drop_zero, Nat.sub_zero]
        rw [if_neg (by simpa using h3), if_neg h4, if_neg h9]
        rfl
      cases hB : decodeBody (byteAt c 9) (bodyBytes c) with
      | err e b => left; rw [hv, hB]; exact ⟨_, _, _, _, rfl⟩
      | panic => rw [hB] at hs; exact absurd hs (by simp [Out.Safe])
      | diverge => rw [hB] at hs; exact absurd hs (by simp [Out.Safe])
      | ok b =>
        have hbo := (decodeBody_iff _ ht _ _).mp hB
        by_cases h5 : headerSize c + declaredFDL c < c.length
        · exact .inr ⟨hok, h5, b, hbo⟩
        · left
          rw [hv, hB]
          simp only
          unfold tailVerdict tailBytes
          rw [if_pos (List.drop_eq_nil_of_le (by omega))]
          exact ⟨_, _, _, _, rfl⟩
    · left
      unfold verdict
      simp only
      rw [hl_sub, goSlice_some ⟨by omega, h2⟩]
      simp only [List.drop_zero, Nat.sub_zero]
      rw [if_pos (by simpa using h3)]
      exact ⟨_, _, _, _, rfl⟩
  · left
    refine ⟨?_, by omega⟩
    unfold verdict
    simp only
    rw [hl_sub, goSlice_none (by omega)]

omit P in
theorem tail_ne {c : Bytes} (hd : headerSize c + declaredFDL c < c.length) : tailBytes c ≠ [] := by
  unfold tailBytes
  intro h
  have := congrArg List.length h
  simp at this
  omega

/-- C05: exactly when Decode panics, for all inputs and capacities: the header is complete, and either the slice is shorter than the
header length field minus one (modulo 256), or everything is right, header checksum (over that many bytes) and body included, but the end of the
body, computed modulo 65536, lies before its start or beyond the capacity. -/
theorem decode_panic_iff (p : Package) (c spare : Bytes) : Package.decode p c spare = .panic ↔
    headerSize c ≤ c.length ∧ ((c ++ spare).length < checkedHeader c ∨
      HeaderOk c spare ∧ headerSize c + declaredFDL c < c.length ∧ (∃ body, BodyOf (byteAt c 9) (decodedBody c) body) ∧
        ¬ (declaredHL c ≤ checkedEnd c ∧ checkedEnd c ≤ (c ++ spare).length)) := by
  constructor
  · intro h
    by_cases hc : headerSize c ≤ c.length
    · refine ⟨hc, ?_⟩
      rw [decode_verdict p c spare hc] at h
      have hv : verdict c spare = .panic := by
        revert h
        cases verdict c spare <;> simp [Verdict.apply]
      rcases verdict_cases c spare hc with ⟨-, h1⟩ | ⟨_, _, _, _, h1⟩ | ⟨h1, h2, body, h3⟩
      · exact .inl h1
      · rw [h1] at hv; cases hv
      · refine .inr ⟨h1, h2, ⟨body, h3⟩, ?_⟩
        intro hs
        rw [verdict_body c spare h1 h2 body h3] at hv
        unfold tailVerdict at hv
        rw [if_neg (tail_ne h2), hl_fdl, hl_def, goSlice_some hs] at hv
        simp only at hv
        split at hv <;> cases hv
    · obtain ⟨q, hq⟩ := decode_short p c spare (by omega)
      rw [hq] at h; cases h
  · rintro ⟨hc, h1 | ⟨h1, h2, ⟨body, h3⟩, h4⟩⟩
    · exact decode_panics_header p c spare hc h1
    · rw [decode_verdict p c spare hc, verdict_body c spare h1 h2 body h3]
      unfold tailVerdict
      rw [if_neg (tail_ne h2), hl_fdl, hl_def, goSlice_none h4]
      rfl

omit P in
theorem sent_eq {c : Bytes} (hd : headerSize c + declaredFDL c < c.length) :
    (u16 ((tailBytes c).take 2 ++ (zeros 2).drop (tailBytes c).length)).toNat = sentChecksum c := by
  unfold sentChecksum
  change _ = leValue ((tailBytes c).take 2)
  generalize htl : tailBytes c = t
  have hne : t ≠ [] := htl ▸ tail_ne hd
  match t, hne with
  | [x], _ =>
    show (u16 [x, 0]).toNat = leValue [x]
    rw [u16_toNat]; simp [leValue]
  | x :: y :: t, _ =>
    show (u16 [x, y]).toNat = leValue [x, y]
    rw [u16_toNat]; simp [leValue]

/-- C06: exactly when Decode accepts a packet with the contents `body`, for all inputs and capacities: complete header whose checksum is right over
as many bytes as the header length field says (minus one, modulo 256); at least one byte after the body; a body that holds `body`; and the
bytes after it equal the checksum of the bytes from the header length field's position to `checkedEnd`. -/
theorem decode_accept_iff (p : Package) (c spare : Bytes) (body : Body) :
    (∃ q, Package.decode p c spare = .ret 0 none q ∧ q.ServicesFrameData = some body) ↔
      HeaderOk c spare ∧ headerSize c + declaredFDL c < c.length ∧ BodyOf (byteAt c 9) (decodedBody c) body ∧
        declaredHL c ≤ checkedEnd c ∧ checkedEnd c ≤ (c ++ spare).length ∧
        sentChecksum c = (crc16 (((c ++ spare).drop (declaredHL c)).take (checkedEnd c - declaredHL c))).toNat := by
  constructor
  · rintro ⟨q, h, hb⟩
    by_cases hc : headerSize c ≤ c.length
    · rw [decode_verdict p c spare hc] at h
      rcases verdict_cases c spare hc with ⟨h0, -⟩ | ⟨_, _, _, _, h1⟩ | ⟨h1, h2, body', h3⟩
      · rw [h0] at h; cases h
      · rw [h1] at h; cases h
      · rw [verdict_body c spare h1 h2 body' h3] at h
        unfold tailVerdict at h
        rw [if_neg (tail_ne h2), hl_fdl, hl_def] at h
        by_cases hs : declaredHL c ≤ checkedEnd c ∧ checkedEnd c ≤ (c ++ spare).length
        · rw [goSlice_some hs] at h
          simp only at h
          split at h
          · cases h
          · rename_i hcrc
            simp only [ne_eq, Decidable.not_not] at hcrc
            simp only [Verdict.apply, PkgOut.ret.injEq] at h
            obtain ⟨-, -, rfl⟩ := h
            have : body' = body := by simpa using hb
            subst this
            refine ⟨h1, h2, h3, hs.1, hs.2, ?_⟩
            rw [← sent_eq h2, hcrc]
        · rw [goSlice_none hs] at h; cases h
    · obtain ⟨q', hq⟩ := decode_short p c spare (by omega)
      rw [hq] at h; cases h
  · rintro ⟨h1, h2, h3, h4, h5, h6⟩
    rw [decode_verdict p c spare h1.1, verdict_body c spare h1 h2 body h3]
    unfold tailVerdict
    rw [if_neg (tail_ne h2), hl_fdl, hl_def, goSlice_some ⟨h4, h5⟩]
    simp only
    rw [if_neg (by
      simp only [ne_eq, Decidable.not_not]
      rw [← UInt16.toNat_inj, sent_eq h2]
      exact h6)]
    exact ⟨_, rfl, rfl⟩

/-- the panics of C05 as instances: 11 bytes with header length 0, and the frame of 65540 bytes -/
example (p : Package) : Package.decode p [1, 0, 0, 0, 0, 0, 0, 0, 0, 1, 0] [] = .panic :=
  (decode_panic_iff _ _ _).mpr ⟨by decide, .inl (by decide)⟩

end Egts
