import Verif.Props.Decode
/- C08 - C12: truncation, trailing bytes, result codes, header fields, reuse of a Package. -/
set_option autoImplicit false
namespace Egts
open Frame
variable [P : Platform]

omit P in
theorem byteAt_take (c : Bytes) (n i : Nat) (h : i < n) : byteAt (c.take n) i = byteAt c i := by
  unfold byteAt
  rw [List.getD_eq_getElem?_getD, List.getD_eq_getElem?_getD, List.getElem?_take_of_lt h]

omit P in
theorem byteAt_append (c x : Bytes) (i : Nat) (h : i < c.length) : byteAt (c ++ x) i = byteAt c i := by
  unfold byteAt
  rw [List.getD_eq_getElem?_getD, List.getD_eq_getElem?_getD, List.getElem?_append_left h]

omit P in
theorem headerSize_take (c : Bytes) (n : Nat) (h : 2 < n) : headerSize (c.take n) = headerSize c := by
  unfold headerSize routed; rw [byteAt_take _ _ _ h]

omit P in
theorem fdl_take (c : Bytes) (n : Nat) (h : 6 < n) : declaredFDL (c.take n) = declaredFDL c := by
  unfold declaredFDL word16At; rw [byteAt_take _ _ _ (by omega), byteAt_take _ _ _ (by omega)]

/-! ### C08 -/

/-- C08 (partial): if Decode accepts a packet that declares the header length it has (frame length below
65536), then every prefix that ends before the last byte of the frame is rejected, without a panic,
whatever the receiver and the spare capacity.  Missing: the prefix that lacks only the last byte
(`truncated_by_one`). -/
theorem truncated_rejected_partial (p p' q : Package) (c spare spare' : Bytes) (n : Nat)
    (hl : declaredHL c = headerSize c) (hf : headerSize c + declaredFDL c < 65536)
    (h : Package.decode p c spare = .ret 0 none q) (hn : n ≤ headerSize c + declaredFDL c) :
    ∃ code e q', Package.decode p' (c.take n) spare' = .ret code e q' ∧ code ≠ 0 := by
  have hc : headerSize c + declaredFDL c < c.length := by
    by_cases hc : headerSize c ≤ c.length
    · rw [decode_verdict p c spare hc] at h
      obtain ⟨b, w, hvd, -⟩ := apply_ret h
      obtain ⟨-, hd, body, b', -, -, -, -, -, -, a6, -⟩ := verdict_accept hvd
      unfold tailBytes at a6
      simpa using a6
    · obtain ⟨q', hq⟩ := decode_short p c spare (by omega)
      rw [hq] at h; cases h
  have hlen : (c.take n).length = n := by simp; omega
  have hcs := headerSize_cases c
  by_cases hshort : (c.take n).length < headerSize (c.take n)
  · obtain ⟨q', hq⟩ := decode_short p' (c.take n) spare' hshort
    exact ⟨_, _, _, hq, by decide⟩
  · have h11 : 11 ≤ n := by
      rcases headerSize_cases (c.take n) with h | h <;> omega
    have hsz := headerSize_take c n (by omega)
    have hfd := fdl_take c n (by omega)
    have hnp : Package.decode p' (c.take n) spare' ≠ .panic := by
      apply decode_no_panic_partial
      intro _
      rw [hsz, hfd]
      refine ⟨?_, hf⟩
      unfold declaredHL
      rw [byteAt_take _ _ _ (by omega)]
      exact hl
    have hnd := decode_terminates p' (c.take n) spare'
    cases hd : Package.decode p' (c.take n) spare' with
    | panic => exact absurd hd hnp
    | diverge => exact absurd hd hnd
    | ret code e q' =>
      refine ⟨code, e, q', rfl, ?_⟩
      rintro rfl
      rw [decode_verdict p' _ spare' (by omega)] at hd
      obtain ⟨b, w, hvd, -⟩ := apply_ret hd
      obtain ⟨-, hd, body, b', -, -, -, -, -, -, a6, -⟩ := verdict_accept hvd
      apply a6
      unfold tailBytes
      rw [hsz, hfd]
      apply List.drop_eq_nil_of_le
      omega

/-- C08 is false of the code for the last byte: this accepted packet of 20 bytes ends with 0 (the high
byte of its checksum), and without that byte it is accepted too. -/
theorem truncated_by_one :
    (∃ q, Package.decode {} [1, 0, 0, 11, 0, 7, 0, 0, 0, 1, 126, 0, 0, 113, 0, 0, 2, 2, 57, 0] [] = .ret 0 none q) ∧
    (∃ q, Package.decode {} [1, 0, 0, 11, 0, 7, 0, 0, 0, 1, 126, 0, 0, 113, 0, 0, 2, 2, 57] [] = .ret 0 none q) :=
  ⟨(accepts_iff _).mp (by kernel_rfl), (accepts_iff _).mp (by kernel_rfl)⟩

/-! ### C09 -/

/-- C09 (partial): for a packet whose whole frame is present (header, body, both checksum bytes) and
that declares the header length it has, bytes after it and the capacity of the slice do not influence
Decode at all, accepted or not. Missing: packets without their last byte (`trailing_matters`). -/
theorem trailing_ignored_partial (p : Package) (c spare x spare' : Bytes)
    (hl : declaredHL c = headerSize c) (hf : headerSize c + declaredFDL c < 65536)
    (hc : headerSize c + declaredFDL c + 2 ≤ c.length) :
    Package.decode p (c ++ x) spare' = Package.decode p c spare := by
  have hcs := headerSize_cases c
  have hb : ∀ i, i < 11 → byteAt (c ++ x) i = byteAt c i := fun i hi => byteAt_append _ _ _ (by omega)
  have hr : routed (c ++ x) = routed c := by unfold routed; rw [hb 2 (by omega)]
  have hsz : headerSize (c ++ x) = headerSize c := by unfold headerSize; rw [hr]
  have hfd : declaredFDL (c ++ x) = declaredFDL c := by
    unfold declaredFDL word16At; rw [hb 5 (by omega), hb 6 (by omega)]
  have hcons : Consistent c := ⟨by omega, hl, hf⟩
  have hcons' : Consistent (c ++ x) := ⟨by rw [hsz]; simp; omega,
    by unfold declaredHL; rw [hb 3 (by omega), hsz]; exact hl, by rw [hsz, hfd]; exact hf⟩
  have hh : hdrPkg p (c ++ x) = hdrPkg p c := by
    have hroute : routed c = true → headerSize c = 16 := by intro h; unfold headerSize; rw [h]; rfl
    unfold hdrPkg
    rw [hr, hsz, hb 0 (by omega), hb 1 (by omega), hb 2 (by omega), hb 3 (by omega), hb 4 (by omega),
      hb 5 (by omega), hb 6 (by omega), hb 7 (by omega), hb 8 (by omega), hb 9 (by omega),
      byteAt_append c x (headerSize c - 1) (by omega)]
    cases hrt : routed c with
    | false => rfl
    | true =>
      have := hroute hrt
      rw [byteAt_append c x 10 (by omega), byteAt_append c x 11 (by omega), byteAt_append c x 12 (by omega),
        byteAt_append c x 13 (by omega), byteAt_append c x 14 (by omega)]
  have hbody : bodyBytes (c ++ x) = bodyBytes c := by
    unfold bodyBytes
    rw [hsz, hfd, List.drop_append_of_le_length (by omega), List.take_append_of_le_length (by simp; omega),
      show declaredFDL c - ((c ++ x).length - headerSize c) = 0 by simp; omega,
      show declaredFDL c - (c.length - headerSize c) = 0 by omega]
  have ht : tailBytes (c ++ x) = tailBytes c ++ x := by
    unfold tailBytes
    rw [hsz, hfd, List.drop_append_of_le_length (by omega)]
  have htl : 2 ≤ (tailBytes c).length := by unfold tailBytes; simp; omega
  have hne : tailBytes c ≠ [] := by intro h; rw [h] at htl; simp at htl
  have hne' : tailBytes c ++ x ≠ [] := by simp [hne]
  rw [decode_consistent p c spare hcons, decode_consistent p (c ++ x) spare' hcons', hh, hsz, hbody, ht,
    hb 9 (by omega), byteAt_append c x (headerSize c - 1) (by omega),
    List.take_append_of_le_length (by omega), List.take_append_of_le_length (l₁ := tailBytes c) (by omega),
    show (zeros 2).drop (tailBytes c ++ x).length = [] from List.drop_eq_nil_of_le (by simp; omega),
    show (zeros 2).drop (tailBytes c).length = [] from List.drop_eq_nil_of_le (by simp; omega),
    if_neg (show ¬ (c ++ x).length = headerSize c by simp; omega), if_neg (show ¬ c.length = headerSize c by omega)]
  simp only [hne, hne', if_false]

/-- C09 is false of the code when the last checksum byte is missing: the 19-byte packet of
`truncated_by_one` is accepted, but not with a byte 1 after it. -/
theorem trailing_matters :
    (∃ q, Package.decode {} [1, 0, 0, 11, 0, 7, 0, 0, 0, 1, 126, 0, 0, 113, 0, 0, 2, 2, 57] [] = .ret 0 none q) ∧
    ¬ (∃ q, Package.decode {} ([1, 0, 0, 11, 0, 7, 0, 0, 0, 1, 126, 0, 0, 113, 0, 0, 2, 2, 57] ++ [1]) [] = .ret 0 none q) := by
  refine ⟨truncated_by_one.2, fun h => ?_⟩
  have h1 := (accepts_iff _).mpr h
  have h2 : accepts (Package.decode {} ([1, 0, 0, 11, 0, 7, 0, 0, 0, 1, 126, 0, 0, 113, 0, 0, 2, 2, 57] ++ [1]) []) = false := by
    kernel_rfl
  rw [h2] at h1; cases h1

/-- the example packet meets the hypotheses of C08 and C09 (test). -/
example : let c : Bytes := [1, 0, 0, 11, 0, 7, 0, 0, 0, 1, 126, 0, 0, 113, 0, 0, 2, 2, 57, 0]
    declaredHL c = headerSize c ∧ headerSize c + declaredFDL c < 65536 ∧ headerSize c + declaredFDL c + 2 ≤ c.length := by
  decide

/-! ### C10 -/

/-- C10 (partial): Decode returns code 0 exactly when it returns no error, and otherwise one of
129, 131, 132, 133, 137, whatever the input. Missing: 138 for a wrong body checksum is never returned. -/
theorem decode_codes_partial (p q : Package) (c spare : Bytes) (code : UInt8) (e : Option Err)
    (h : Package.decode p c spare = .ret code e q) :
    (code = 0 ∧ e = none) ∨
    (code = 131 ∧ e = some .eof ∧ c.length < headerSize c) ∨
    (headerSize c ≤ c.length ∧
      ((code = 137 ∧ e = some .headerCrc) ∨ (code = 132 ∧ e = some .eof ∧ c.length = headerSize c) ∨
       (code = 133 ∧ e = some (.unsupportedPacketType (byteAt c 9)) ∧ byteAt c 9 ≠ 0 ∧ byteAt c 9 ≠ 1) ∨
       (code = 129 ∧ ∃ x, e = some x) ∨ (code = 137 ∧ e = some .bodyCrc))) := by
  by_cases hc : headerSize c ≤ c.length
  · rw [decode_verdict p c spare hc] at h
    obtain ⟨b, w, hv, -⟩ := apply_ret h
    unfold verdict at hv
    simp only at hv
    split at hv
    · cases hv
    · split at hv
      · cases hv; exact .inr (.inr ⟨hc, .inl ⟨rfl, rfl⟩⟩)
      · split at hv
        · rename_i hlen; cases hv; exact .inr (.inr ⟨hc, .inr (.inl ⟨rfl, rfl, hlen⟩)⟩)
        · split at hv
          · rename_i hty; cases hv; exact .inr (.inr ⟨hc, .inr (.inr (.inl ⟨rfl, rfl, hty.1, hty.2⟩))⟩)
          · split at hv
            · cases hv; exact .inr (.inr ⟨hc, .inr (.inr (.inr (.inl ⟨rfl, _, rfl⟩)))⟩)
            · cases hv
            · cases hv
            · unfold tailVerdict at hv
              split at hv
              · cases hv; exact .inr (.inr ⟨hc, .inr (.inr (.inr (.inl ⟨rfl, _, rfl⟩)))⟩)
              · split at hv
                · cases hv
                · split at hv
                  · cases hv; exact .inr (.inr ⟨hc, .inr (.inr (.inr (.inr ⟨rfl, rfl⟩)))⟩)
                  · cases hv; exact .inl ⟨rfl, rfl⟩
  · obtain ⟨q', hq⟩ := decode_short p c spare (by omega)
    rw [hq] at h
    cases h
    exact .inr (.inl ⟨rfl, rfl, by omega⟩)

/-- C10: Decode never returns 138, the code the protocol reserves for a wrong body checksum. -/
theorem decode_never_138 (p q : Package) (c spare : Bytes) (e : Option Err) :
    Package.decode p c spare ≠ .ret 138 e q := by
  intro h
  rcases decode_codes_partial p q c spare 138 e h with h | h | ⟨-, h | h | h | h | h⟩ <;> exact absurd h.1 (by decide)

/-- C10: which code, for a packet that declares the header length it has: an incomplete header gives
131; otherwise a header checksum that is not CRC-8 of the header bytes gives 137; otherwise a missing body
gives 132; otherwise a packet type other than 0/1 gives 133; otherwise an undecodable body gives 129. -/
theorem decode_code_choice (p : Package) (c spare : Bytes) :
    (c.length < headerSize c → ∃ q, Package.decode p c spare = .ret 131 (some .eof) q) ∧
    (Consistent c →
      (byteAt c (headerSize c - 1) ≠ crc8 (c.take (headerSize c - 1)) →
        ∃ q, Package.decode p c spare = .ret 137 (some .headerCrc) q) ∧
      (byteAt c (headerSize c - 1) = crc8 (c.take (headerSize c - 1)) →
        (c.length = headerSize c → ∃ q, Package.decode p c spare = .ret 132 (some .eof) q) ∧
        (headerSize c < c.length →
          (byteAt c 9 ≠ 0 ∧ byteAt c 9 ≠ 1 →
            ∃ q, Package.decode p c spare = .ret 133 (some (.unsupportedPacketType (byteAt c 9))) q) ∧
          (byteAt c 9 = 0 ∨ byteAt c 9 = 1 → ∀ e b, decodeBody (byteAt c 9) (bodyBytes c) = .err e b →
            ∃ q, Package.decode p c spare = .ret 129 (some e) q)))) := by
  refine ⟨decode_short p c spare, fun hcons => ?_⟩
  rw [decode_consistent p c spare hcons]
  refine ⟨fun h => ⟨_, by rw [if_pos h]⟩, fun h => ?_⟩
  have h' : ¬ byteAt c (headerSize c - 1) ≠ crc8 (c.take (headerSize c - 1)) := by simpa using h
  rw [if_neg h']
  refine ⟨fun hl => ⟨_, by rw [if_pos hl]⟩, fun hl => ?_⟩
  rw [if_neg (show ¬ c.length = headerSize c by omega)]
  refine ⟨fun ht => ⟨_, by rw [if_pos ht]⟩, fun ht e b he => ?_⟩
  have : ¬ (byteAt c 9 ≠ 0 ∧ byteAt c 9 ≠ 1) := by rintro ⟨h0, h1⟩; rcases ht with h | h <;> contradiction
  rw [if_neg this, he]
  exact ⟨_, rfl⟩

/-! ### C11 -/

/-- C11: whenever Decode returns (with or without an error) for a byte string with a complete header, the
package holds the header fields from their offsets on the wire. -/
theorem decode_header_fields (p q : Package) (c spare : Bytes) (code : UInt8) (e : Option Err)
    (hc : headerSize c ≤ c.length) (h : Package.decode p c spare = .ret code e q) :
    q.ProtocolVersion = byteAt c 0 ∧ q.SecurityKeyID = byteAt c 1 ∧
    q.Prefix = bitText (byteAt c 2) 7 ++ bitText (byteAt c 2) 6 ∧ q.Route = bitText (byteAt c 2) 5 ∧
    q.EncryptionAlg = bitText (byteAt c 2) 4 ++ bitText (byteAt c 2) 3 ∧ q.Compression = bitText (byteAt c 2) 2 ∧
    q.Priority = bitText (byteAt c 2) 1 ++ bitText (byteAt c 2) 0 ∧
    q.HeaderLength = byteAt c 3 ∧ q.HeaderEncoding = byteAt c 4 ∧
    q.FrameDataLength.toNat = word16At c 5 ∧ q.PacketIdentifier.toNat = word16At c 7 ∧ q.PacketType = byteAt c 9 ∧
    (routed c = true → q.PeerAddress.toNat = word16At c 10 ∧ q.RecipientAddress.toNat = word16At c 12 ∧
      q.TimeToLive = byteAt c 14 ∧ q.HeaderCheckSum = byteAt c 15) ∧
    (routed c = false → q.HeaderCheckSum = byteAt c 10) := by
  rw [decode_verdict p c spare hc] at h
  obtain ⟨b, w, -, rfl⟩ := apply_ret h
  have w16 : ∀ i, (u16 [byteAt c i, byteAt c (i + 1)]).toNat = word16At c i := by
    intro i; rw [u16_toNat]; simp [word16At, leValue]
  refine ⟨rfl, rfl, rfl, rfl, rfl, rfl, rfl, rfl, rfl, w16 5, w16 7, rfl, ?_, ?_⟩
  · intro hr
    have a := w16 10
    have a2 := w16 12
    unfold hdrPkg headerSize
    simp only [hr, if_true]
    exact ⟨a, a2, by trivial⟩
  · intro hr
    unfold hdrPkg headerSize
    simp only [hr]
    rfl

/-- the hypotheses of C11 are met by a packet with routing fields (test). -/
example : let c : Bytes := [1, 0, 32, 16, 0, 0, 0, 5, 0, 1, 1, 2, 3, 4, 9, 77]
    routed c = true ∧ headerSize c ≤ c.length ∧ word16At c 10 = 513 := by decide

/-! ### C12 -/

/-- C12 (partial): for every packet, decoding it into a package that was used before gives the same
outcome as decoding it into an empty one, and on success the same package except that, when the packet has
no routing fields, the routing fields of the old package stay visible. -/
theorem decode_reuse_partial (p : Package) (c spare : Bytes) :
    (Package.decode p c spare = .panic ↔ Package.decode {} c spare = .panic) ∧
    (∀ code e, (∃ q, Package.decode p c spare = .ret code e q) ↔ (∃ q, Package.decode {} c spare = .ret code e q)) ∧
    (∀ q, Package.decode {} c spare = .ret 0 none q → Package.decode p c spare = .ret 0 none
      { q with
        PeerAddress := if routed c then q.PeerAddress else p.PeerAddress
        RecipientAddress := if routed c then q.RecipientAddress else p.RecipientAddress
        TimeToLive := if routed c then q.TimeToLive else p.TimeToLive }) := by
  by_cases hc : headerSize c ≤ c.length
  · rw [decode_verdict p c spare hc, decode_verdict {} c spare hc]
    cases hv : verdict c spare with
    | panic => simp [Verdict.apply]
    | diverge => simp [Verdict.apply]
    | ret code e b w =>
      refine ⟨by simp [Verdict.apply], ?_, ?_⟩
      · intro code' e'
        simp [Verdict.apply]
      · intro q hq
        obtain ⟨b', w', h1, rfl⟩ := apply_ret hq
        injection h1 with h1 h2 h3 h4
        subst h1 h2 h3 h4
        obtain ⟨-, hd, body, b'', -, -, -, -, -, rfl, -, -, -, rfl⟩ := verdict_accept hv
        unfold Verdict.apply hdrPkg
        cases routed c <;> rfl
  · obtain ⟨q, hq⟩ := decode_short p c spare (by omega)
    obtain ⟨q', hq'⟩ := decode_short {} c spare (by omega)
    rw [hq, hq']
    simp

/-- C12 for packets with routing fields: exactly the same package. -/
theorem decode_reuse_routed (p q : Package) (c spare : Bytes) (hr : routed c = true)
    (h : Package.decode {} c spare = .ret 0 none q) : Package.decode p c spare = .ret 0 none q := by
  have := (decode_reuse_partial p c spare).2.2 q h
  rw [this, hr]
  rfl

/-- the peer address of the package stored by a successful Decode -/
def peerOf : PkgOut → Option UInt16
  | .ret 0 none q => some q.PeerAddress
  | _ => none

/-- C12 is false of the code: after a packet with peer address 513, decoding a packet without routing
fields into the same package still reports peer address 513. -/
theorem decode_reuse_stale :
    peerOf (Package.decode { PeerAddress := 513 } [1, 0, 0, 11, 0, 7, 0, 0, 0, 1, 126, 0, 0, 113, 0, 0, 2, 2, 57, 0] []) = some 513 ∧
    peerOf (Package.decode {} [1, 0, 0, 11, 0, 7, 0, 0, 0, 1, 126, 0, 0, 113, 0, 0, 2, 2, 57, 0] []) = some 0 :=
  ⟨by kernel_rfl, by kernel_rfl⟩

end Egts
