import Verif.Lemmas.Verdict
import Verif.Lemmas.KernelRfl
import Verif.Props.Crc
/- C04 - C12: properties of Package.Decode for arbitrary input. -/
set_option autoImplicit false
namespace Egts
open Frame
variable [P : Platform]

/-! ### C04: termination

The recursion of the Go code is: `ServiceDataSet.Decode` loops over records, each calling
`RecordDataSet.Decode`, which loops over subrecords, and a record response calls
`ServiceDataSet.Decode` again.  The model computes with finite approximations: `sdsDecodeN n` allows
`n` nested calls, `Dec.loopN b n` allows `n` iterations, and exceeding them gives `diverge`. -/

/-- C04: decoding any byte string into any package, whatever the spare capacity of the slice, returns or
panics; it never exceeds the bounds of the approximation. -/
theorem decode_terminates (p : Package) (c spare : Bytes) : Package.decode p c spare ≠ .diverge := by
  by_cases h : headerSize c ≤ c.length
  · rw [decode_verdict p c spare h]
    have := verdict_not_diverge c spare
    revert this
    cases verdict c spare <;> simp [Verdict.apply]
  · obtain ⟨q, hq⟩ := decode_short p c spare (by omega)
    rw [hq]; simp

/-- C04: every approximation that allows at least as many nested calls as there are non-zero bytes
gives the same, proper, result: the unbounded recursion of the code stops by itself. -/
theorem sds_terminates (b : Bytes) (n : Nat) (hn : nz b < n) :
    sdsDecodeN n b = ServiceDataSet.decode [] b ∧ (∃ s, ServiceDataSet.decode [] b = .ok s) ∨
    sdsDecodeN n b = ServiceDataSet.decode [] b ∧ ∃ e s, ServiceDataSet.decode [] b = .err e s := by
  have h1 := (sdsDecodeN_ok n (nz b + 1) b hn (Nat.lt_succ_self _)).1
  have h2 : sdsDecodeN (nz b + 1) b = ServiceDataSet.decode [] b := nestedDecode_eq b
  have h3 := ServiceDataSet.decode_safe (P := P) [] b
  rw [h1, h2]
  revert h3
  cases ServiceDataSet.decode [] b <;> simp [Out.Safe]

/-- C04: the model satisfies the recursion of the code: data nested in a record response is decoded by
`ServiceDataSet.Decode` itself (egts_sr_response.go:33-36). -/
theorem nested_is_recursive (b : Bytes) : nestedDecode b = ServiceDataSet.decode [] b := nestedDecode_eq b

/-- C04: the loops of the code, unbounded: one more iteration than needed changes nothing, so the loop
equals its own unfolding. -/
theorem sds_loop_unfold (s : ServiceDataSet) (r : Bytes) :
    Dec.whileUnread (sdsStep nestedDecode) s r =
      if r = [] then .ok () s r else (sdsStep nestedDecode >>= fun _ => Dec.whileUnread (sdsStep nestedDecode)) s r :=
  whileUnread_unfold _ (fun s r hr => sdsStep_ok s r hr (nestedOk _)) s r

theorem rds_loop_unfold (s : RecordDataSet) (r : Bytes) :
    Dec.whileUnread (rdsStep nestedDecode) s r =
      if r = [] then .ok () s r else (rdsStep nestedDecode >>= fun _ => Dec.whileUnread (rdsStep nestedDecode)) s r :=
  whileUnread_unfold _ (fun s r hr => rdsStep_ok s r hr (nestedOk _)) s r

/-- C04: the other decoders never diverge (nor panic) on any input and receiver. -/
theorem sections_terminate (s : ServiceDataSet) (r : RecordDataSet) (q : SrResponse) (t : PtResponse) (b : Bytes) :
    (ServiceDataSet.decode s b).Safe ∧ (RecordDataSet.decode r b).Safe ∧ (SrResponse.decode q b).Safe ∧
    (PtResponse.decode t b).Safe :=
  ⟨ServiceDataSet.decode_safe s b, RecordDataSet.decode_safe r b, SrResponse.decode_safe q b, PtResponse.decode_safe t b⟩

/-! ### C05: panics -/

/-- C05 is false of the code: *every* packet with a complete header whose declared header length,
minus one modulo 256, exceeds the capacity of the slice makes Decode panic (egts_pkg.go:104). In particular
every packet of fewer than 255 bytes with header length 0. -/
theorem decode_panics_header (p : Package) (c spare : Bytes) (h : headerSize c ≤ c.length)
    (hl : (c ++ spare).length < (declaredHL c + 255) % 256) : Package.decode p c spare = .panic := by
  rw [decode_verdict p c spare h]
  have e : (byteAt c 3 - 1).toNat = (declaredHL c + 255) % 256 := by
    unfold declaredHL
    rw [UInt8.toNat_sub]
    simp
    omega
  have hg : goSlice (c ++ spare) 0 (byteAt c 3 - 1).toNat = none := by
    unfold goSlice
    rw [e, if_neg (by omega)]
  unfold verdict
  simp only [hg]
  rfl

/-- a concrete packet of 11 bytes that makes Decode panic. -/
theorem decode_panics_example : Package.decode {} [1, 0, 0, 0, 0, 0, 0, 0, 0, 1, 0] [] = .panic :=
  decode_panics_header _ _ _ (by decide) (by decide)

/-- C05: conversely, these are the only two ways to panic: slicing the header out of the packet or
slicing the body out of it. -/
theorem decode_panic_only (p : Package) (c spare : Bytes) (h : Package.decode p c spare = .panic) :
    headerSize c ≤ c.length ∧ ((c ++ spare).length < (declaredHL c + 255) % 256 ∨
      (headerSize c + declaredFDL c < c.length ∧
       ¬ (declaredHL c ≤ (declaredHL c + declaredFDL c) % 65536 ∧
          (declaredHL c + declaredFDL c) % 65536 ≤ (c ++ spare).length))) := by
  by_cases hc : headerSize c ≤ c.length
  · refine ⟨hc, ?_⟩
    rw [decode_verdict p c spare hc] at h
    have e : (byteAt c 3 - 1).toNat = (declaredHL c + 255) % 256 := by
      unfold declaredHL
      rw [UInt8.toNat_sub]
      simp
      omega
    have e2 : ((byteAt c 3).toUInt16 + u16 [byteAt c 5, byteAt c 6]).toNat = (declaredHL c + declaredFDL c) % 65536 := by
      rw [UInt16.toNat_add, fdl_eq, UInt8.toNat_toUInt16]; rfl
    by_cases h1 : (c ++ spare).length < (declaredHL c + 255) % 256
    · exact .inl h1
    · right
      have hv : verdict c spare = .panic := by
        revert h
        cases verdict c spare <;> simp [Verdict.apply]
      unfold verdict at hv
      simp only at hv
      split at hv
      · rename_i hg
        unfold goSlice at hg
        rw [e, if_pos ⟨by omega, by omega⟩] at hg
        cases hg
      · split at hv
        · cases hv
        · split at hv
          · cases hv
          · split at hv
            · cases hv
            · have hsafe := decodeBody_safe (byteAt c 9) (bodyBytes c)
              revert hsafe
              split at hv
              · cases hv
              · rename_i hx; rw [hx]; intro hsafe; exact absurd hsafe (by simp [Out.Safe])
              · cases hv
              · intro _
                unfold tailVerdict at hv
                split at hv
                · cases hv
                · rename_i ht
                  refine ⟨by unfold tailBytes at ht; simpa using ht, ?_⟩
                  split at hv
                  · rename_i hg
                    unfold goSlice at hg
                    intro hh
                    rw [e2, if_pos (by exact hh)] at hg
                    cases hg
                  · split at hv <;> cases hv
  · obtain ⟨q, hq⟩ := decode_short p c spare (by omega)
    rw [hq] at h; cases h

/-- C05 (partial): a packet that declares the header length it has, and whose frame length is below
65536, never makes Decode panic, whatever its other contents and however much of it is missing; an
incomplete header never does either. Missing: packets that declare another header length, see
`decode_panics_header` and `decode_panics_wrap`. -/
theorem decode_no_panic_partial (p : Package) (c spare : Bytes)
    (h : headerSize c ≤ c.length → declaredHL c = headerSize c ∧ headerSize c + declaredFDL c < 65536) :
    Package.decode p c spare ≠ .panic := by
  intro hp
  obtain ⟨hc, h3⟩ := decode_panic_only p c spare hp
  obtain ⟨h1, h2⟩ := h hc
  have := headerSize_cases c
  rw [h1] at h3
  simp only [List.length_append] at h3
  omega

/-! ### C06: what was verified -/

/-- C06 (partial): if Decode accepts a packet that declares the header length it has (and a frame length
below 65536) then the header checksum byte is the CRC-8 of the header bytes before it, the bytes after
the header were decoded as the body, and the two bytes after the body are its CRC-16, little-endian (a
missing last byte counts as zero). Missing: packets declaring another header length (`decode_crc_wrong`). -/
theorem decode_verifies_crc_partial (p q : Package) (c spare : Bytes)
    (hl : declaredHL c = headerSize c) (hf : headerSize c + declaredFDL c < 65536)
    (h : Package.decode p c spare = .ret 0 none q) :
    ∃ header hcs body tail, c = header ++ [hcs] ++ body ++ tail ∧
      header.length + 1 = headerSize c ∧ body.length = declaredFDL c ∧
      hcs = crc8 header ∧
      (∃ b, decodeBody (byteAt c 9) body = .ok b ∧ q.ServicesFrameData = some b) ∧
      ((∃ x y t, tail = x :: y :: t ∧ leValue [x, y] = (crc16 body).toNat) ∨
       (∃ x, tail = [x] ∧ x.toNat = (crc16 body).toNat)) := by
  have hc : headerSize c ≤ c.length := by
    by_contra hn
    obtain ⟨q', hq⟩ := decode_short p c spare (by omega)
    rw [hq] at h; cases h
  have hcons : Consistent c := ⟨hc, hl, hf⟩
  rw [decode_verdict p c spare hc] at h
  obtain ⟨b, w, hv, rfl⟩ := apply_ret h
  obtain ⟨-, hd, body, b', h1, h2, h3, h4, h5, rfl, h6, h7, h8, rfl⟩ := verdict_accept hv
  have hlt : headerSize c + declaredFDL c < c.length := by
    unfold tailBytes at h6
    simpa using h6
  rw [goSlice_header c spare hcons] at h1
  have hbody : body = (c.drop (headerSize c)).take (declaredFDL c) := by
    have e2 : ((byteAt c 3).toUInt16 + u16 [byteAt c 5, byteAt c 6]).toNat = headerSize c + declaredFDL c := by
      rw [UInt16.toNat_add, fdl_eq, UInt8.toNat_toUInt16, show (byteAt c 3).toNat = headerSize c from hl]
      exact Nat.mod_eq_of_lt hf
    rw [e2, show (byteAt c 3).toNat = headerSize c from hl, goSlice_body c spare hcons h6] at h7
    exact (Option.some.inj h7).symm
  have hbb : bodyBytes c = body := by
    unfold bodyBytes
    rw [show declaredFDL c - (c.length - headerSize c) = 0 by omega, hbody]
    simp [zeros]
  have hpos : 0 < headerSize c := by rcases headerSize_cases c with h | h <;> omega
  refine ⟨c.take (headerSize c - 1), byteAt c (headerSize c - 1), body, tailBytes c, ?_, ?_, ?_, ?_, ⟨b', ?_, rfl⟩, ?_⟩
  · have e1 : c.take (headerSize c - 1) ++ [byteAt c (headerSize c - 1)] = c.take (headerSize c) := by
      have : headerSize c = headerSize c - 1 + 1 := by omega
      conv => rhs; rw [this]
      rw [List.take_add_one, List.getElem?_eq_getElem (by omega)]
      unfold byteAt
      rw [List.getD_eq_getElem?_getD, List.getElem?_eq_getElem (by omega)]
      rfl
    rw [e1, hbody]
    unfold tailBytes
    rw [List.append_assoc, ← List.drop_drop, List.take_append_drop, List.take_append_drop]
  · simp; omega
  · rw [hbody]; simp; omega
  · rw [h2]; cases h1; rfl
  · rw [← hbb]; exact h5
  · match htl : tailBytes c, h6 with
    | [x], _ =>
      right
      refine ⟨x, rfl, ?_⟩
      rw [htl] at h8
      rw [← h8]
      show _ = (u16 [x, 0]).toNat
      rw [u16_toNat]; simp
    | x :: y :: t, _ =>
      left
      refine ⟨x, y, t, rfl, ?_⟩
      rw [htl] at h8
      rw [← h8]
      show _ = (u16 [x, y]).toNat
      rw [u16_toNat]; simp [leValue]

/-- did Decode return code 0 without error? -/
def accepts : PkgOut → Bool
  | .ret 0 none _ => true
  | _ => false

theorem accepts_iff (o : PkgOut) : accepts o = true ↔ ∃ q, o = .ret 0 none q := by
  constructor
  · intro h
    unfold accepts at h
    split at h
    · exact ⟨_, rfl⟩
    · cases h
  · rintro ⟨q, rfl⟩; rfl

/-- C06 is false of the code: this packet declares header length 12 instead of 11 and is accepted,
although its body (the seven bytes that are decoded) has checksum 0xB7EE and the packet carries 0x00C2. -/
theorem decode_crc_wrong : ∃ q, Package.decode {}
    [1, 0, 0, 12, 0, 7, 0, 1, 0, 1, 27, 0, 0, 0, 0, 0, 2, 2, 194, 0] [] = .ret 0 none q ∧
    crc16 [0, 0, 0, 0, 0, 2, 2] = 0xB7EE := by
  obtain ⟨q, hq⟩ := (accepts_iff (Package.decode {} [1, 0, 0, 12, 0, 7, 0, 1, 0, 1, 27, 0, 0, 0, 0, 0, 2, 2, 194, 0] [])).mp
    (by kernel_rfl)
  exact ⟨q, hq, by decide +kernel⟩

/-- a concrete packet that meets the hypotheses of C06-C09 and is accepted (libs/egts/egts_pkg_test.go style; test). -/
theorem accepted_example : ∃ q, Package.decode {}
    [1, 0, 0, 11, 0, 7, 0, 25, 0, 1, 206, 162, 145, 31, 174, 248, 243, 178, 81, 125] [] = .ret 0 none q :=
  (accepts_iff _).mp (by kernel_rfl)

/-! ### C07: single corrupted bytes -/

omit P in
theorem byteAt_set_ne (c : Bytes) (i j : Nat) (v : UInt8) (h : i ≠ j) : byteAt (c.set i v) j = byteAt c j := by
  unfold byteAt
  rw [List.getD_eq_getElem?_getD, List.getD_eq_getElem?_getD, List.getElem?_set_ne h]

omit P in
theorem byteAt_set_self (c : Bytes) (i : Nat) (v : UInt8) (h : i < c.length) : byteAt (c.set i v) i = v := by
  unfold byteAt
  rw [List.getD_eq_getElem?_getD, List.getElem?_set_self h]; rfl

omit P in
theorem split_at (c : Bytes) (i : Nat) (h : i < c.length) : ∃ x y, c = x ++ byteAt c i :: y ∧ x.length = i ∧
    ∀ v, c.set i v = x ++ v :: y := by
  refine ⟨c.take i, c.drop (i + 1), ?_, by simp; omega, ?_⟩
  · unfold byteAt
    rw [List.getD_eq_getElem?_getD, List.getElem?_eq_getElem h]
    simp
  · intro v
    rw [List.set_eq_take_append_cons_drop, if_pos h]

/-- C07 (partial): if a packet that declares the header length it has (and a frame length below 65536) is
accepted, then changing any one byte of its frame other than the header length byte (3) and the routing
bit (bit 5 of byte 2) makes it rejected, whatever receiver and spare capacity are used.
Missing: those two, see `decode_hl_change_accepted`. -/
theorem single_byte_detected_partial (p p' q : Package) (c spare spare' : Bytes) (i : Nat) (v : UInt8)
    (hl : declaredHL c = headerSize c) (hf : headerSize c + declaredFDL c < 65536)
    (h : Package.decode p c spare = .ret 0 none q)
    (hi : i < headerSize c + declaredFDL c + 2) (hlen : i < c.length) (hv : v ≠ byteAt c i)
    (h3 : i ≠ 3) (h2 : i = 2 → v.toNat.testBit 5 = (byteAt c 2).toNat.testBit 5) :
    ∀ code e q', Package.decode p' (c.set i v) spare' = .ret code e q' → code ≠ 0 := by
  intro code e q' h' hcode
  subst hcode
  have hc : headerSize c ≤ c.length := by
    by_contra hn
    obtain ⟨q', hq⟩ := decode_short p c spare (by omega)
    rw [hq] at h; cases h
  have hcons : Consistent c := ⟨hc, hl, hf⟩
  have hsz : headerSize (c.set i v) = headerSize c := by
    unfold headerSize routed
    by_cases hi2 : i = 2
    · subst hi2; rw [byteAt_set_self _ _ _ hlen, h2 rfl]
    · rw [byteAt_set_ne _ _ _ _ hi2]
  have hc' : headerSize (c.set i v) ≤ (c.set i v).length := by rw [hsz]; simpa using hc
  have hhl : byteAt (c.set i v) 3 = byteAt c 3 := byteAt_set_ne _ _ _ _ h3
  have hcases := headerSize_cases c
  have ehl : (byteAt c 3 - 1).toNat = headerSize c - 1 := by
    have hx : (byteAt c 3).toNat = headerSize c := hl
    have : (1 : UInt8) ≤ byteAt c 3 := by
      rw [UInt8.le_iff_toNat_le, hx]
      rcases hcases with h | h <;> rw [h] <;> decide
    rw [UInt8.toNat_sub_of_le _ _ this, hx]; rfl
  rw [decode_verdict p c spare hc] at h
  obtain ⟨b, w, hvd, -⟩ := apply_ret h
  obtain ⟨-, hd, body, b', a1, a2, a3, a4, a5, -, a6, a7, a8, -⟩ := verdict_accept hvd
  rw [decode_verdict p' _ spare' hc'] at h'
  obtain ⟨b2, w2, hvd', -⟩ := apply_ret h'
  obtain ⟨-, hd', body', b'', c1, c2, c3, c4, c5, -, c6, c7, c8, -⟩ := verdict_accept hvd'
  have hdr : hd' = (c.set i v).take (headerSize c - 1) := by
    unfold goSlice at c1
    rw [hhl, ehl, if_pos ⟨by omega, by simp; omega⟩] at c1
    rw [← Option.some.inj c1, List.drop_zero, Nat.sub_zero, List.take_append_of_le_length (by simp; omega)]
  have hdr0 : hd = c.take (headerSize c - 1) := by
    rw [goSlice_header c spare hcons] at a1
    exact (Option.some.inj a1).symm
  rw [hsz] at c2
  obtain ⟨x, y, hxy, hx, hset⟩ := split_at c i hlen
  by_cases hreg : i < headerSize c - 1
  · -- header byte: CRC-8
    rw [byteAt_set_ne _ _ _ _ (by omega), a2, hdr, hdr0, hset] at c2
    have t : ∀ u : UInt8, (x ++ u :: y).take (headerSize c - 1) = x ++ u :: y.take (headerSize c - 1 - i - 1) := by
      intro u
      rw [List.take_append, List.take_of_length_le (by omega), hx]
      congr 1
      rw [show headerSize c - 1 - i = (headerSize c - 1 - i - 1) + 1 by omega, List.take_succ_cons,
        show headerSize c - 1 - i - 1 + 1 - 1 = headerSize c - 1 - i - 1 by omega]
    have t0 := t (byteAt c i)
    rw [← hxy] at t0
    rw [t, t0] at c2
    exact crc8_one_byte _ _ (Ne.symm hv) c2
  · have hpre : (c.set i v).take (headerSize c - 1) = c.take (headerSize c - 1) := by
      rw [List.take_set_of_le (by omega)]
    rw [hdr, hpre, ← hdr0, ← a2] at c2
    by_cases hh : i = headerSize c - 1
    · subst hh
      rw [byteAt_set_self _ _ _ hlen] at c2
      exact hv c2
    · -- body or its checksum
      have hfd : declaredFDL (c.set i v) = declaredFDL c := by
        unfold declaredFDL word16At
        rw [byteAt_set_ne _ _ _ _ (by omega), byteAt_set_ne _ _ _ _ (by omega)]
      have hcons' : Consistent (c.set i v) := ⟨hc', by rw [hsz]; unfold declaredHL; rw [hhl]; exact hl, by rw [hsz, hfd]; exact hf⟩
      have bod : ∀ (d s z : Bytes), Consistent d → tailBytes d ≠ [] →
          goSlice (d ++ s) (byteAt d 3).toNat ((byteAt d 3).toUInt16 + u16 [byteAt d 5, byteAt d 6]).toNat = some z →
          z = (d.drop (headerSize d)).take (declaredFDL d) := by
        intro d s z hd ht hz
        have e2 : ((byteAt d 3).toUInt16 + u16 [byteAt d 5, byteAt d 6]).toNat = headerSize d + declaredFDL d := by
          rw [UInt16.toNat_add, fdl_eq, UInt8.toNat_toUInt16, show (byteAt d 3).toNat = headerSize d from hd.hl]
          exact Nat.mod_eq_of_lt hd.fits
        rw [e2, show (byteAt d 3).toNat = headerSize d from hd.hl, goSlice_body d s hd ht] at hz
        exact (Option.some.inj hz).symm
      have hb := bod c spare body hcons a6 a7
      have hb' := bod _ spare' body' hcons' c6 c7
      rw [hsz, hfd] at hb'
      have htl : tailBytes (c.set i v) = (c.set i v).drop (headerSize c + declaredFDL c) := by
        unfold tailBytes; rw [hsz, hfd]
      by_cases hbody : i < headerSize c + declaredFDL c
      · have ht : tailBytes (c.set i v) = tailBytes c := by
          rw [htl]
          unfold tailBytes
          rw [List.drop_set_of_lt (by omega)]
        rw [ht, a8, hb, hb', hset] at c8
        have t : ∀ u : UInt8, ((x ++ u :: y).drop (headerSize c)).take (declaredFDL c) =
            x.drop (headerSize c) ++ u :: y.take (declaredFDL c - (i - headerSize c) - 1) := by
          intro u
          rw [List.drop_append_of_le_length (by omega), List.take_append, List.take_of_length_le (by simp; omega)]
          congr 1
          have : declaredFDL c - (x.drop (headerSize c)).length = (declaredFDL c - (i - headerSize c) - 1) + 1 := by
            simp; omega
          rw [this, List.take_succ_cons]
        have t0 := t (byteAt c i)
        rw [← hxy] at t0
        rw [t, t0] at c8
        exact crc16_one_byte _ _ (Ne.symm hv) c8
      · have hsame : body' = body := by
          rw [hb, hb']
          rw [List.take_drop, List.take_drop, List.take_set_of_le (by omega)]
        rw [hsame, ← a8] at c8
        have ht' : tailBytes (c.set i v) = (tailBytes c).set (i - (headerSize c + declaredFDL c)) v := by
          rw [htl]; unfold tailBytes
          rw [List.drop_set, if_neg (by omega)]
        rw [ht'] at c8
        have hby : byteAt (tailBytes c) (i - (headerSize c + declaredFDL c)) = byteAt c i := by
          unfold tailBytes byteAt
          rw [List.getD_eq_getElem?_getD, List.getD_eq_getElem?_getD, List.getElem?_drop,
            show headerSize c + declaredFDL c + (i - (headerSize c + declaredFDL c)) = i by omega]
        rw [← hby] at hv
        have hk : i - (headerSize c + declaredFDL c) < 2 := by omega
        have hkl : i - (headerSize c + declaredFDL c) < (tailBytes c).length := by unfold tailBytes; simp; omega
        revert c8 hv hk hkl
        generalize i - (headerSize c + declaredFDL c) = k
        have hinj : ∀ a b a' b' : UInt8, u16 [a, b] = u16 [a', b'] → a = a' ∧ b = b' := by
          intro a b a' b' hu
          have h1 := le16_u16 a b
          rw [hu, le16_u16] at h1
          simpa [eq_comm] using h1
        intro hv c8 hk hkl
        match htc : tailBytes c, k, hk, hkl with
        | [a], 0, _, _ =>
          rw [htc] at c8 hv
          exact hv (hinj v 0 a 0 c8).1
        | a :: b :: t, 0, _, _ =>
          rw [htc] at c8 hv
          exact hv (hinj v b a b c8).1
        | a :: b :: t, 1, _, _ =>
          rw [htc] at c8 hv
          exact hv (hinj a v a b c8).2

/-- C07 is false of the code: these two packets differ only in the header length byte (11 / 12)
and both are accepted. -/
theorem decode_hl_change_accepted :
    (∃ q, Package.decode {} [1, 0, 0, 11, 0, 7, 0, 25, 0, 1, 206, 162, 145, 31, 174, 248, 243, 178, 81, 125] [] = .ret 0 none q) ∧
    (∃ q, Package.decode {} ([1, 0, 0, 11, 0, 7, 0, 25, 0, 1, 206, 162, 145, 31, 174, 248, 243, 178, 81, 125].set 3 12) [] = .ret 0 none q) :=
  ⟨accepted_example, (accepts_iff _).mp (by kernel_rfl)⟩

end Egts
