import Verif.Props.DecodeAll
import Verif.Props.Decode2
import Verif.Lemmas.KernelRfl
set_option autoImplicit false
/- C07-C09, exactly: which cut, lengthened or damaged packets are accepted. -/
namespace Egts
open Frame
variable [P : Platform]

/-- Decode accepts the bytes `c` (in a slice with the capacity given by `spare`), with the contents `body` -/
def AcceptsAs (p : Package) (c spare : Bytes) (body : Body) : Prop :=
  ∃ q, Package.decode p c spare = .ret 0 none q ∧ q.ServicesFrameData = some body

/-- the packet declares the header length it has, and less than 65536 bytes -/
def RightLengths (c : Bytes) : Prop := declaredHL c = headerSize c ∧ headerSize c + declaredFDL c < 65536

omit P in
theorem take_same_byte {c c' : Bytes} {m i : Nat} (h : c'.take m = c.take m) (hi : i < m) : byteAt c' i = byteAt c i := by
  rw [← byteAt_take c' m i hi, h, byteAt_take c m i hi]

omit P in
theorem take_append_le (c x : Bytes) (k m : Nat) (h1 : k ≤ m) (h2 : m ≤ c.length) : (c ++ x).take k = (c.take m).take k := by
  rw [List.take_append_of_le_length (by omega), List.take_take, Nat.min_eq_left h1]

omit P in
theorem mid_take (c : Bytes) (a b : Nat) : (c.drop a).take b = (c.take (a + b)).drop a := by
  rw [List.drop_take, Nat.add_sub_cancel_left]

omit P in
theorem mid_append (c x : Bytes) (a b : Nat) (h : a + b ≤ c.length) : ((c ++ x).drop a).take b = (c.drop a).take b := by
  rw [mid_take, mid_take, List.take_append_of_le_length h]

/-- an acceptable packet of right lengths, in terms of its first bytes and the checksum after them -/
theorem accepts_right (c spare : Bytes) (p : Package) (body : Body) (hr : RightLengths c) :
    AcceptsAs p c spare body ↔ headerSize c + declaredFDL c < c.length ∧
      byteAt c (headerSize c - 1) = crc8 (c.take (headerSize c - 1)) ∧
      BodyOf (byteAt c 9) ((c.drop (headerSize c)).take (declaredFDL c)) body ∧
      sentChecksum c = (crc16 ((c.drop (headerSize c)).take (declaredFDL c))).toNat := by
  obtain ⟨hl, hf⟩ := hr
  have hcs := headerSize_cases c
  have e1 : checkedHeader c = headerSize c - 1 := by unfold checkedHeader; rw [hl]; omega
  have e2 : checkedEnd c = headerSize c + declaredFDL c := by unfold checkedEnd; rw [hl]; omega
  unfold AcceptsAs
  rw [decode_accept_iff]
  unfold HeaderOk
  rw [e1, e2, hl]
  constructor
  · rintro ⟨⟨-, -, h3⟩, h4, h5, -, -, h8⟩
    have ed : decodedBody c = (c.drop (headerSize c)).take (declaredFDL c) := by
      unfold decodedBody
      rw [show declaredFDL c - (c.length - headerSize c) = 0 by omega]
      simp
    refine ⟨h4, ?_, ed ▸ h5, ?_⟩
    · rw [h3, List.take_append_of_le_length (by omega)]
    · rw [h8, show headerSize c + declaredFDL c - headerSize c = declaredFDL c by omega,
        mid_append c spare _ _ (by omega)]
  · rintro ⟨h4, h3, h5, h8⟩
    have ed : decodedBody c = (c.drop (headerSize c)).take (declaredFDL c) := by
      unfold decodedBody
      rw [show declaredFDL c - (c.length - headerSize c) = 0 by omega]
      simp
    refine ⟨⟨by omega, by simp; omega, ?_⟩, h4, ed ▸ h5, by omega, by simp; omega, ?_⟩
    · rw [h3, List.take_append_of_le_length (by omega)]
    · rw [h8, show headerSize c + declaredFDL c - headerSize c = declaredFDL c by omega,
        mid_append c spare _ _ (by omega)]

/-- two byte strings with the same header and body differ for Decode only in the two bytes after the body -/
theorem accepts_same_frame (c c' spare spare' : Bytes) (p p' : Package) (body : Body) (hr : RightLengths c)
    (h : AcceptsAs p c spare body)
    (ht : c'.take (headerSize c + declaredFDL c) = c.take (headerSize c + declaredFDL c))
    (hlen : headerSize c + declaredFDL c < c'.length) :
    AcceptsAs p' c' spare' body ↔ sentChecksum c' = sentChecksum c := by
  have hcs := headerSize_cases c
  have hb : ∀ i < 11, byteAt c' i = byteAt c i := fun i hi => take_same_byte ht (by omega)
  have hs : headerSize c' = headerSize c := by unfold headerSize routed; rw [hb 2 (by omega)]
  have hd : declaredFDL c' = declaredFDL c := by unfold declaredFDL word16At; rw [hb 5 (by omega), hb 6 (by omega)]
  have hh : declaredHL c' = declaredHL c := by unfold declaredHL; rw [hb 3 (by omega)]
  have hr' : RightLengths c' := by unfold RightLengths; rw [hs, hd, hh]; exact hr
  rw [accepts_right _ _ _ _ hr'] 
  obtain ⟨a1, a2, a3, a4⟩ := (accepts_right _ _ _ _ hr).mp h
  have e1 : c'.take (headerSize c - 1) = c.take (headerSize c - 1) := by
    rw [← Nat.min_eq_left (show headerSize c - 1 ≤ headerSize c + declaredFDL c by omega), ← List.take_take, ht, List.take_take]
  have e2 : (c'.drop (headerSize c)).take (declaredFDL c) = (c.drop (headerSize c)).take (declaredFDL c) := by
    rw [mid_take, mid_take, ht]
  rw [hs, hd, hb 9 (by omega), e1, e2, take_same_byte ht (show headerSize c - 1 < _ by omega)]
  constructor
  · rintro ⟨-, -, -, h4⟩
    rw [h4, a4]
  · intro h4
    exact ⟨hlen, a2, a3, h4.trans a4⟩

omit P in
/-- the checksum in terms of its two bytes -/
theorem sentChecksum_bytes (c : Bytes) (h : headerSize c + declaredFDL c < c.length) :
    sentChecksum c = (byteAt c (headerSize c + declaredFDL c)).toNat + 256 * (byteAt c (headerSize c + declaredFDL c + 1)).toNat := by
  unfold sentChecksum
  generalize headerSize c + declaredFDL c = m at h
  have e : ∀ (l : Bytes) (m : Nat), m < l.length →
      leValue ((l.drop m).take 2) = (byteAt l m).toNat + 256 * (byteAt l (m + 1)).toNat := by
    intro l
    induction l with
    | nil => intro m h; simp at h
    | cons x l ih =>
      intro m h
      cases m with
      | zero => cases l <;> simp [leValue, byteAt]
      | succ m =>
        have := ih m (by simpa using h)
        simpa [byteAt] using this
  exact e c m h

/-- **C08, exactly.** A packet of right lengths that Decode accepts, cut after `n` bytes, is accepted exactly if nothing of its
frame is missing, or just the last byte of the checksum is and that byte is zero. -/
theorem truncated_iff (c spare spare' : Bytes) (p p' : Package) (body : Body) (hr : RightLengths c)
    (h : AcceptsAs p c spare body) (hw : headerSize c + declaredFDL c + 2 ≤ c.length) (n : Nat) (hn : n ≤ c.length) :
    (∃ b', AcceptsAs p' (c.take n) spare' b') ↔ headerSize c + declaredFDL c + 2 ≤ n ∨
      n = headerSize c + declaredFDL c + 1 ∧ byteAt c (headerSize c + declaredFDL c + 1) = 0 := by
  have hl : (c.take n).length = n := by simp; omega
  by_cases hshort : n ≤ headerSize c + declaredFDL c
  · constructor
    · rintro ⟨b', q', hq, -⟩
      obtain ⟨q, h, -⟩ := h
      obtain ⟨code, e, q'', h', hne⟩ := truncated_rejected_partial p p' q c spare spare' n hr.1 hr.2 h hshort
      rw [hq] at h'
      cases h'
      exact absurd rfl hne
    · rintro (h | ⟨h, -⟩) <;> omega
  · have ht : (c.take n).take (headerSize c + declaredFDL c) = c.take (headerSize c + declaredFDL c) := by
      rw [List.take_take, Nat.min_eq_left (by omega)]
    have key := fun b' (hb' : AcceptsAs p c spare b') => accepts_same_frame c (c.take n) spare spare' p p' b' hr hb' ht (by omega)
    have hcs := headerSize_cases c
    have hs := headerSize_take c n (by omega)
    have hd := fdl_take c n (by omega)
    have hx : (∃ b', AcceptsAs p' (c.take n) spare' b') ↔ sentChecksum (c.take n) = sentChecksum c := by
      constructor
      · rintro ⟨b', h'⟩
        have hr' : RightLengths (c.take n) := by
          unfold RightLengths declaredHL
          rw [hs, hd, byteAt_take _ _ _ (by omega)]
          exact hr
        obtain ⟨-, -, -, a4⟩ := (accepts_right _ _ _ _ hr').mp h'
        obtain ⟨-, -, -, b4⟩ := (accepts_right _ _ _ _ hr).mp h
        rw [a4, b4, hs, hd, mid_take, mid_take, ht]
      · intro h'
        exact ⟨body, (key body h).mpr h'⟩
    rw [hx, sentChecksum_bytes c (by omega), sentChecksum_bytes (c.take n) (by rw [hs, hd]; omega), hs, hd,
      byteAt_take _ _ _ (show headerSize c + declaredFDL c < n by omega)]
    by_cases hfull : headerSize c + declaredFDL c + 2 ≤ n
    · rw [byteAt_take _ _ _ (by omega)]
      simp [hfull]
    · have hn' : n = headerSize c + declaredFDL c + 1 := by omega
      have hz : byteAt (c.take n) (headerSize c + declaredFDL c + 1) = 0 := by
        unfold byteAt
        rw [List.getD_eq_getElem?_getD, List.getElem?_eq_none (by omega)]
        rfl
      rw [hz]
      constructor
      · intro h'
        right
        refine ⟨hn', ?_⟩
        apply UInt8.toNat_inj.mp
        simp only [UInt8.toNat_zero] at h' ⊢
        omega
      · rintro (h' | ⟨-, h'⟩)
        · omega
        · rw [h']

/-- **C09, exactly.** Bytes appended to an accepted packet of right lengths leave it accepted, with the same contents, exactly if
its frame was complete, or nothing is appended, or the first byte appended is zero (it completes the checksum). -/
theorem trailing_iff (c spare spare' x : Bytes) (p p' : Package) (body : Body) (hr : RightLengths c)
    (h : AcceptsAs p c spare body) :
    AcceptsAs p' (c ++ x) spare' body ↔ headerSize c + declaredFDL c + 2 ≤ c.length ∨ x = [] ∨ ∃ t, x = 0 :: t := by
  have hlt := ((accepts_right _ _ _ _ hr).mp h).1
  have ht : (c ++ x).take (headerSize c + declaredFDL c) = c.take (headerSize c + declaredFDL c) :=
    List.take_append_of_le_length (by omega)
  have hcs := headerSize_cases c
  have hb : ∀ i < 11, byteAt (c ++ x) i = byteAt c i := fun i hi => byteAt_append _ _ _ (by omega)
  have hs : headerSize (c ++ x) = headerSize c := by unfold headerSize routed; rw [hb 2 (by omega)]
  have hd : declaredFDL (c ++ x) = declaredFDL c := by unfold declaredFDL word16At; rw [hb 5 (by omega), hb 6 (by omega)]
  rw [accepts_same_frame c (c ++ x) spare spare' p p' body hr h ht (by simp; omega),
    sentChecksum_bytes c hlt, sentChecksum_bytes (c ++ x) (by rw [hs, hd]; simp; omega), hs, hd, byteAt_append _ _ _ hlt]
  by_cases hfull : headerSize c + declaredFDL c + 2 ≤ c.length
  · rw [byteAt_append _ _ _ (by omega)]
    simp [hfull]
  · have hn' : c.length = headerSize c + declaredFDL c + 1 := by omega
    have hz : byteAt c (headerSize c + declaredFDL c + 1) = 0 := by
      unfold byteAt
      rw [List.getD_eq_getElem?_getD, List.getElem?_eq_none (by omega)]
      rfl
    have hx : byteAt (c ++ x) (headerSize c + declaredFDL c + 1) = byteAt x 0 := by
      unfold byteAt
      rw [List.getD_eq_getElem?_getD, List.getElem?_append_right (by omega), hn', Nat.sub_self, ← List.getD_eq_getElem?_getD]
    rw [hz, hx]
    cases x with
    | nil => simp [byteAt]
    | cons y t =>
      have e : byteAt (y :: t) 0 = y := rfl
      rw [e]
      constructor
      · intro h'
        right; right
        refine ⟨t, ?_⟩
        congr 1
        apply UInt8.toNat_inj.mp
        simp only [UInt8.toNat_zero] at h' ⊢
        omega
      · rintro (h' | h' | ⟨t', h'⟩)
        · omega
        · cases h'
        · cases h'; rfl

/-! ### C07 -/

/-- C07 for a packet without routing fields that is given to Decode alone: whichever byte of it is changed, other than the header
length, it is not accepted. Missing: the header length (`hl_change_iff`), and packets with routing fields (`rte_cleared_accepted`). -/
theorem single_byte_alone_partial (p p' : Package) (c spare spare' : Bytes) (body : Body) (i : Nat) (v : UInt8)
    (hr : RightLengths c) (h : AcceptsAs p c spare body) (hroute : routed c = false)
    (halone : c.length ≤ headerSize c + declaredFDL c + 2) (hi : i < c.length) (hv : v ≠ byteAt c i) (h3 : i ≠ 3) :
    ¬ ∃ b', AcceptsAs p' (c.set i v) spare' b' := by
  rintro ⟨b', q', hq', hb'⟩
  by_cases h2 : i = 2 → v.toNat.testBit 5 = (byteAt c 2).toNat.testBit 5
  · obtain ⟨q, hq, -⟩ := h
    exact single_byte_detected_partial p p' q c spare spare' i v hr.1 hr.2 hq (by omega) hi hv h3 h2 _ _ _ hq' rfl
  · simp only [Classical.not_imp] at h2
    obtain ⟨rfl, h2⟩ := h2
    have hroute' : routed (c.set 2 v) = true := by
      unfold routed at hroute ⊢
      rw [byteAt_set_self _ _ _ hi]
      rw [hroute] at h2
      simpa using h2
    have hs : headerSize c = 11 := by simp [headerSize, hroute]
    have hs' : headerSize (c.set 2 v) = 16 := by simp [headerSize, hroute']
    have hd : declaredFDL (c.set 2 v) = declaredFDL c := by
      unfold declaredFDL word16At
      rw [byteAt_set_ne _ _ _ _ (by omega), byteAt_set_ne _ _ _ _ (by omega)]
    have := ((decode_accept_iff p' _ spare' b').mp ⟨q', hq', hb'⟩).2.1
    rw [hs', hd, List.length_set] at this
    omega

/-- C07 is false of the code for the flag byte of packets with routing fields: here clearing RTE turns an accepted packet into
another accepted packet. -/
theorem rte_cleared_accepted :
    let c : Bytes := [1, 0, 32, 16, 0, 7, 0, 0, 0, 1, 93, 0, 0, 0, 5, 40, 0, 0, 15, 52, 0, 2, 2, 15, 52]
    RightLengths c ∧ c.length = headerSize c + declaredFDL c + 2 ∧
    (∃ q, Package.decode {} c [] = .ret 0 none q) ∧ (∃ q, Package.decode {} (c.set 2 0) [] = .ret 0 none q) := by
  intro c
  exact ⟨⟨by decide, by decide⟩, by decide, (accepts_iff _).mp (by kernel_rfl), (accepts_iff _).mp (by kernel_rfl)⟩

/-- C07, exactly, for the header length: an accepted packet whose header length field is changed to `v` is accepted exactly if the
same checksum bytes are right over the bytes that the wrong field selects. -/
theorem hl_change_iff (p p' : Package) (c spare spare' : Bytes) (body : Body) (v : UInt8)
    (hr : RightLengths c) (h : AcceptsAs p c spare body) :
    AcceptsAs p' (c.set 3 v) spare' body ↔
      (v.toNat + 255) % 256 ≤ (c ++ spare').length ∧
      byteAt c (headerSize c - 1) = crc8 ((c.set 3 v ++ spare').take ((v.toNat + 255) % 256)) ∧
      v.toNat ≤ (v.toNat + declaredFDL c) % 65536 ∧ (v.toNat + declaredFDL c) % 65536 ≤ (c ++ spare').length ∧
      sentChecksum c = (crc16 (((c.set 3 v ++ spare').drop v.toNat).take ((v.toNat + declaredFDL c) % 65536 - v.toNat))).toNat := by
  obtain ⟨a1, a2, a3, a4⟩ := (accepts_right _ _ _ _ hr).mp h
  have hcs := headerSize_cases c
  have hs : headerSize (c.set 3 v) = headerSize c := by unfold headerSize routed; rw [byteAt_set_ne _ _ _ _ (by omega)]
  have hd : declaredFDL (c.set 3 v) = declaredFDL c := by
    unfold declaredFDL word16At
    rw [byteAt_set_ne _ _ _ _ (by omega), byteAt_set_ne _ _ _ _ (by omega)]
  have hh : declaredHL (c.set 3 v) = v.toNat := by unfold declaredHL; rw [byteAt_set_self _ _ _ (by omega)]
  have e1 : decodedBody (c.set 3 v) = (c.drop (headerSize c)).take (declaredFDL c) := by
    unfold decodedBody
    rw [hs, hd, List.length_set, show declaredFDL c - (c.length - headerSize c) = 0 by omega, List.drop_set_of_lt (by omega)]
    simp
  have e2 : sentChecksum (c.set 3 v) = sentChecksum c := by
    unfold sentChecksum
    rw [hs, hd, List.drop_set_of_lt (by omega)]
  unfold AcceptsAs
  rw [decode_accept_iff, e1, e2]
  unfold HeaderOk checkedHeader checkedEnd
  rw [hs, hd, hh, byteAt_set_ne _ _ _ _ (by omega), byteAt_set_ne _ _ _ _ (by omega)]
  simp only [List.length_append, List.length_set]
  constructor
  · rintro ⟨⟨-, h2, h3⟩, -, -, h5, h6, h7⟩
    exact ⟨h2, h3, h5, h6, h7⟩
  · rintro ⟨h2, h3, h5, h6, h7⟩
    exact ⟨⟨by omega, h2, h3⟩, a1, a3, h5, h6, h7⟩

end Egts
