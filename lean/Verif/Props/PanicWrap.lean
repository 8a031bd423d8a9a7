import Verif.Props.Server2
import Verif.Lemmas.KernelRfl
set_option autoImplicit false
/- C05 and C46: the second way to crash the decoder and with it the server: a frame of 65536 bytes and more. -/
namespace Egts
open Frame
variable [P : Platform]

/-- C05 is false of the code in a second way: a packet whose header and body are flawless, but whose header and body together
have 65536 bytes or more, makes Decode panic (egts_pkg.go:133: the end of the body is computed in 16 bits). -/
theorem decode_panics_wrap (p : Package) (c spare : Bytes) (hl : declaredHL c = headerSize c)
    (hlong : 65536 ≤ headerSize c + declaredFDL c) (hlen : headerSize c + declaredFDL c < c.length)
    (hcrc : byteAt c (headerSize c - 1) = crc8 (c.take (headerSize c - 1))) (ht : byteAt c 9 = 0 ∨ byteAt c 9 = 1)
    (b : Body) (hb : decodeBody (byteAt c 9) ((c.drop (headerSize c)).take (declaredFDL c)) = .ok b) :
    Package.decode p c spare = .panic := by
  have hs := headerSize_cases c
  rw [decode_verdict p c spare (by omega)]
  have hv : verdict c spare = .panic := by
    have e : (byteAt c 3 - 1).toNat = headerSize c - 1 := by
      have : (byteAt c 3).toNat = headerSize c := hl
      rw [UInt8.toNat_sub]
      simp
      omega
    have hg : goSlice (c ++ spare) 0 (byteAt c 3 - 1).toNat = some (c.take (headerSize c - 1)) := by
      unfold goSlice
      rw [e, if_pos (by rw [List.length_append]; omega)]
      simp [List.take_append_of_le_length (show headerSize c - 1 ≤ c.length by omega)]
    have hbb : bodyBytes c = (c.drop (headerSize c)).take (declaredFDL c) := by
      unfold bodyBytes
      rw [show declaredFDL c - (c.length - headerSize c) = 0 by omega]
      simp [zeros]
    have e2 : ((byteAt c 3).toUInt16 + u16 [byteAt c 5, byteAt c 6]).toNat = headerSize c + declaredFDL c - 65536 := by
      have hw := (u16 [byteAt c 5, byteAt c 6]).toNat_lt
      rw [fdl_eq] at hw
      rw [UInt16.toNat_add, fdl_eq, UInt8.toNat_toUInt16, show (byteAt c 3).toNat = headerSize c from hl]
      omega
    have hw := (u16 [byteAt c 5, byteAt c 6]).toNat_lt
    rw [fdl_eq] at hw
    unfold verdict
    simp only [hg, hbb, hb]
    rw [if_neg (by rw [hcrc]; simp), if_neg (by omega), if_neg (by rcases ht with h | h <;> rw [h] <;> simp)]
    unfold tailVerdict
    rw [if_neg (by unfold tailBytes; simp; omega)]
    unfold goSlice
    rw [e2, if_neg (by rw [show (byteAt c 3).toNat = headerSize c from hl]; omega)]
  rw [hv]; rfl

/-- an empty record: seven zero bytes -/
def zeroRecord : ServiceDataRecord := {
  SourceServiceOnDevice := [48]
  RecipientServiceOnDevice := [48]
  Group := [48]
  RecordProcessingPriority := [48, 48]
  TimeFieldExists := [48]
  EventIDFieldExists := [48]
  ObjectIDFieldExists := [48] }

omit P in
theorem zeros_append (m n : Nat) : zeros m ++ zeros n = zeros (m + n) := by simp [zeros]

/-- any number of empty records is a valid body -/
theorem decode_empty_records (n : Nat) : ∃ l, ServiceDataSet.decode [] (zeros (7 * n)) = .ok l := by
  have he : ∀ n, ServiceDataSet.encode (List.replicate n zeroRecord) = .ok (zeros (7 * n)) := by
    intro n
    induction n with
    | zero => rfl
    | succ n ih =>
      have h1 : ServiceDataRecord.encode zeroRecord = .ok (zeros 7) := by kernel_rfl
      have h2 : ServiceDataSet.encode (List.replicate (n + 1) zeroRecord) =
          (do let b ← ServiceDataRecord.encode zeroRecord
              let bs ← ServiceDataSet.encode (List.replicate n zeroRecord)
              pure (b ++ bs)) := rfl
      rw [h2, h1, ih]
      show Go.ok (zeros 7 ++ zeros (7 * n)) = _
      rw [zeros_append]
      congr 2
      omega
  obtain ⟨b, hb, hd⟩ := sds_composes (List.replicate n zeroRecord) (List.replicate n (zeroRecord.received 0 []))
    (by
      intro e h
      obtain rfl := (List.mem_replicate.mp h).2
      exact ⟨⟨.inl rfl, .inl rfl, .inl rfl, ⟨[48], [48], .inl rfl, .inl rfl, rfl⟩, .inl rfl, .inl rfl, .inl rfl⟩, [], rfl, by simp, .inl rfl⟩)
    (by
      induction n with
      | zero => exact .nil
      | succ n ih => exact .cons ⟨[], [], rfl, rfl, rfl⟩ ih)
  rw [he n] at hb
  obtain rfl := Go.ok.inj hb
  exact ⟨_, hd⟩

/-- a flawless header announcing 65527 bytes of records, followed by `z` -/
def longWith (z : Bytes) : Bytes := [1, 0, 0, 11, 0, 247, 255, 5, 0, 1, 48] ++ z

omit P in
theorem longWith_fields (z : Bytes) : byteAt (longWith z) 0 = 1 ∧ headerSize (longWith z) = 11 ∧ declaredHL (longWith z) = 11 ∧
    declaredFDL (longWith z) = 65527 ∧ byteAt (longWith z) 9 = 1 ∧ byteAt (longWith z) 10 = 48 ∧
    (longWith z).take 10 = [1, 0, 0, 11, 0, 247, 255, 5, 0, 1] ∧ (longWith z).drop 11 = z ∧ (longWith z).length = 11 + z.length :=
  ⟨rfl, by unfold headerSize routed; rw [show byteAt (longWith z) 2 = 0 from rfl]; decide, rfl, by unfold declaredFDL word16At; rw [show byteAt (longWith z) 5 = 247 from rfl, show byteAt (longWith z) (5 + 1) = 255 from rfl]; decide, rfl, rfl, rfl, rfl, by simp only [longWith, List.length_append]; rfl⟩

/-- what follows the header: 9361 empty records, two checksum bytes -/
def longTail : Bytes := zeros (7 * 9361) ++ [0, 0]

/-- a frame of 65540 bytes: a flawless header, 9361 empty records, two checksum bytes -/
def longFrame : Bytes := longWith longTail

omit P in
theorem longTail_length : longTail.length = 65529 := by
  unfold longTail
  rw [List.length_append, length_zeros]
  rfl

omit P in
theorem longTail_take : longTail.take 65527 = zeros (7 * 9361) := by
  unfold longTail
  rw [List.take_left' (by rw [length_zeros])]

omit P in
theorem longFrame_length : longFrame.length = 65540 := by
  unfold longFrame
  rw [(longWith_fields longTail).2.2.2.2.2.2.2.2, longTail_length]

theorem longFrame_panics (p : Package) (spare : Bytes) : Package.decode p longFrame spare = .panic := by
  obtain ⟨l, hl⟩ := decode_empty_records 9361
  rw [← longTail_take] at hl
  have hlen := longTail_length
  unfold longFrame
  generalize longTail = z at hl hlen
  obtain ⟨-, h1, h3, h2, h9, h10, ht, hd, hn⟩ := longWith_fields z
  refine decode_panics_wrap p (longWith z) spare (by rw [h1, h3]) (by omega) (by omega) ?_ (.inr h9) (.appdata l) ?_
  · rw [h1]
    show byteAt (longWith z) 10 = crc8 ((longWith z).take 10)
    rw [h10, ht]
    decide +kernel
  · rw [h1, h2, hd, h9]
    unfold decodeBody
    rw [if_pos rfl, hl]
    rfl

omit P in
theorem longFrame_version : byteAt longFrame 0 = 1 := (longWith_fields longTail).1

omit P in
theorem longFrame_frameLen : frameLen longFrame = 65540 := by
  obtain ⟨-, h1, h3, h2, -⟩ := longWith_fields longTail
  unfold frameLen longFrame
  rw [h3, h2, if_neg (by omega)]

omit P in
/-- what the server reads as one packet when a stream begins with `c` -/
theorem streamRecv_exact (tail : Tail) (c s : Bytes) (hv : byteAt c 0 = 1)
    (hl : c.length = 10 + (frameLen c + 65526) % 65536) : streamRecv tail (c ++ s) = .inr (c, s) := by
  have h10 : 10 ≤ c.length := by omega
  have hb : ∀ i, i < 10 → byteAt (c ++ s) i = byteAt c i := by
    intro i hi
    simp [byteAt, List.getElem?_append_left (show i < c.length by omega)]
  have hfl : frameLen (c ++ s) = frameLen c := by
    unfold frameLen declaredHL declaredFDL word16At
    rw [hb 3 (by omega), hb 5 (by omega), hb (5 + 1) (by omega)]
  unfold streamRecv
  rw [if_neg (by rw [List.length_append]; omega), if_neg (by rw [hb 0 (by omega), hv]; simp),
    restLen_eq _ (by rw [List.length_append]; omega), hfl, ← hl, if_neg (by rw [List.length_append]; omega),
    List.take_left' rfl, List.drop_left' rfl]

/-- a packet that makes Decode panic and is read as one packet crashes the process -/
theorem crash_of_panic (env : Env) (tail : Tail) (c s : Bytes) (hv : byteAt c 0 = 1)
    (hl : c.length = 10 + (frameLen c + 65526) % 65536) (hp : ∀ p spare, Package.decode p c spare = .panic) :
    handleConn env true tail [c ++ s] = ([], .crashed) := by
  have hr : streamRecv tail (c ++ s) = .inr (c, s) := streamRecv_exact tail c s hv hl
  have h2 := (handle_panic_iff (env.now 0) (env.spare 0) c).mpr (hp _ _)
  rw [handleConn_serve]
  have : [c ++ s].flatten = c ++ s := by simp
  rw [this, serve_unfold, hr]
  simp only
  cases h : handlePacket (env.now 0) (env.spare 0) ({} : LoopVars).reset c with
  | panic => rfl
  | diverge => rw [h] at h2; cases h2
  | done l v => rw [h] at h2; cases h2

omit P in
theorem long_sum (m n : Nat) (hm : m = 65540) (hn : n = 65540) : m = 10 + (n + 65526) % 65536 := by
  omega

/-- C46 is false of the code in a second way: these 65540 bytes crash the process, whatever follows and whatever the capacity of
the receive buffer: although the frame length does not fit 16 bits, the number of bytes still to be read after the header does, and the
whole frame reaches Decode. -/
theorem crash_long_frame (env : Env) (tail : Tail) (s : Bytes) :
    handleConn env true tail [longFrame ++ s] = ([], .crashed) :=
  crash_of_panic env tail longFrame s longFrame_version (long_sum _ _ longFrame_length longFrame_frameLen) longFrame_panics

end Egts
