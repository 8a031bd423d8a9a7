import Verif.Props.Conform
import Verif.Props.Resend
import Verif.Props.OneBad
import Verif.Lemmas.KernelRfl
set_option autoImplicit false
/- C141: neighbouring bytes in the wrong order. -/
namespace Egts
open Frame

/-- two neighbouring bytes exchanged: the strings differ only inside these 16 bits -/
theorem crc16_swap (x y : Bytes) {u v : UInt8} (h : u ≠ v) : crc16 (x ++ u :: v :: y) ≠ crc16 (x ++ v :: u :: y) :=
  crc16_detects_burst _ _ (by simp) (by simp [h]) (8 * x.length) fun i hi => by
    by_contra hc
    apply hi
    unfold msgBit
    rw [List.getD_eq_getElem?_getD, List.getD_eq_getElem?_getD]
    by_cases h1 : i / 8 < x.length
    · rw [List.getElem?_append_left h1, List.getElem?_append_left h1]
    · rw [List.getElem?_append_right (by omega), List.getElem?_append_right (by omega)]
      have h2 : i / 8 - x.length = (i / 8 - x.length - 2) + 1 + 1 := by omega
      rw [h2, List.getElem?_cons_succ, List.getElem?_cons_succ, List.getElem?_cons_succ, List.getElem?_cons_succ]

variable [P : Platform]

/-- a packet with another body of the same length, but the checksum of the first, is refused if the checksum is not that of the other -/
theorem other_body_refused {hdr b b' : Bytes} {t : UInt8} {pid : Nat} (hh : RightHeader hdr t pid b.length) (hl : b'.length = b.length)
    (hlen : (packet hdr b).length < 65536) (hne : crc16 b' ≠ crc16 b) (p q : Package) (spare : Bytes) :
    Package.decode p (hdr ++ [crc8 hdr] ++ b' ++ leBytes 2 (crc16 b).toNat) spare ≠ .ret 0 none q := by
  intro h
  have h10 := right_header_len hh
  have hplen : (packet hdr b).length = hdr.length + 1 + b.length + 2 := by simp [packet, leBytes_len]; omega
  have hs : hdr ++ [crc8 hdr] ++ b' ++ leBytes 2 (crc16 b).toNat = hdr ++ ([crc8 hdr] ++ b' ++ leBytes 2 (crc16 b).toNat) := by simp
  have e1 : headerSize (hdr ++ [crc8 hdr] ++ b' ++ leBytes 2 (crc16 b).toNat) = hdr.length + 1 := by rw [hs, headerSize_append _ _ (by omega), hh.size]
  have e2 : declaredFDL (hdr ++ [crc8 hdr] ++ b' ++ leBytes 2 (crc16 b).toNat) = b.length := by
    rw [hs]; unfold declaredFDL; rw [word16_append _ _ _ (by omega)]; exact hh.fdl
  have e3 : declaredHL (hdr ++ [crc8 hdr] ++ b' ++ leBytes 2 (crc16 b).toNat) = hdr.length + 1 := by
    rw [hs]; unfold declaredHL; rw [byteAt_append _ _ _ (by omega), hh.size]; exact hh.hl
  obtain ⟨header, hcs, body, tail, g1, g2, g3, -, -, g4⟩ := decode_verifies_crc_partial p q _ spare (by rw [e1, e3]) (by omega) h
  rw [e1] at g2
  rw [e2] at g3
  rw [hs] at g1
  simp only [List.append_assoc] at g1
  have g5 := (List.append_inj g1 (by omega)).2
  have g6 := (List.append_inj (s₁ := [crc8 hdr]) (s₂ := [hcs]) g5 rfl).2
  obtain ⟨rfl, rfl⟩ := List.append_inj g6 (by omega)
  apply hne
  rcases g4 with ⟨x, y, r, h1, h2⟩ | ⟨x, h1, -⟩
  · have hr : r = [] := by
      have := congrArg List.length h1
      rw [leBytes_len] at this
      exact List.length_eq_zero_iff.mp (by simpa using this)
    subst hr
    rw [← h1, leValue_leBytes, Nat.mod_eq_of_lt (by have := (crc16 b).toNat_lt; omega)] at h2
    exact (UInt16.toNat_inj.mp h2).symm
  · have := congrArg List.length h1
    rw [leBytes_len] at this
    simp at this

/-- C141 (partial): a packet of which two neighbouring, different bytes of the body have been exchanged is refused. Missing: bytes of the
header (`swap_unnoticed`). -/
theorem swap_refused_partial {hdr x y : Bytes} {u v : UInt8} {t : UInt8} {pid : Nat} (hh : RightHeader hdr t pid (x ++ u :: v :: y).length)
    (hlen : (packet hdr (x ++ u :: v :: y)).length < 65536) (huv : u ≠ v) (p q : Package) (spare : Bytes) :
    Package.decode p (hdr ++ [crc8 hdr] ++ (x ++ v :: u :: y) ++ leBytes 2 (crc16 (x ++ u :: v :: y)).toNat) spare ≠ .ret 0 none q :=
  other_body_refused hh (by simp) hlen (fun h => crc16_swap x y huv h.symm) p q spare

/-- C141 is false of the code for the header: the bytes of the packet identifier 239 exchanged give the identifier 61184 with the same header checksum,
so the packet is accepted as another one -/
theorem swap_unnoticed (p : Package) (spare : Bytes) : ∃ q q' l,
    Package.decode p (([1, 0, 0, 11, 0, 31, 0] ++ [239, 0] ++ [1]) ++ (fixPacket 239 1).drop 10) spare = .ret 0 none q ∧
    Package.decode p (([1, 0, 0, 11, 0, 31, 0] ++ [0, 239] ++ [1]) ++ (fixPacket 239 1).drop 10) spare = .ret 0 none q' ∧
    q.PacketIdentifier = 239 ∧ q'.PacketIdentifier = 61184 ∧ q.ServicesFrameData = some (.appdata l) ∧ q'.ServicesFrameData = some (.appdata l) := by
  have h1 : DataPacket (fixPacket 239 1) 239 [exFixRecord 49] := fixPacket_data 239 1 49 (.inr ⟨rfl, rfl⟩)
  have e1 : ([1, 0, 0, 11, 0, 31, 0] ++ [239, 0] ++ [1]) ++ (fixPacket 239 1).drop 10 = fixPacket 239 1 := by kernel_rfl
  have h2 : DataPacket (([1, 0, 0, 11, 0, 31, 0] ++ [0, 239] ++ [1]) ++ (fixPacket 239 1).drop 10) 61184 [exFixRecord 49] := by
    refine ⟨[1, 0, 0, 11, 0, 31, 0, 0, 239, 1],
      [24, 0, 1, 0, 0, 2, 2, 16, 21, 0, 1, 0, 0, 0, 0, 0, 0, 128, 0, 0, 0, 128, 1, 0, 0, 0, 1, 0, 0, 0, 0], ?_, by simp [fixPacket, packet, leBytes_len], by simp, ?_, ?_⟩
    · kernel_rfl
    · constructor
      all_goals simp [declaredHL, declaredFDL, headerSize, routed, word16At, byteAt, leValue]
    refine CompleteRecords.cons (hdr := [24, 0, 1, 0, 0, 2, 2]) (data := [16, 21, 0, 1, 0, 0, 0, 0, 0, 0, 128, 0, 0, 0, 128, 1, 0, 0, 0, 1, 0, 0, 0, 0])
      (rest := []) (cut_header 24 _) rfl ?_ .nil
    refine .cons (rest := []) ⟨[1, 0, 0, 0, 0, 0, 0, 128, 0, 0, 0, 128, 1, 0, 0, 0, 1, 0, 0, 0, 0], .pos (exFix 49), by simp [leBytes], rfl, rfl, rfl, ?_⟩ .nil
    kernel_rfl
  obtain ⟨q, a1, a2, a3, -⟩ := data_packet_accepted _ _ _ h1 p spare
  obtain ⟨q', b1, b2, b3, -⟩ := data_packet_accepted _ _ _ h2 p spare
  refine ⟨q, q', _, by rw [e1]; exact a1, b1, UInt16.toNat_inj.mp a3, UInt16.toNat_inj.mp b3, a2, b2⟩

end Egts
