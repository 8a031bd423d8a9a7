import Verif.Lemmas.Total
import Verif.Spec.Frame
/- What the header part of Package.Decode computes. -/
set_option autoImplicit false
namespace Egts
open Frame
variable [P : Platform]

/-- the receiver after the header was read -/
def hdrPkg (p : Package) (c : Bytes) : Package := { p with
  ProtocolVersion := byteAt c 0
  SecurityKeyID := byteAt c 1
  Prefix := bitText (byteAt c 2) 7 ++ bitText (byteAt c 2) 6
  Route := bitText (byteAt c 2) 5
  EncryptionAlg := bitText (byteAt c 2) 4 ++ bitText (byteAt c 2) 3
  Compression := bitText (byteAt c 2) 2
  Priority := bitText (byteAt c 2) 1 ++ bitText (byteAt c 2) 0
  HeaderLength := byteAt c 3
  HeaderEncoding := byteAt c 4
  FrameDataLength := u16 [byteAt c 5, byteAt c 6]
  PacketIdentifier := u16 [byteAt c 7, byteAt c 8]
  PacketType := byteAt c 9
  PeerAddress := if routed c then u16 [byteAt c 10, byteAt c 11] else p.PeerAddress
  RecipientAddress := if routed c then u16 [byteAt c 12, byteAt c 13] else p.RecipientAddress
  TimeToLive := if routed c then byteAt c 14 else p.TimeToLive
  HeaderCheckSum := byteAt c (headerSize c - 1) }

omit P in
theorem dig_testBit (b : UInt8) (i : Nat) : [dig (bit8 b i)] = bitText b i := by
  unfold bit8 bitText dig
  have : (b.toNat / 2 ^ i % 2 == 1) = b.toNat.testBit i := by
    rw [Nat.testBit_eq_decide_div_mod_eq]; rfl
  rw [this]
  split <;> rfl

omit P in
theorem read2 {σ : Type} (p : Bytes) (s : σ) (a b : UInt8) (r : Bytes) (h : p.length = 2) :
    Dec.read p s (a :: b :: r) = .ok [a, b] s r :=
  Dec.read_append p [a, b] r s (by simp [h]) (by simp)

omit P in
theorem fmt_text (b : UInt8) : sl (fmtBin 8 b.toNat) 0 2 = bitText b 7 ++ bitText b 6 ∧
    sl (fmtBin 8 b.toNat) 2 3 = bitText b 5 ∧ sl (fmtBin 8 b.toNat) 3 5 = bitText b 4 ++ bitText b 3 ∧
    sl (fmtBin 8 b.toNat) 5 6 = bitText b 2 ∧ sl (fmtBin 8 b.toNat) 6 8 = bitText b 1 ++ bitText b 0 := by
  rw [fmt_byte]
  simp only [← dig_testBit]
  simp [sl]

omit P in
theorem route_eq (b : UInt8) : (bitText b 5 == [49]) = b.toNat.testBit 5 := by
  unfold bitText; cases b.toNat.testBit 5 <;> rfl

theorem header_ok (p : Package) (c : Bytes) (h : headerSize c ≤ c.length) :
    Package.decodeHeaderM p c = .ok () (hdrPkg p c) (c.drop (headerSize c)) := by
  match c with
  | [] | [_] | [_, _] | [_, _, _] | [_, _, _, _] | [_, _, _, _, _] | [_, _, _, _, _, _] | [_, _, _, _, _, _, _]
  | [_, _, _, _, _, _, _, _] | [_, _, _, _, _, _, _, _, _] | [_, _, _, _, _, _, _, _, _, _] =>
    exfalso; unfold headerSize at h; revert h; split <;> simp
  | b0 :: b1 :: b2 :: b3 :: b4 :: b5 :: b6 :: b7 :: b8 :: b9 :: b10 :: r =>
    obtain ⟨f1, f2, f3, f4, f5⟩ := fmt_text b2
    unfold Package.decodeHeaderM
    refine Dec.step (Dec.readByteTo_cons _ _ _ _) ?_; try dsimp only
    refine Dec.step (Dec.readByteTo_cons _ _ _ _) ?_; try dsimp only
    refine Dec.step (Dec.readByte_cons _ _ _) ?_
    refine Dec.step (Dec.upd_apply _ _ _) ?_; try dsimp only
    refine Dec.step (Dec.readByteTo_cons _ _ _ _) ?_; try dsimp only
    refine Dec.step (Dec.readByteTo_cons _ _ _ _) ?_; try dsimp only
    refine Dec.step (read2 _ _ _ _ _ rfl) ?_; try dsimp only
    refine Dec.step (Dec.upd_apply _ _ _) ?_; try dsimp only
    refine Dec.step (read2 _ _ _ _ _ rfl) ?_; try dsimp only
    refine Dec.step (Dec.upd_apply _ _ _) ?_; try dsimp only
    refine Dec.step (Dec.readByteTo_cons _ _ _ _) ?_; try dsimp only
    refine Dec.step (Dec.get_apply _ _) ?_; try dsimp only
    rw [f1, f2, f3, f4, f5, route_eq]
    cases hr : b2.toNat.testBit 5 with
    | false =>
      refine Dec.step (Dec.when_false_apply _ _ _) ?_
      have hR : routed (b0 :: b1 :: b2 :: b3 :: b4 :: b5 :: b6 :: b7 :: b8 :: b9 :: b10 :: r) = false := hr
      have hS : headerSize (b0 :: b1 :: b2 :: b3 :: b4 :: b5 :: b6 :: b7 :: b8 :: b9 :: b10 :: r) = 11 := by
        unfold headerSize; rw [hR]; rfl
      unfold hdrPkg
      rw [hR, hS]
      rfl
    | true =>
      have hR : routed (b0 :: b1 :: b2 :: b3 :: b4 :: b5 :: b6 :: b7 :: b8 :: b9 :: b10 :: r) = true := hr
      have hS : headerSize (b0 :: b1 :: b2 :: b3 :: b4 :: b5 :: b6 :: b7 :: b8 :: b9 :: b10 :: r) = 16 := by
        unfold headerSize; rw [hR]; rfl
      rw [hS] at h
      match r, h with
      | b11 :: b12 :: b13 :: b14 :: b15 :: r, _ =>
        unfold hdrPkg
        rw [hR, hS, Dec.when_true]
        refine Dec.step (a := ()) (s1 := ?_) (r1 := ?_) ?_ ?_
        rotate_left 2
        · refine Dec.step (read2 _ _ _ _ _ rfl) ?_; try dsimp only
          refine Dec.step (Dec.upd_apply _ _ _) ?_; try dsimp only
          refine Dec.step (read2 _ _ _ _ _ rfl) ?_; try dsimp only
          refine Dec.step (Dec.upd_apply _ _ _) ?_; try dsimp only
          exact Dec.readByteTo_cons _ _ _ _
        · rfl

omit P in
theorem step_ex {σ α β : Type} {m : Dec σ α} {f : α → Dec σ β} {s s1 : σ} {r r1 : Bytes} {a : α}
    (h : m s r = .ok a s1 r1) (k : ∃ q, f a s1 r1 = .err .eof q) : ∃ q, (m >>= f) s r = .err .eof q := by
  rw [Dec.bind_ok h]; exact k

/-- an incomplete header is rejected -/
theorem header_short (p : Package) (c : Bytes) (h : c.length < headerSize c) :
    ∃ q, Package.decodeHeaderM p c = .err .eof q := by
  match c with
  | [] | [_] | [_, _] | [_, _, _] | [_, _, _, _] | [_, _, _, _, _] | [_, _, _, _, _, _] | [_, _, _, _, _, _, _]
  | [_, _, _, _, _, _, _, _] | [_, _, _, _, _, _, _, _, _] => exact ⟨_, rfl⟩
  | b0 :: b1 :: b2 :: b3 :: b4 :: b5 :: b6 :: b7 :: b8 :: b9 :: r =>
    obtain ⟨f1, f2, f3, f4, f5⟩ := fmt_text b2
    unfold Package.decodeHeaderM
    refine step_ex (Dec.readByteTo_cons _ _ _ _) ?_; try dsimp only
    refine step_ex (Dec.readByteTo_cons _ _ _ _) ?_; try dsimp only
    refine step_ex (Dec.readByte_cons _ _ _) ?_
    refine step_ex (Dec.upd_apply _ _ _) ?_; try dsimp only
    refine step_ex (Dec.readByteTo_cons _ _ _ _) ?_; try dsimp only
    refine step_ex (Dec.readByteTo_cons _ _ _ _) ?_; try dsimp only
    refine step_ex (read2 _ _ _ _ _ rfl) ?_; try dsimp only
    refine step_ex (Dec.upd_apply _ _ _) ?_; try dsimp only
    refine step_ex (read2 _ _ _ _ _ rfl) ?_; try dsimp only
    refine step_ex (Dec.upd_apply _ _ _) ?_; try dsimp only
    refine step_ex (Dec.readByteTo_cons _ _ _ _) ?_; try dsimp only
    refine step_ex (Dec.get_apply _ _) ?_; try dsimp only
    rw [f1, f2, f3, f4, f5, route_eq]
    unfold headerSize routed at h
    have e : byteAt (b0 :: b1 :: b2 :: b3 :: b4 :: b5 :: b6 :: b7 :: b8 :: b9 :: r) 2 = b2 := rfl
    rw [e] at h
    revert h
    cases b2.toNat.testBit 5 with
    | false =>
      intro h
      match r with
      | [] => exact ⟨_, rfl⟩
      | _ :: _ => simp at h; omega
    | true =>
      intro h
      match r with
      | [] | [_] | [_, _] | [_, _, _] | [_, _, _, _] | [_, _, _, _, _] => exact ⟨_, rfl⟩
      | _ :: _ :: _ :: _ :: _ :: _ :: _ => simp at h; omega

end Egts
