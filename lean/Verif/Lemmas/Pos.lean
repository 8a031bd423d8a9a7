import Verif.Model.SrPosData
import Verif.Lemmas.Bits
import Verif.Lemmas.Header
import Verif.Spec.Pos
set_option autoImplicit false
/- What the position decoder computes, for every byte string. -/
namespace Egts
open Frame

theorem read3 {σ : Type} (p : Bytes) (s : σ) (a b c : UInt8) (r : Bytes) (h : p.length = 3) :
    Dec.read p s (a :: b :: c :: r) = .ok [a, b, c] s r :=
  Dec.read_append p [a, b, c] r s (by simp [h]) (by simp)

theorem read4 {σ : Type} (p : Bytes) (s : σ) (a b c d : UInt8) (r : Bytes) (h : p.length = 4) :
    Dec.read p s (a :: b :: c :: d :: r) = .ok [a, b, c, d] s r :=
  Dec.read_append p [a, b, c, d] r s (by simp [h]) (by simp)

theorem fmt_text1 (b : UInt8) : sl (fmtBin 8 b.toNat) 0 1 = bitText b 7 ∧ sl (fmtBin 8 b.toNat) 1 2 = bitText b 6 ∧
    sl (fmtBin 8 b.toNat) 2 3 = bitText b 5 ∧ sl (fmtBin 8 b.toNat) 3 4 = bitText b 4 ∧
    sl (fmtBin 8 b.toNat) 4 5 = bitText b 3 ∧ sl (fmtBin 8 b.toNat) 5 6 = bitText b 2 ∧
    sl (fmtBin 8 b.toNat) 6 7 = bitText b 1 ∧ sl (fmtBin 8 b.toNat) 7 8 = bitText b 0 := by
  rw [fmt_byte]
  simp only [← dig_testBit]
  simp [sl]

theorem bitText_eq_one (b : UInt8) (i : Nat) : (bitText b i == [49]) = b.toNat.testBit i := by
  unfold bitText; cases b.toNat.testBit i <;> rfl

/-- the position in a byte string of at least 21 bytes (22 if the altitude exists) -/
def posOf (e : SrPosData) (b : Bytes) : SrPosData := { e with
  NavigationTime := navTimeOfRaw (UInt32.ofNat (ntm b))
  Latitude := latOfRaw (UInt32.ofNat (rawLat b))
  Longitude := lonOfRaw (UInt32.ofNat (rawLong b))
  ALTE := bitText (posFlags b) 7
  LOHS := bitText (posFlags b) 6
  LAHS := bitText (posFlags b) 5
  MV := bitText (posFlags b) 4
  BB := bitText (posFlags b) 3
  CS := bitText (posFlags b) 2
  FIX := bitText (posFlags b) 1
  VLD := bitText (posFlags b) 0
  DirectionHighestBit := ((UInt16.ofNat (spdWord b) >>> 15) &&& 1).toUInt8
  AltitudeSign := ((UInt16.ofNat (spdWord b) >>> 14) &&& 1).toUInt8
  Speed := UInt16.ofNat (spdWord b % 16384) / 10
  Direction := dirByte b ||| (((UInt16.ofNat (spdWord b) >>> 15) &&& 1).toUInt8 <<< 7)
  Odometer := UInt32.ofNat (odm b)
  DigitalInputs := byteAt b 19
  Source := byteAt b 20
  Altitude := if hasAlt b then UInt32.ofNat (wireNat b 21 4) else e.Altitude }

theorem u16_word (a b : UInt8) : u16 [a, b] = UInt16.ofNat (leValue [a, b]) := by
  simp [u16, leValue]

theorem u32_word (a b c d : UInt8) : u32 [a, b, c, d] = UInt32.ofNat (leValue [a, b, c, d]) := by
  simp only [u32, leValue]; congr 1; omega

theorem u32_word3 (a b c : UInt8) : u32 [a, b, c, 0] = UInt32.ofNat (leValue [a, b, c]) := by
  simp only [u32, leValue]; congr 1; simp; omega

theorem leValue_append_zero (x : Bytes) : ∀ k, leValue (x ++ List.replicate k 0) = leValue x := by
  induction x with
  | nil => intro k; induction k with
    | zero => rfl
    | succ k ih => rw [List.nil_append] at ih ⊢; rw [List.replicate_succ]; simp only [leValue, ih]; rfl
  | cons a x ih => intro k; simp [leValue, ih]

theorem leValue_pad (x : Bytes) (n : Nat) : leValue (x ++ (zeros n).drop x.length) = leValue x := by
  simp [zeros, leValue_append_zero]

theorem pos_alt_read (e : SrPosData) (x : Bytes) (h : x ≠ []) :
    (Dec.read (zeros 4) : Dec SrPosData Bytes) e x = .ok (x.take 4 ++ (zeros 4).drop x.length) e (x.drop 4) := by
  cases x with
  | nil => exact absurd rfl h
  | cons a x => simp

theorem u32_pad (x : Bytes) : u32 (x.take 4 ++ (zeros 4).drop x.length) = UInt32.ofNat (leValue (x.take 4)) := by
  match x with
  | [] => rfl
  | [a] => simp [zeros, u32, leValue]
  | [a, b] => simp [zeros, u32, leValue]
  | [a, b, c] => exact u32_word3 a b c
  | a :: b :: c :: d :: r => 
    simp only [zeros, List.take, List.length_cons]
    have : List.drop (r.length + 1 + 1 + 1 + 1) (List.replicate 4 (0 : UInt8)) = [] :=
      List.drop_eq_nil_of_le (by simp)
    rw [this]; exact u32_word a b c d

theorem ex_cons {n : Nat} {b : Bytes} (h : n + 1 ≤ b.length) : ∃ a r, b = a :: r ∧ n ≤ r.length := by
  cases b with
  | nil => simp at h
  | cons a r => exact ⟨a, r, rfl, by simpa using h⟩

theorem pos_decode_ok (e : SrPosData) (b : Bytes) (h : 21 ≤ b.length) (ha : hasAlt b = true → 22 ≤ b.length) :
    SrPosData.decode e b = .ok (posOf e b) := by
  obtain ⟨b0, r, rfl, k1⟩ := ex_cons h
  obtain ⟨b1, r, rfl, k2⟩ := ex_cons k1
  obtain ⟨b2, r, rfl, k3⟩ := ex_cons k2
  obtain ⟨b3, r, rfl, k4⟩ := ex_cons k3
  obtain ⟨b4, r, rfl, k5⟩ := ex_cons k4
  obtain ⟨b5, r, rfl, k6⟩ := ex_cons k5
  obtain ⟨b6, r, rfl, k7⟩ := ex_cons k6
  obtain ⟨b7, r, rfl, k8⟩ := ex_cons k7
  obtain ⟨b8, r, rfl, k9⟩ := ex_cons k8
  obtain ⟨b9, r, rfl, k10⟩ := ex_cons k9
  obtain ⟨b10, r, rfl, k11⟩ := ex_cons k10
  obtain ⟨b11, r, rfl, k12⟩ := ex_cons k11
  obtain ⟨b12, r, rfl, k13⟩ := ex_cons k12
  obtain ⟨b13, r, rfl, k14⟩ := ex_cons k13
  obtain ⟨b14, r, rfl, k15⟩ := ex_cons k14
  obtain ⟨b15, r, rfl, k16⟩ := ex_cons k15
  obtain ⟨b16, r, rfl, k17⟩ := ex_cons k16
  obtain ⟨b17, r, rfl, k18⟩ := ex_cons k17
  obtain ⟨b18, r, rfl, k19⟩ := ex_cons k18
  obtain ⟨b19, r, rfl, k20⟩ := ex_cons k19
  obtain ⟨b20, r, rfl, k21⟩ := ex_cons k20
  · obtain ⟨f0, f1, f2, f3, f4, f5, f6, f7⟩ := fmt_text1 b12
    have hs : (u16 [b13, b14]).toNat < 65536 := (u16 [b13, b14]).toNat_lt
    have hsp : (u16 [b13, b14]).toNat = leValue [b13, b14] := by rw [u16_toNat]; simp [leValue]
    refine Dec.run_of_ok (u := ()) (r := if b12.toNat.testBit 7 then r.drop 4 else r) ?_
    unfold SrPosData.decodeM
    refine Dec.step (read4 _ _ _ _ _ _ _ rfl) ?_; try dsimp only
    refine Dec.step (Dec.upd_apply _ _ _) ?_; try dsimp only
    refine Dec.step (read4 _ _ _ _ _ _ _ rfl) ?_; try dsimp only
    refine Dec.step (Dec.upd_apply _ _ _) ?_; try dsimp only
    refine Dec.step (read4 _ _ _ _ _ _ _ rfl) ?_; try dsimp only
    refine Dec.step (Dec.upd_apply _ _ _) ?_; try dsimp only
    refine Dec.step (Dec.readByte_cons _ _ _) ?_
    refine Dec.step (Dec.upd_apply _ _ _) ?_; try dsimp only
    refine Dec.step (read2 _ _ _ _ _ rfl) ?_; try dsimp only
    refine Dec.step (Dec.upd_apply _ _ _) ?_; try dsimp only
    rw [parse_low14 _ hs]
    refine Dec.step (Dec.pure_apply _ _ _) ?_; try dsimp only
    refine Dec.step (Dec.upd_apply _ _ _) ?_; try dsimp only
    refine Dec.step (Dec.readByteTo_cons _ _ _ _) ?_; try dsimp only
    refine Dec.step (Dec.upd_apply _ _ _) ?_; try dsimp only
    refine Dec.step (read3 _ _ _ _ _ _ rfl) ?_; try dsimp only
    refine Dec.step (Dec.upd_apply _ _ _) ?_; try dsimp only
    refine Dec.step (Dec.readByteTo_cons _ _ _ _) ?_; try dsimp only
    refine Dec.step (Dec.readByteTo_cons _ _ _ _) ?_; try dsimp only
    refine Dec.step (Dec.get_apply _ _) ?_; try dsimp only
    rw [f0, f1, f2, f3, f4, f5, f6, f7, bitText_eq_one, hsp, u16_word, u32_word, u32_word, u32_word]
    have h3 : u32 ([b16, b17, b18] ++ [0]) = UInt32.ofNat (leValue [b16, b17, b18]) := u32_word3 _ _ _
    rw [h3]
    cases hr : b12.toNat.testBit 7 with
    | false =>
      have hA : hasAlt (b0 :: b1 :: b2 :: b3 :: b4 :: b5 :: b6 :: b7 :: b8 :: b9 :: b10 :: b11 :: b12 :: b13 :: b14 ::
        b15 :: b16 :: b17 :: b18 :: b19 :: b20 :: r) = false := hr
      unfold posOf
      rw [hA]
      rfl
    | true =>
      have hA : hasAlt (b0 :: b1 :: b2 :: b3 :: b4 :: b5 :: b6 :: b7 :: b8 :: b9 :: b10 :: b11 :: b12 :: b13 :: b14 ::
        b15 :: b16 :: b17 :: b18 :: b19 :: b20 :: r) = true := hr
      have hr0 : r ≠ [] := by
        intro hc; subst hc; have := ha hA; simp at this
      rw [Dec.when_true]
      refine Dec.step (pos_alt_read _ r hr0) ?_; try dsimp only
      rw [u32_pad]
      unfold posOf
      rw [hA]
      rfl

theorem pos_decode_short (e : SrPosData) (b : Bytes) (h : b.length < 21) :
    ∃ q, SrPosData.decode e b = .err .eof q := by
  suffices ∃ q, SrPosData.decodeM e b = .err .eof q by
    obtain ⟨q, hq⟩ := this
    exact ⟨q, by simp [SrPosData.decode, Dec.run, hq]⟩
  by_cases h' : 15 ≤ b.length
  · obtain ⟨b0, r, rfl, k1⟩ := ex_cons h'
    obtain ⟨b1, r, rfl, k2⟩ := ex_cons k1
    obtain ⟨b2, r, rfl, k3⟩ := ex_cons k2
    obtain ⟨b3, r, rfl, k4⟩ := ex_cons k3
    obtain ⟨b4, r, rfl, k5⟩ := ex_cons k4
    obtain ⟨b5, r, rfl, k6⟩ := ex_cons k5
    obtain ⟨b6, r, rfl, k7⟩ := ex_cons k6
    obtain ⟨b7, r, rfl, k8⟩ := ex_cons k7
    obtain ⟨b8, r, rfl, k9⟩ := ex_cons k8
    obtain ⟨b9, r, rfl, k10⟩ := ex_cons k9
    obtain ⟨b10, r, rfl, k11⟩ := ex_cons k10
    obtain ⟨b11, r, rfl, k12⟩ := ex_cons k11
    obtain ⟨b12, r, rfl, k13⟩ := ex_cons k12
    obtain ⟨b13, r, rfl, k14⟩ := ex_cons k13
    obtain ⟨b14, r, rfl, k15⟩ := ex_cons k14
    have hs : (u16 [b13, b14]).toNat < 65536 := (u16 [b13, b14]).toNat_lt
    unfold SrPosData.decodeM
    refine step_ex (read4 _ _ _ _ _ _ _ rfl) ?_; try dsimp only
    refine step_ex (Dec.upd_apply _ _ _) ?_; try dsimp only
    refine step_ex (read4 _ _ _ _ _ _ _ rfl) ?_; try dsimp only
    refine step_ex (Dec.upd_apply _ _ _) ?_; try dsimp only
    refine step_ex (read4 _ _ _ _ _ _ _ rfl) ?_; try dsimp only
    refine step_ex (Dec.upd_apply _ _ _) ?_; try dsimp only
    refine step_ex (Dec.readByte_cons _ _ _) ?_
    refine step_ex (Dec.upd_apply _ _ _) ?_; try dsimp only
    refine step_ex (read2 _ _ _ _ _ rfl) ?_; try dsimp only
    refine step_ex (Dec.upd_apply _ _ _) ?_; try dsimp only
    rw [parse_low14 _ hs]
    match r, h with
    | [], _ | [_], _ | [_, _], _ | [_, _, _], _ | [_, _, _, _], _ | [_, _, _, _, _], _ => exact ⟨_, rfl⟩
    | _ :: _ :: _ :: _ :: _ :: _ :: _, h => simp at h; omega
  · match b, h' with
    | [], _ | [_], _ | [_, _], _ | [_, _, _], _ | [_, _, _, _], _ | [_, _, _, _, _], _ | [_, _, _, _, _, _], _ | [_, _, _, _, _, _, _], _ | [_, _, _, _, _, _, _, _], _ | [_, _, _, _, _, _, _, _, _], _ | [_, _, _, _, _, _, _, _, _, _], _ | [_, _, _, _, _, _, _, _, _, _, _], _ | [_, _, _, _, _, _, _, _, _, _, _, _], _ | [_, _, _, _, _, _, _, _, _, _, _, _, _], _ => exact ⟨_, rfl⟩
    | [b0, b1, b2, b3, b4, b5, b6, b7, b8, b9, b10, b11, b12, b13], _ =>
      unfold SrPosData.decodeM
      refine step_ex (read4 _ _ _ _ _ _ _ rfl) ?_; try dsimp only
      refine step_ex (Dec.upd_apply _ _ _) ?_; try dsimp only
      refine step_ex (read4 _ _ _ _ _ _ _ rfl) ?_; try dsimp only
      refine step_ex (Dec.upd_apply _ _ _) ?_; try dsimp only
      refine step_ex (read4 _ _ _ _ _ _ _ rfl) ?_; try dsimp only
      refine step_ex (Dec.upd_apply _ _ _) ?_; try dsimp only
      refine step_ex (Dec.readByte_cons _ _ _) ?_
      refine step_ex (Dec.upd_apply _ _ _) ?_; try dsimp only
      refine step_ex (Dec.read_cons _ _ _ _) ?_; try dsimp only
      refine step_ex (Dec.upd_apply _ _ _) ?_; try dsimp only
      rw [parse_low14 _ (UInt16.toNat_lt _)]
      exact ⟨_, rfl⟩
    | _ :: _ :: _ :: _ :: _ :: _ :: _ :: _ :: _ :: _ :: _ :: _ :: _ :: _ :: _ :: _, h => simp at h

/-- an existing altitude of which no byte is there -/
theorem pos_decode_noalt (e : SrPosData) (b : Bytes) (h : b.length = 21) (ha : hasAlt b = true) :
    ∃ q, SrPosData.decode e b = .err .eof q := by
  suffices ∃ q, SrPosData.decodeM e b = .err .eof q by
    obtain ⟨q, hq⟩ := this
    exact ⟨q, by simp [SrPosData.decode, Dec.run, hq]⟩
  have h' : 21 ≤ b.length := Nat.le_of_eq h.symm
  obtain ⟨b0, r, rfl, k1⟩ := ex_cons h'
  obtain ⟨b1, r, rfl, k2⟩ := ex_cons k1
  obtain ⟨b2, r, rfl, k3⟩ := ex_cons k2
  obtain ⟨b3, r, rfl, k4⟩ := ex_cons k3
  obtain ⟨b4, r, rfl, k5⟩ := ex_cons k4
  obtain ⟨b5, r, rfl, k6⟩ := ex_cons k5
  obtain ⟨b6, r, rfl, k7⟩ := ex_cons k6
  obtain ⟨b7, r, rfl, k8⟩ := ex_cons k7
  obtain ⟨b8, r, rfl, k9⟩ := ex_cons k8
  obtain ⟨b9, r, rfl, k10⟩ := ex_cons k9
  obtain ⟨b10, r, rfl, k11⟩ := ex_cons k10
  obtain ⟨b11, r, rfl, k12⟩ := ex_cons k11
  obtain ⟨b12, r, rfl, k13⟩ := ex_cons k12
  obtain ⟨b13, r, rfl, k14⟩ := ex_cons k13
  obtain ⟨b14, r, rfl, k15⟩ := ex_cons k14
  obtain ⟨b15, r, rfl, k16⟩ := ex_cons k15
  obtain ⟨b16, r, rfl, k17⟩ := ex_cons k16
  obtain ⟨b17, r, rfl, k18⟩ := ex_cons k17
  obtain ⟨b18, r, rfl, k19⟩ := ex_cons k18
  obtain ⟨b19, r, rfl, k20⟩ := ex_cons k19
  obtain ⟨b20, r, rfl, k21⟩ := ex_cons k20
  have hr0 : r = [] := by simpa using h
  subst hr0
  have hs : (u16 [b13, b14]).toNat < 65536 := (u16 [b13, b14]).toNat_lt
  obtain ⟨f0, f1, f2, f3, f4, f5, f6, f7⟩ := fmt_text1 b12
  unfold SrPosData.decodeM
  refine step_ex (read4 _ _ _ _ _ _ _ rfl) ?_; try dsimp only
  refine step_ex (Dec.upd_apply _ _ _) ?_; try dsimp only
  refine step_ex (read4 _ _ _ _ _ _ _ rfl) ?_; try dsimp only
  refine step_ex (Dec.upd_apply _ _ _) ?_; try dsimp only
  refine step_ex (read4 _ _ _ _ _ _ _ rfl) ?_; try dsimp only
  refine step_ex (Dec.upd_apply _ _ _) ?_; try dsimp only
  refine step_ex (Dec.readByte_cons _ _ _) ?_
  refine step_ex (Dec.upd_apply _ _ _) ?_; try dsimp only
  refine step_ex (read2 _ _ _ _ _ rfl) ?_; try dsimp only
  refine step_ex (Dec.upd_apply _ _ _) ?_; try dsimp only
  rw [parse_low14 _ hs, f0]
  refine step_ex (Dec.pure_apply _ _ _) ?_; try dsimp only
  refine step_ex (Dec.upd_apply _ _ _) ?_; try dsimp only
  refine step_ex (Dec.readByteTo_cons _ _ _ _) ?_; try dsimp only
  refine step_ex (Dec.upd_apply _ _ _) ?_; try dsimp only
  refine step_ex (read3 _ _ _ _ _ _ rfl) ?_; try dsimp only
  refine step_ex (Dec.upd_apply _ _ _) ?_; try dsimp only
  refine step_ex (Dec.readByteTo_cons _ _ _ _) ?_; try dsimp only
  refine step_ex (Dec.readByteTo_cons _ _ _ _) ?_; try dsimp only
  refine step_ex (Dec.get_apply _ _) ?_; try dsimp only
  have hA : b12.toNat.testBit 7 = true := ha
  rw [bitText_eq_one, hA, Dec.when_true]
  exact ⟨_, rfl⟩

end Egts
