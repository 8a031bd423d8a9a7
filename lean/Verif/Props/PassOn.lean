import Verif.Spec.PassOn
import Verif.Props.SubWire
import Verif.Props.Body
import Verif.Props.Conform
import Verif.Props.Package
import Verif.Props.Accept
set_option autoImplicit false
/- C87: Decode followed by Encode gives the bytes back. -/
namespace Egts
open Frame

/-! ### pieces -/

/-- the eight bits of a byte as text are parsed back -/
theorem parse_text (fl : UInt8) : parseFlags (bitText fl 7 ++ bitText fl 6 ++ bitText fl 5 ++ bitText fl 4 ++ bitText fl 3 ++
    bitText fl 2 ++ bitText fl 1 ++ bitText fl 0) = .ok fl := by
  have : ∀ n : Fin 256, parseFlags (bitText (UInt8.ofNat n.val) 7 ++ bitText (UInt8.ofNat n.val) 6 ++ bitText (UInt8.ofNat n.val) 5 ++
    bitText (UInt8.ofNat n.val) 4 ++ bitText (UInt8.ofNat n.val) 3 ++ bitText (UInt8.ofNat n.val) 2 ++ bitText (UInt8.ofNat n.val) 1 ++
    bitText (UInt8.ofNat n.val) 0) = .ok (UInt8.ofNat n.val) := by decide +kernel
  simpa using this ⟨fl.toNat, fl.toNat_lt⟩

theorem leBytes_leValue (a : Bytes) : leBytes a.length (leValue a) = a := by
  induction a with
  | nil => rfl
  | cons x a ih =>
    have hx := x.toNat_lt
    simp only [List.length_cons, leBytes, leValue]
    have h1 : (x.toNat + 256 * leValue a) % 256 = x.toNat := by omega
    have h2 : (x.toNat + 256 * leValue a) / 256 = leValue a := by omega
    rw [h1, h2, ih]
    simp

theorem leBytes_wire (b : Bytes) (o n : Nat) (h : o + n ≤ b.length) : leBytes n (wireNat b o n) = (b.drop o).take n := by
  have := leBytes_leValue ((b.drop o).take n)
  rw [len_take h] at this
  exact this

theorem le16_at {v : UInt16} {b : Bytes} {o : Nat} (hv : v.toNat = wireNat b o 2) (h : o + 2 ≤ b.length) : le16 v = (b.drop o).take 2 := by
  rw [le16_eq, hv, leBytes_wire b o 2 h]

theorem le32_at {v : UInt32} {b : Bytes} {o : Nat} (hv : v.toNat = wireNat b o 4) (h : o + 4 ≤ b.length) : le32 v = (b.drop o).take 4 := by
  rw [le32_eq, hv, leBytes_wire b o 4 h]

theorem le24_eq (v : UInt32) : (le32 v).take 3 = leBytes 3 v.toNat := by
  rw [le32_eq]; rfl

theorem le24_at {v : UInt32} {b : Bytes} {o : Nat} (hv : v.toNat = wireNat b o 3) (h : o + 3 ≤ b.length) :
    (le32 v).take 3 = (b.drop o).take 3 := by
  rw [le24_eq, hv, leBytes_wire b o 3 h]

theorem byte_at' {v : UInt8} {b : Bytes} {o : Nat} (hv : v.toNat = wireNat b o 1) (h : o + 1 ≤ b.length) : [v] = (b.drop o).take 1 := by
  rw [← leBytes_wire b o 1 h, ← hv]
  simp [leBytes]

/-- an optional field on the wire, followed by the rest -/
theorem opt_drop (b : Bytes) (c : Bool) (o n : Nat) (x : Bytes) (hx : c = true → x = (b.drop o).take n) :
    (if c then x else []) ++ b.drop (o + if c then n else 0) = b.drop o := by
  cases c with
  | true => simp only [if_true]; rw [hx rfl, ← List.drop_drop, List.take_append_drop]
  | false => simp


theorem optNat_true {b : Bytes} {fl : UInt8} {i o n : Nat} (hb : fl.toNat.testBit i = true) : optNat b fl i o n = wireNat b o n := by
  unfold optNat; rw [if_pos hb]

theorem opt16_enc {v : UInt16} {b : Bytes} {fl : UInt8} {i o : Nat} {t : Bytes} (ht : t = bitText fl i) (hv : v.toNat = optNat b fl i o 2)
    (h : o + (if fl.toNat.testBit i then 2 else 0) ≤ b.length) :
    (if t == [49] then le16 v else []) ++ b.drop (o + if fl.toNat.testBit i then 2 else 0) = b.drop o := by
  rw [ht, bitText_eq_one]
  refine opt_drop b _ o 2 _ fun hb => ?_
  rw [hb] at h
  exact le16_at (hv.trans (optNat_true hb)) h

theorem opt24_enc {v : UInt32} {b : Bytes} {fl : UInt8} {i o : Nat} {t : Bytes} (ht : t = bitText fl i) (hv : v.toNat = optNat b fl i o 3)
    (h : o + (if fl.toNat.testBit i then 3 else 0) ≤ b.length) :
    encOpt24 t v ++ b.drop (o + if fl.toNat.testBit i then 3 else 0) = b.drop o := by
  unfold encOpt24
  rw [ht, bitText_eq_one]
  refine opt_drop b _ o 3 _ fun hb => ?_
  rw [hb] at h
  exact le24_at (hv.trans (optNat_true hb)) h

theorem opt8_enc {v : UInt8} {b : Bytes} {fl : UInt8} {i o : Nat} {t : Bytes} (ht : t = bitText fl i) (hv : v.toNat = optNat b fl i o 1)
    (h : o + (if fl.toNat.testBit i then 1 else 0) ≤ b.length) :
    (if t == [49] then [v] else []) ++ b.drop (o + if fl.toNat.testBit i then 1 else 0) = b.drop o := by
  rw [ht, bitText_eq_one]
  refine opt_drop b _ o 1 _ fun hb => ?_
  rw [hb] at h
  exact byte_at' (hv.trans (optNat_true hb)) h

theorem optBytes_enc {v b : Bytes} {fl : UInt8} {i o n : Nat} {t : Bytes} (ht : t = bitText fl i) (hv : v = optBytes b fl i o n) :
    (if t == [49] then v else []) ++ b.drop (o + if fl.toNat.testBit i then n else 0) = b.drop o := by
  rw [ht, bitText_eq_one]
  refine opt_drop b _ o n _ fun hb => ?_
  rw [hv]
  unfold optBytes
  rw [if_pos hb]

theorem optPad_enc {v b : Bytes} {fl : UInt8} {i o n : Nat} {t : Bytes} (ht : t = bitText fl i) (hv : v = optBytes b fl i o n)
    (h : o + (if fl.toNat.testBit i then n else 0) ≤ b.length) :
    (if t == [49] then padTo n v else []) ++ b.drop (o + if fl.toNat.testBit i then n else 0) = b.drop o := by
  rw [ht, bitText_eq_one]
  refine opt_drop b _ o n _ fun hb => ?_
  rw [hb] at h
  rw [hv]
  unfold optBytes padTo
  rw [if_pos hb, len_take (show o + n ≤ b.length from h)]
  simp [zeros]

theorem byte_drop {b : Bytes} {o : Nat} (h : o < b.length) : byteAt b o :: b.drop (o + 1) = b.drop o := by
  obtain ⟨a, r, h1, h2, h3⟩ := drop_cons_of_lt h
  rw [h1, h2, h3]

theorem drop_end {b : Bytes} {o : Nat} (h : b.length = o) : b.drop o = [] := List.drop_eq_nil_of_le (by omega)

/-! ### kind by kind -/

theorem state_back (b : Bytes) (h : b.length = 5) (hz : byteAt b 4 < 8) : ∃ e, SrStateData.decode {} b = .ok e ∧ e.encode = .ok b := by
  refine ⟨_, state_wire b (by omega), ?_⟩
  have hp : parseFlags ([48, 48, 48, 48, 48] ++ bitText (byteAt b 4) 2 ++ bitText (byteAt b 4) 1 ++ bitText (byteAt b 4) 0) = .ok (byteAt b 4) := by
    have : ∀ n : Fin 8, parseFlags ([48, 48, 48, 48, 48] ++ bitText (UInt8.ofNat n.val) 2 ++ bitText (UInt8.ofNat n.val) 1 ++
      bitText (UInt8.ofNat n.val) 0) = .ok (UInt8.ofNat n.val) := by decide +kernel
    have h8 : (byteAt b 4).toNat < 8 := hz
    simpa using this ⟨(byteAt b 4).toNat, h8⟩
  unfold SrStateData.encode
  simp only [hp, Go.ok_bind, Go.pure_def]
  match b, h with
  | [b0, b1, b2, b3, b4], _ => rfl

theorem liquid_back (b : Bytes) (h : b.length = 7) (hz : byteAt b 0 < 128) :
    ∃ e, SrLiquidLevelSensor.decode {} b = .ok e ∧ e.encode = .ok b := by
  obtain ⟨e, he, h1, h2, h3, h4, h5, h6⟩ := liquid_wire b (by omega)
  refine ⟨e, he, ?_⟩
  have hp : parseFlags ([48] ++ bitText (byteAt b 0) 6 ++ (bitText (byteAt b 0) 5 ++ bitText (byteAt b 0) 4) ++ bitText (byteAt b 0) 3 ++
      fmtBin 3 (bitsNat (byteAt b 0) 0 3)) = .ok (byteAt b 0) := by
    have : ∀ n : Fin 128, parseFlags ([48] ++ bitText (UInt8.ofNat n.val) 6 ++ (bitText (UInt8.ofNat n.val) 5 ++ bitText (UInt8.ofNat n.val) 4) ++
      bitText (UInt8.ofNat n.val) 3 ++ fmtBin 3 (bitsNat (UInt8.ofNat n.val) 0 3)) = .ok (UInt8.ofNat n.val) := by decide +kernel
    have h8 : (byteAt b 0).toNat < 128 := hz
    simpa using this ⟨(byteAt b 0).toNat, h8⟩
  unfold SrLiquidLevelSensor.encode
  rw [h1, h2, h3, h4, hp, le16_at h5 (by omega), le32_at h6 (by omega)]
  match b, h with
  | [b0, b1, b2, b3, b4, b5, b6], _ => rfl

theorem abscntr_back (b : Bytes) (h : b.length = 4) : ∃ e, SrAbsCntrData.decode {} b = .ok e ∧ e.encode = .ok b := by
  obtain ⟨e, he, h1, h2⟩ := abscntr_wire b (by omega)
  refine ⟨e, he, ?_⟩
  unfold SrAbsCntrData.encode
  rw [h1, le24_at h2 (by omega)]
  match b, h with
  | [b0, b1, b2, b3], _ => rfl

theorem absan_back (b : Bytes) (h : b.length = 4) : ∃ e, SrAbsAnSensData.decode {} b = .ok e ∧ e.encode = .ok b := by
  obtain ⟨e, he, h1, h2⟩ := (absan_wire b).1 (by omega)
  refine ⟨e, he, ?_⟩
  have h3 := le24_at h2 (by omega)
  unfold SrAbsAnSensData.encode
  have h4 : [e.Value.toUInt8, (e.Value >>> 8).toUInt8, (e.Value >>> 16).toUInt8] = (le32 e.Value).take 3 := by
    simp only [le32, List.take_succ_cons, List.take_zero]
    congr
    all_goals
      apply UInt8.toNat_inj.mp
      simp
      omega
  show Go.ok (e.SensorNumber :: [e.Value.toUInt8, (e.Value >>> 8).toUInt8, (e.Value >>> 16).toUInt8]) = _
  rw [h4, h3, h1]
  match b, h with
  | [b0, b1, b2, b3], _ => rfl

theorem result_back (b : Bytes) (h : b.length = 1) : ∃ e, SrResultCode.decode {} b = .ok e ∧ e.encode = .ok b := by
  refine ⟨_, resultcode_wire b (by omega), ?_⟩
  match b, h with
  | [b0], _ => rfl

theorem dispatcher_back (b : Bytes) (h : 5 ≤ b.length) : ∃ e, SrDispatcherIdentity.decode {} b = .ok e ∧ e.encode = .ok b := by
  obtain ⟨e, he, h1, h2, h3⟩ := dispatcher_wire b h
  refine ⟨e, he, ?_⟩
  unfold SrDispatcherIdentity.encode
  rw [h1, le32_at h2 (by omega), h3]
  match b, h with
  | b0 :: b1 :: b2 :: b3 :: b4 :: r, _ => rfl

theorem response_back [Platform] (b : Bytes) (h : b.length = 3) : ∃ e, SrResponse.decode {} b = .ok e ∧ e.encode = .ok b := by
  obtain ⟨e, he, h1, h2⟩ := response_wire b h
  refine ⟨e, he, ?_⟩
  unfold SrResponse.encode
  rw [le16_at h1 (by omega), h2]
  match b, h with
  | [b0, b1, b2], _ => rfl

theorem auth_back (u p : Bytes) (hu : (0 : UInt8) ∉ u) (hp : (0 : UInt8) ∉ p) (b : Bytes) (hb : b = u ++ [0] ++ p ++ [0] ∨
    ∃ s : Bytes, (0 : UInt8) ∉ s ∧ s ≠ [] ∧ b = u ++ [0] ++ p ++ [0] ++ s ++ [0]) : ∃ e, SrAuthInfo.decode {} b = .ok e ∧ e.encode = .ok b := by
  rcases hb with rfl | ⟨s, hs, hne, rfl⟩
  · refine ⟨⟨u, p, []⟩, (auth_wire _ _).2 ⟨hu, hp, .inl ⟨by simp, rfl⟩⟩, ?_⟩
    simp [SrAuthInfo.encode]
  · refine ⟨⟨u, p, s⟩, (auth_wire _ _).2 ⟨hu, hp, .inr ⟨hs, [], by simp⟩⟩, ?_⟩
    simp [SrAuthInfo.encode, hne]

theorem ext_back (b : Bytes) (h1 : 1 ≤ b.length) (hz : byteAt b 0 < 32)
    (h : b.length = optOff (byteAt b 0) 1 [(0, 2), (1, 2), (2, 2), (3, 1), (4, 2)]) :
    ∃ e, SrExtPosData.decode {} b = .ok e ∧ e.encode = .ok b := by
  obtain ⟨e, he, f0, f1, f2, f3, f4, g0, g1, g2, g3, g4⟩ := extpos_wire b h1 _ rfl (by omega)
  refine ⟨e, he, ?_⟩
  generalize hfl : byteAt b 0 = fl at *
  have hp : parseFlags ([48, 48, 48] ++ bitText fl 4 ++ bitText fl 3 ++ bitText fl 2 ++ bitText fl 1 ++ bitText fl 0) = .ok fl := by
    have : ∀ n : Fin 32, parseFlags ([48, 48, 48] ++ bitText (UInt8.ofNat n.val) 4 ++ bitText (UInt8.ofNat n.val) 3 ++
      bitText (UInt8.ofNat n.val) 2 ++ bitText (UInt8.ofNat n.val) 1 ++ bitText (UInt8.ofNat n.val) 0) = .ok (UInt8.ofNat n.val) := by decide +kernel
    have h8 : fl.toNat < 32 := hz
    simpa using this ⟨fl.toNat, h8⟩
  simp only [optOff, List.foldl_cons, List.foldl_nil] at h g0 g1 g2 g3 g4
  unfold SrExtPosData.encode
  rw [f4, f3, f2, f1, f0, hp]
  simp only [Go.ok_bind, Go.pure_def]
  refine congrArg Go.ok ?_
  have e0 := opt16_enc rfl g0 (by omega)
  have e1 := opt16_enc rfl g1 (by omega)
  have e2 := opt16_enc rfl g2 (by omega)
  have e3 := opt8_enc rfl g3 (by omega)
  have e4 := opt16_enc rfl g4 (by omega)
  rw [drop_end h, List.append_nil] at e4
  rw [← e4] at e3
  rw [← e3] at e2
  rw [← e2] at e1
  rw [← e1] at e0
  have e := byte_drop (b := b) (o := 0) (by omega)
  rw [hfl, ← e0] at e
  simpa using e

theorem wireNat_zero {b : Bytes} {o n : Nat} (h : ∀ i, o ≤ i → i < o + n → byteAt b i = 0) : wireNat b o n = 0 := by
  unfold wireNat
  induction n generalizing o with
  | zero => rfl
  | succ n ih =>
    by_cases hl : o < b.length
    · obtain ⟨a, r, h1, h2, h3⟩ := drop_cons_of_lt hl
      have := ih (o := o + 1) (fun i h4 h5 => h i (by omega) (by omega))
      rw [h2] at this
      have ha : a = 0 := h3.symm.trans (h o (Nat.le_refl _) (by omega))
      rw [h1, List.take_succ_cons, leValue, this, ha]
      rfl
    · rw [List.drop_eq_nil_of_le (by omega)]; rfl

theorem counters_back (b : Bytes) (h1 : 1 ≤ b.length)
    (hz : (byteAt b 0).toNat.testBit 1 = true → ∀ i, 1 ≤ i → i < optOff (byteAt b 0) 1 [(0, 3), (1, 3)] → byteAt b i = 0)
    (h : b.length = optOff (byteAt b 0) 1 [(0, 3), (1, 3), (2, 3), (3, 3), (4, 3), (5, 3), (6, 3), (7, 3)]) :
    ∃ e, SrCountersData.decode {} b = .ok e ∧ e.encode = .ok b := by
  obtain ⟨e, he, f1, f2, f3, f4, f5, f6, f7, f8, g1, g2, g3, g4, g5, g6, g7, g8⟩ := counters_wire_partial b h1 _ rfl (by omega)
  refine ⟨e, he, ?_⟩
  generalize hfl : byteAt b 0 = fl at *
  replace g1 : e.CN1.toNat = optNat b fl 0 1 3 := by
    by_cases hb : fl.toNat.testBit 1 = true
    · rw [if_pos hb, wireNat_zero fun i h2 h3 => hz hb i (by simp only [optOff, List.foldl_cons, List.foldl_nil] at h2; omega)
        (by simp only [optOff, List.foldl_cons, List.foldl_nil, hb, if_true] at h3 ⊢; omega)] at g1
      rw [g1]
      unfold optNat
      by_cases h0 : fl.toNat.testBit 0 = true
      · rw [if_pos h0, wireNat_zero fun i h2 h3 => hz hb i h2 (by simp only [optOff, List.foldl_cons, List.foldl_nil, h0, if_true]; omega)]
      · rw [if_neg h0]
    · rw [if_neg hb] at g1; exact g1
  have g2' : e.CN2.toNat = optNat b fl 1 (optOff fl 1 [(0, 3)]) 3 := by
    rw [g2]; unfold optNat
    by_cases hb : fl.toNat.testBit 1 = true
    · rw [if_pos hb, wireNat_zero fun i h2 h3 => hz hb i (by simp only [optOff, List.foldl_cons, List.foldl_nil] at h2; omega)
        (by simp only [optOff, List.foldl_cons, List.foldl_nil, hb, if_true] at h3 ⊢; omega)]
      rfl
    · rw [if_neg hb]; rfl
  simp only [optOff, List.foldl_cons, List.foldl_nil] at h g1 g2' g3 g4 g5 g6 g7 g8
  unfold SrCountersData.encode
  rw [f8, f7, f6, f5, f4, f3, f2, f1, parse_text fl]
  simp only [Go.ok_bind, Go.pure_def]
  refine congrArg Go.ok ?_
  have e1 := opt24_enc rfl g1 (by omega)
  have e2 := opt24_enc rfl g2' (by omega)
  have e3 := opt24_enc rfl g3 (by omega)
  have e4 := opt24_enc rfl g4 (by omega)
  have e5 := opt24_enc rfl g5 (by omega)
  have e6 := opt24_enc rfl g6 (by omega)
  have e7 := opt24_enc rfl g7 (by omega)
  have e8 := opt24_enc rfl g8 (by omega)
  rw [drop_end h, List.append_nil] at e8
  rw [← e8] at e7
  rw [← e7] at e6
  rw [← e6] at e5
  rw [← e5] at e4
  rw [← e4] at e3
  rw [← e3] at e2
  rw [← e2] at e1
  have k := byte_drop (b := b) (o := 0) (by omega)
  rw [hfl, ← e1] at k
  simpa using k

/-- the bits of a symmetric flag byte, in the opposite order -/
theorem parse_sym (fl : UInt8) (h : ∀ i, i < 8 → fl.toNat.testBit i = fl.toNat.testBit (7 - i)) :
    parseFlags (bitText fl 0 ++ bitText fl 1 ++ bitText fl 2 ++ bitText fl 3 ++ bitText fl 4 ++ bitText fl 5 ++ bitText fl 6 ++ bitText fl 7) =
      .ok fl := by
  have hb : ∀ i, i < 8 → bitText fl i = bitText fl (7 - i) := by
    intro i hi
    unfold bitText
    rw [h i hi]
  have e0 : bitText fl 0 = bitText fl 7 := hb 0 (by omega)
  have e1 : bitText fl 1 = bitText fl 6 := hb 1 (by omega)
  have e2 : bitText fl 2 = bitText fl 5 := hb 2 (by omega)
  have e3 : bitText fl 3 = bitText fl 4 := hb 3 (by omega)
  have := parse_text fl
  rw [e0, e1, e2, e3] at this ⊢
  exact this

set_option maxHeartbeats 1000000 in
theorem ad_back (b : Bytes) (h1 : 3 ≤ b.length) (fl fs : UInt8) (hfl : fl = byteAt b 0) (hfs : fs = byteAt b 2)
    (hz : ∀ i, i < 8 → fs.toNat.testBit i = fs.toNat.testBit (7 - i))
    (h : b.length = optOff fs (optOff fl 3 [(0, 1), (1, 1), (2, 1), (3, 1), (4, 1), (5, 1), (6, 1), (7, 1)])
      [(0, 3), (1, 3), (2, 3), (3, 3), (4, 3), (5, 3), (6, 3), (7, 3)]) :
    ∃ e, SrAdSensorsData.decode {} b = .ok e ∧ e.encode = .ok b := by
  obtain ⟨e, he, hd, f1, f2, f3, f4, f5, f6, f7, f8, a1, a2, a3, a4, a5, a6, a7, a8, g1, g2, g3, g4, g5, g6, g7, g8,
    k1, k2, k3, k4, k5, k6, k7, k8⟩ := adsensors_wire b h1 fl fs hfl hfs (Nat.le_of_eq h.symm)
  refine ⟨e, he, ?_⟩
  simp only [optOff, List.foldl_cons, List.foldl_nil] at h g1 g2 g3 g4 g5 g6 g7 g8 k1 k2 k3 k4 k5 k6 k7 k8
  unfold SrAdSensorsData.encode encOptByte
  rw [f8, f7, f6, f5, f4, f3, f2, f1, a8, a7, a6, a5, a4, a3, a2, a1, parse_text fl, parse_sym fs hz]
  simp only [Go.ok_bind, Go.pure_def]
  refine congrArg Go.ok ?_
  have l15 : 3 + (if fl.toNat.testBit 0 then 1 else 0) + (if fl.toNat.testBit 1 then 1 else 0) + (if fl.toNat.testBit 2 then 1 else 0) + (if fl.toNat.testBit 3 then 1 else 0) + (if fl.toNat.testBit 4 then 1 else 0) + (if fl.toNat.testBit 5 then 1 else 0) + (if fl.toNat.testBit 6 then 1 else 0) + (if fl.toNat.testBit 7 then 1 else 0) + (if fs.toNat.testBit 0 then 3 else 0) + (if fs.toNat.testBit 1 then 3 else 0) + (if fs.toNat.testBit 2 then 3 else 0) + (if fs.toNat.testBit 3 then 3 else 0) + (if fs.toNat.testBit 4 then 3 else 0) + (if fs.toNat.testBit 5 then 3 else 0) + (if fs.toNat.testBit 6 then 3 else 0) + (if fs.toNat.testBit 7 then 3 else 0) ≤ b.length := Nat.le_of_eq h.symm
  have l14 : 3 + (if fl.toNat.testBit 0 then 1 else 0) + (if fl.toNat.testBit 1 then 1 else 0) + (if fl.toNat.testBit 2 then 1 else 0) + (if fl.toNat.testBit 3 then 1 else 0) + (if fl.toNat.testBit 4 then 1 else 0) + (if fl.toNat.testBit 5 then 1 else 0) + (if fl.toNat.testBit 6 then 1 else 0) + (if fl.toNat.testBit 7 then 1 else 0) + (if fs.toNat.testBit 0 then 3 else 0) + (if fs.toNat.testBit 1 then 3 else 0) + (if fs.toNat.testBit 2 then 3 else 0) + (if fs.toNat.testBit 3 then 3 else 0) + (if fs.toNat.testBit 4 then 3 else 0) + (if fs.toNat.testBit 5 then 3 else 0) + (if fs.toNat.testBit 6 then 3 else 0) ≤ b.length := Nat.le_trans (Nat.le_add_right _ _) l15
  have l13 : 3 + (if fl.toNat.testBit 0 then 1 else 0) + (if fl.toNat.testBit 1 then 1 else 0) + (if fl.toNat.testBit 2 then 1 else 0) + (if fl.toNat.testBit 3 then 1 else 0) + (if fl.toNat.testBit 4 then 1 else 0) + (if fl.toNat.testBit 5 then 1 else 0) + (if fl.toNat.testBit 6 then 1 else 0) + (if fl.toNat.testBit 7 then 1 else 0) + (if fs.toNat.testBit 0 then 3 else 0) + (if fs.toNat.testBit 1 then 3 else 0) + (if fs.toNat.testBit 2 then 3 else 0) + (if fs.toNat.testBit 3 then 3 else 0) + (if fs.toNat.testBit 4 then 3 else 0) + (if fs.toNat.testBit 5 then 3 else 0) ≤ b.length := Nat.le_trans (Nat.le_add_right _ _) l14
  have l12 : 3 + (if fl.toNat.testBit 0 then 1 else 0) + (if fl.toNat.testBit 1 then 1 else 0) + (if fl.toNat.testBit 2 then 1 else 0) + (if fl.toNat.testBit 3 then 1 else 0) + (if fl.toNat.testBit 4 then 1 else 0) + (if fl.toNat.testBit 5 then 1 else 0) + (if fl.toNat.testBit 6 then 1 else 0) + (if fl.toNat.testBit 7 then 1 else 0) + (if fs.toNat.testBit 0 then 3 else 0) + (if fs.toNat.testBit 1 then 3 else 0) + (if fs.toNat.testBit 2 then 3 else 0) + (if fs.toNat.testBit 3 then 3 else 0) + (if fs.toNat.testBit 4 then 3 else 0) ≤ b.length := Nat.le_trans (Nat.le_add_right _ _) l13
  have l11 : 3 + (if fl.toNat.testBit 0 then 1 else 0) + (if fl.toNat.testBit 1 then 1 else 0) + (if fl.toNat.testBit 2 then 1 else 0) + (if fl.toNat.testBit 3 then 1 else 0) + (if fl.toNat.testBit 4 then 1 else 0) + (if fl.toNat.testBit 5 then 1 else 0) + (if fl.toNat.testBit 6 then 1 else 0) + (if fl.toNat.testBit 7 then 1 else 0) + (if fs.toNat.testBit 0 then 3 else 0) + (if fs.toNat.testBit 1 then 3 else 0) + (if fs.toNat.testBit 2 then 3 else 0) + (if fs.toNat.testBit 3 then 3 else 0) ≤ b.length := Nat.le_trans (Nat.le_add_right _ _) l12
  have l10 : 3 + (if fl.toNat.testBit 0 then 1 else 0) + (if fl.toNat.testBit 1 then 1 else 0) + (if fl.toNat.testBit 2 then 1 else 0) + (if fl.toNat.testBit 3 then 1 else 0) + (if fl.toNat.testBit 4 then 1 else 0) + (if fl.toNat.testBit 5 then 1 else 0) + (if fl.toNat.testBit 6 then 1 else 0) + (if fl.toNat.testBit 7 then 1 else 0) + (if fs.toNat.testBit 0 then 3 else 0) + (if fs.toNat.testBit 1 then 3 else 0) + (if fs.toNat.testBit 2 then 3 else 0) ≤ b.length := Nat.le_trans (Nat.le_add_right _ _) l11
  have l9 : 3 + (if fl.toNat.testBit 0 then 1 else 0) + (if fl.toNat.testBit 1 then 1 else 0) + (if fl.toNat.testBit 2 then 1 else 0) + (if fl.toNat.testBit 3 then 1 else 0) + (if fl.toNat.testBit 4 then 1 else 0) + (if fl.toNat.testBit 5 then 1 else 0) + (if fl.toNat.testBit 6 then 1 else 0) + (if fl.toNat.testBit 7 then 1 else 0) + (if fs.toNat.testBit 0 then 3 else 0) + (if fs.toNat.testBit 1 then 3 else 0) ≤ b.length := Nat.le_trans (Nat.le_add_right _ _) l10
  have l8 : 3 + (if fl.toNat.testBit 0 then 1 else 0) + (if fl.toNat.testBit 1 then 1 else 0) + (if fl.toNat.testBit 2 then 1 else 0) + (if fl.toNat.testBit 3 then 1 else 0) + (if fl.toNat.testBit 4 then 1 else 0) + (if fl.toNat.testBit 5 then 1 else 0) + (if fl.toNat.testBit 6 then 1 else 0) + (if fl.toNat.testBit 7 then 1 else 0) + (if fs.toNat.testBit 0 then 3 else 0) ≤ b.length := Nat.le_trans (Nat.le_add_right _ _) l9
  have l7 : 3 + (if fl.toNat.testBit 0 then 1 else 0) + (if fl.toNat.testBit 1 then 1 else 0) + (if fl.toNat.testBit 2 then 1 else 0) + (if fl.toNat.testBit 3 then 1 else 0) + (if fl.toNat.testBit 4 then 1 else 0) + (if fl.toNat.testBit 5 then 1 else 0) + (if fl.toNat.testBit 6 then 1 else 0) + (if fl.toNat.testBit 7 then 1 else 0) ≤ b.length := Nat.le_trans (Nat.le_add_right _ _) l8
  have l6 : 3 + (if fl.toNat.testBit 0 then 1 else 0) + (if fl.toNat.testBit 1 then 1 else 0) + (if fl.toNat.testBit 2 then 1 else 0) + (if fl.toNat.testBit 3 then 1 else 0) + (if fl.toNat.testBit 4 then 1 else 0) + (if fl.toNat.testBit 5 then 1 else 0) + (if fl.toNat.testBit 6 then 1 else 0) ≤ b.length := Nat.le_trans (Nat.le_add_right _ _) l7
  have l5 : 3 + (if fl.toNat.testBit 0 then 1 else 0) + (if fl.toNat.testBit 1 then 1 else 0) + (if fl.toNat.testBit 2 then 1 else 0) + (if fl.toNat.testBit 3 then 1 else 0) + (if fl.toNat.testBit 4 then 1 else 0) + (if fl.toNat.testBit 5 then 1 else 0) ≤ b.length := Nat.le_trans (Nat.le_add_right _ _) l6
  have l4 : 3 + (if fl.toNat.testBit 0 then 1 else 0) + (if fl.toNat.testBit 1 then 1 else 0) + (if fl.toNat.testBit 2 then 1 else 0) + (if fl.toNat.testBit 3 then 1 else 0) + (if fl.toNat.testBit 4 then 1 else 0) ≤ b.length := Nat.le_trans (Nat.le_add_right _ _) l5
  have l3 : 3 + (if fl.toNat.testBit 0 then 1 else 0) + (if fl.toNat.testBit 1 then 1 else 0) + (if fl.toNat.testBit 2 then 1 else 0) + (if fl.toNat.testBit 3 then 1 else 0) ≤ b.length := Nat.le_trans (Nat.le_add_right _ _) l4
  have l2 : 3 + (if fl.toNat.testBit 0 then 1 else 0) + (if fl.toNat.testBit 1 then 1 else 0) + (if fl.toNat.testBit 2 then 1 else 0) ≤ b.length := Nat.le_trans (Nat.le_add_right _ _) l3
  have l1 : 3 + (if fl.toNat.testBit 0 then 1 else 0) + (if fl.toNat.testBit 1 then 1 else 0) ≤ b.length := Nat.le_trans (Nat.le_add_right _ _) l2
  have l0 : 3 + (if fl.toNat.testBit 0 then 1 else 0) ≤ b.length := Nat.le_trans (Nat.le_add_right _ _) l1
  have e1 := opt8_enc rfl g1 l0
  have e2 := opt8_enc rfl g2 l1
  have e3 := opt8_enc rfl g3 l2
  have e4 := opt8_enc rfl g4 l3
  have e5 := opt8_enc rfl g5 l4
  have e6 := opt8_enc rfl g6 l5
  have e7 := opt8_enc rfl g7 l6
  have e8 := opt8_enc rfl g8 l7
  have m1 := opt24_enc rfl k1 l8
  have m2 := opt24_enc rfl k2 l9
  have m3 := opt24_enc rfl k3 l10
  have m4 := opt24_enc rfl k4 l11
  have m5 := opt24_enc rfl k5 l12
  have m6 := opt24_enc rfl k6 l13
  have m7 := opt24_enc rfl k7 l14
  have m8 := opt24_enc rfl k8 l15
  rw [drop_end h, List.append_nil] at m8
  rw [← m8] at m7
  rw [← m7] at m6
  rw [← m6] at m5
  rw [← m5] at m4
  rw [← m4] at m3
  rw [← m3] at m2
  rw [← m2] at m1
  rw [← m1] at e8
  rw [← e8] at e7
  rw [← e7] at e6
  rw [← e6] at e5
  rw [← e5] at e4
  rw [← e4] at e3
  rw [← e3] at e2
  rw [← e2] at e1
  have q0 := byte_drop (b := b) (o := 0) (by omega)
  have q1 := byte_drop (b := b) (o := 1) (by omega)
  have q2 := byte_drop (b := b) (o := 2) (by omega)
  rw [← hfs, ← e1] at q2
  rw [← q2, ← hd] at q1
  rw [← hfl, ← q1] at q0
  simpa only [List.drop_zero, List.append_assoc, List.cons_append, List.nil_append] using q0

theorem term_back (b : Bytes) (h1 : 5 ≤ b.length)
    (h : b.length = optOff (byteAt b 4) 5 [(0, 2), (1, 15), (2, 16), (3, 3), (5, 3), (6, 2), (7, 15)]) :
    ∃ e, SrTermIdentity.decode {} b = .ok e ∧ e.encode = .ok b := by
  obtain ⟨e, he, ht, f0, f1, f2, f3, f4, f5, f6, f7, g0, g1, g2, g3, g5, g6, g7⟩ := term_wire b h1 _ rfl (by omega)
  refine ⟨e, he, ?_⟩
  generalize hfl : byteAt b 4 = fl at *
  simp only [optOff, List.foldl_cons, List.foldl_nil] at h g0 g1 g2 g3 g5 g6 g7
  have hp : UInt8.ofNat (parseUint2 (bitText fl 7 ++ bitText fl 6 ++ bitText fl 5 ++ bitText fl 4 ++ bitText fl 3 ++ bitText fl 2 ++
      bitText fl 1 ++ bitText fl 0) 8).1 = fl := by
    have h := parse_text fl
    unfold parseFlags at h
    split at h
    · rename_i n hn
      rw [hn]
      exact Go.ok.inj h
    · cases h
  unfold SrTermIdentity.encode
  rw [f7, f6, f5, f4, f3, f2, f1, f0]
  simp only [hp]
  refine congrArg Go.ok ?_
  have e0 := opt16_enc rfl g0 (by omega)
  have e1 := optPad_enc rfl g1 (by omega)
  have e2 := optPad_enc rfl g2 (by omega)
  have e3 := optBytes_enc rfl g3
  have e5 := optBytes_enc rfl g5
  have e6 := opt16_enc rfl g6 (by omega)
  have e7 := optBytes_enc rfl g7
  rw [drop_end h, List.append_nil] at e7
  rw [← e7] at e6
  rw [← e6] at e5
  rw [← e5] at e3
  rw [← e3] at e2
  rw [← e2] at e1
  rw [← e1] at e0
  have q := byte_drop (b := b) (o := 4) (by omega)
  rw [hfl, ← e0] at q
  have r : b.take 4 ++ b.drop 4 = b := List.take_append_drop 4 b
  rw [← q] at r
  rw [le32_at ht (by omega)]
  simpa only [List.drop_zero, List.append_assoc, List.cons_append, List.nil_append] using r

/-! ### positions -/

theorem high_bits (w : UInt16) : ∃ d t : Bool, ((w >>> 15) &&& 1).toUInt8 = d.toUInt8 ∧ ((w >>> 14) &&& 1).toUInt8 = t.toUInt8 ∧
    w.toNat = w.toNat % 16384 + 32768 * d.toNat + 16384 * t.toNat := by
  have hw := w.toNat_lt
  refine ⟨decide (w.toNat / 32768 = 1), decide (w.toNat / 16384 % 2 = 1), ?_, ?_, ?_⟩
  · apply UInt8.toNat_inj.mp
    simp only [UInt16.toNat_toUInt8, UInt16.toNat_and, UInt16.toNat_shiftRight]
    have q' : (15 : UInt16).toNat % 16 = 15 := rfl
    rw [q', Nat.shiftRight_eq_div_pow]
    have : w.toNat / 2 ^ 15 = 0 ∨ w.toNat / 2 ^ 15 = 1 := by omega
    rcases this with h | h
    · rw [h]; have h' : ¬ w.toNat / 32768 = 1 := by omega
      rw [decide_eq_false h']; rfl
    · rw [h]; have h' : w.toNat / 32768 = 1 := by omega
      rw [decide_eq_true h']; rfl
  · apply UInt8.toNat_inj.mp
    simp only [UInt16.toNat_toUInt8, UInt16.toNat_and, UInt16.toNat_shiftRight]
    have q' : (14 : UInt16).toNat % 16 = 14 := rfl
    rw [q', Nat.shiftRight_eq_div_pow]
    have : w.toNat / 2 ^ 14 = 0 ∨ w.toNat / 2 ^ 14 = 1 ∨ w.toNat / 2 ^ 14 = 2 ∨ w.toNat / 2 ^ 14 = 3 := by omega
    have hh : w.toNat / 16384 = w.toNat / 2 ^ 14 := rfl
    rcases this with h | h | h | h <;> rw [hh, h] <;> rfl
  · have h1 : (decide (w.toNat / 32768 = 1)).toNat = w.toNat / 32768 := by
      by_cases h : w.toNat / 32768 = 1
      · rw [decide_eq_true h, h]; rfl
      · rw [decide_eq_false h]
        have : w.toNat / 32768 = 0 := by omega
        rw [this]; rfl
    have h2 : (decide (w.toNat / 16384 % 2 = 1)).toNat = w.toNat / 16384 % 2 := by
      by_cases h : w.toNat / 16384 % 2 = 1
      · rw [decide_eq_true h, h]; rfl
      · rw [decide_eq_false h]
        have : w.toNat / 16384 % 2 = 0 := by omega
        rw [this]; rfl
    rw [h1, h2]; omega

theorem dir_back (d : Bool) (x : UInt8) (h : d = true → x < 128) : (x ||| (d.toUInt8 <<< 7)) &&& ~~~(d.toUInt8 <<< 7) = x := by
  have : ∀ (d : Bool) (n : Fin 256), (d = true → n.val < 128) →
      (UInt8.ofNat n.val ||| (d.toUInt8 <<< 7)) &&& ~~~(d.toUInt8 <<< 7) = UInt8.ofNat n.val := by decide +kernel
  simpa using this d ⟨x.toNat, x.toNat_lt⟩ h

theorem pos_back [Platform] (b : Bytes) (h : PlainPos b) : ∃ e b', SrPosData.decode {} b = .ok e ∧ e.encode = .ok b' ∧
    b'.length = b.length ∧ (∀ i, i < 4 ∨ 12 ≤ i → byteAt b' i = byteAt b i) ∧
    (rawLat b' = rawLat b ∨ rawLat b' + 1 = rawLat b) ∧ (rawLong b' = rawLong b ∨ rawLong b' + 1 = rawLong b) := by
  obtain ⟨hlen, hspd, hdir⟩ := h
  have hl : 21 ≤ b.length := by rw [hlen]; split <;> omega
  have hd : SrPosData.decode {} b = .ok (posOf {} b) := (pos_decode_iff b _).2 ⟨⟨hl, fun ha => by rw [hlen, if_pos ha]; omega⟩, rfl⟩
  have he : (posOf {} b).encode = .ok (b.take 4 ++ le32 (rawOfLat (posOf {} b).Latitude) ++ le32 (rawOfLon (posOf {} b).Longitude) ++ b.drop 12) := by
    have hn : ntm b < 2 ^ 32 := wireNat_lt b 0 4
    have e1 : le32 (rawOfNavTime (posOf {} b).NavigationTime) = b.take 4 := by
      have : rawOfNavTime (posOf {} b).NavigationTime = UInt32.ofNat (ntm b) := by
        show rawOfNavTime (((UInt32.ofNat (ntm b)).toNat : Int) * 1000000000) = _
        rw [u32_ofNat_toNat hn, rawOfNavTime_sec _ hn]
      rw [this]
      exact le32_at (o := 0) (u32_ofNat_toNat hn) (by omega)
    have hw : spdWord b < 65536 := wireNat_lt b 13 2
    have hwn : (UInt16.ofNat (spdWord b)).toNat = spdWord b := by rw [UInt16.toNat_ofNat']; exact Nat.mod_eq_of_lt hw
    obtain ⟨d, t, h1, h2, h3⟩ := high_bits (UInt16.ofNat (spdWord b))
    rw [hwn] at h3
    have e2 : (posOf {} b).speedWord.toNat = spdWord b := by
      unfold SrPosData.speedWord
      have hs : (posOf {} b).Speed.toNat * 10 = spdWord b % 16384 := by
        show (UInt16.ofNat (spdWord b % 16384) / 10).toNat * 10 = _
        rw [UInt16.toNat_div, UInt16.toNat_ofNat', Nat.mod_eq_of_lt (by omega)]
        show spdWord b % 16384 / 10 * 10 = _
        omega
      have hd' : (posOf {} b).DirectionHighestBit = d.toUInt8 := h1
      have ht' : (posOf {} b).AltitudeSign = t.toUInt8 := h2
      rw [hd', ht', speedWord_parts d t _ (by omega), hs]
      omega
    have e3 : (posOf {} b).Direction &&& ~~~((posOf {} b).DirectionHighestBit <<< 7) = byteAt b 15 := by
      show (dirByte b ||| (((UInt16.ofNat (spdWord b) >>> 15) &&& 1).toUInt8 <<< 7)) &&&
        ~~~(((UInt16.ofNat (spdWord b) >>> 15) &&& 1).toUInt8 <<< 7) = _
      rw [h1]
      refine dir_back d _ fun hd => hdir ?_
      rw [hd] at h3
      simp only [Bool.toNat_true] at h3
      omega
    have e4 : (le32 (posOf {} b).Odometer).take 3 = (b.drop 16).take 3 := by
      refine le24_at ?_ (by omega)
      have : odm b < 256 ^ 3 := wireNat_lt b 16 3
      exact u32_ofNat_toNat (by omega)
    have e5 : (if (posOf {} b).ALTE == [49] then (le32 (posOf {} b).Altitude).take 3 else []) = b.drop 21 := by
      have h7 : ((posOf {} b).ALTE == [49]) = hasAlt b := bitText_eq_one (posFlags b) 7
      rw [h7]
      cases ha : hasAlt b with
      | false =>
        rw [ha] at hlen
        rw [drop_end (show b.length = 21 from hlen)]; rfl
      | true =>
        rw [ha] at hlen
        simp only [if_true] at hlen ⊢
        have h4 : wireNat b 21 4 = wireNat b 21 3 := by
          unfold wireNat
          rw [List.take_of_length_le (by simp; omega), List.take_of_length_le (by simp; omega)]
        have h5 : (posOf {} b).Altitude.toNat = wireNat b 21 3 := by
          unfold posOf
          simp only [ha, if_true]
          rw [u32_ofNat_toNat (wireNat_lt b 21 4), h4]
        rw [le24_at h5 (by omega), List.take_of_length_le (by simp; omega)]
    have e6 : parseFlags ((posOf {} b).ALTE ++ (posOf {} b).LOHS ++ (posOf {} b).LAHS ++ (posOf {} b).MV ++ (posOf {} b).BB ++ (posOf {} b).CS ++
        (posOf {} b).FIX ++ (posOf {} b).VLD) = .ok (byteAt b 12) := parse_text (posFlags b)
    unfold SrPosData.encode
    rw [e6]
    simp only [Go.ok_bind, Go.pure_def]
    refine congrArg Go.ok ?_
    rw [e1, e3, e4, e5, le16_at (o := 13) e2 (by omega)]
    have q0 := byte_drop (b := b) (o := 12) (by omega)
    have q1 : (b.drop 13).take 2 ++ b.drop 15 = b.drop 13 := by
      have := List.take_append_drop 2 (b.drop 13)
      rwa [List.drop_drop] at this
    have q2 := byte_drop (b := b) (o := 15) (by omega)
    have q3 : (b.drop 16).take 3 ++ b.drop 19 = b.drop 16 := by
      have := List.take_append_drop 3 (b.drop 16)
      rwa [List.drop_drop] at this
    have q4 := byte_drop (b := b) (o := 19) (by omega)
    have q5 := byte_drop (b := b) (o := 20) (by omega)
    rw [← q5] at q4
    rw [← q4] at q3
    rw [← q3] at q2
    rw [← q2] at q1
    rw [← q1] at q0
    have hin : (posOf {} b).DigitalInputs = byteAt b 19 := rfl
    have hsrc : (posOf {} b).Source = byteAt b 20 := rfl
    rw [hin, hsrc]
    simp only [List.append_assoc, List.cons_append, List.nil_append]
    rw [← q0]
  refine ⟨_, _, hd, he, ?_, ?_, coord_reencode_partial b _ _ hd he⟩
  · simp only [List.length_append, List.length_take, List.length_drop, length_le32]; omega
  · intro i hi
    have ht : (b.take 4).length = 4 := by simp; omega
    rcases hi with hi | hi
    · rw [List.append_assoc, List.append_assoc, byteAt_append _ _ _ (by omega), byteAt_take _ _ _ hi]
    · have hx : (b.take 4 ++ le32 (rawOfLat (posOf {} b).Latitude) ++ le32 (rawOfLon (posOf {} b).Longitude)).length = 12 := by
        simp only [List.length_append, ht, length_le32]
      unfold byteAt
      simp only [List.getD_eq_getElem?_getD]
      rw [List.getElem?_append_right (by omega), hx, List.getElem?_drop]
      rw [show 12 + (i - 12) = i by omega]

/-! ### one subrecord -/
variable [P : Platform]

/-- a subrecord content that can be passed on is decoded, and encoded again as described -/
theorem passable_back (t : UInt8) (c : Bytes) (h : Passable t c) :
    ∃ d c', Content t (UInt16.ofNat c.length) c d ∧ d.encode = .ok c' ∧ PassedOn t c c' ∧ (t = 24 → c ≠ []) := by
  rcases h with h | ⟨rfl, h⟩
  · have hc := h
    rcases h with ⟨rfl, h⟩ | ⟨rfl, h1, h2⟩ | ⟨rfl, h⟩ | ⟨rfl, u, p, hu, hp, h⟩ | ⟨rfl, h⟩ | ⟨rfl, m, h1, h2⟩ | ⟨rfl, h1, h2, h3⟩ |
      ⟨rfl, h1, h2, h3⟩ | ⟨rfl, h1, h2, h3⟩ | ⟨ht, h1, h2⟩ | ⟨rfl, h⟩ | ⟨rfl, h⟩ | ⟨rfl, h1, h2⟩
    · obtain ⟨e, h1, h2⟩ := response_back c h
      exact ⟨.response e, c, ⟨rfl, h1⟩, h2, .inl ⟨hc, rfl⟩, by simp⟩
    · obtain ⟨e, h1, h2⟩ := term_back c h1 h2
      exact ⟨.term e, c, ⟨rfl, h1⟩, h2, .inl ⟨hc, rfl⟩, by simp⟩
    · obtain ⟨e, h1, h2⟩ := dispatcher_back c h
      exact ⟨.dispatcher e, c, ⟨rfl, h1⟩, h2, .inl ⟨hc, rfl⟩, by simp⟩
    · obtain ⟨e, h1, h2⟩ := auth_back u p hu hp c h
      exact ⟨.auth e, c, ⟨rfl, h1⟩, h2, .inl ⟨hc, rfl⟩, by simp⟩
    · obtain ⟨e, h1, h2⟩ := result_back c h
      exact ⟨.result e, c, ⟨rfl, h1⟩, h2, .inl ⟨hc, rfl⟩, by simp⟩
    · refine ⟨.storage m, c, ⟨rfl, h1⟩, ?_, .inl ⟨hc, rfl⟩, by simp⟩
      show storageEncode m = _
      unfold storageEncode
      rw [h2]
    · obtain ⟨e, h1, h2⟩ := ext_back c h1 h2 h3
      exact ⟨.ext e, c, ⟨rfl, h1⟩, h2, .inl ⟨hc, rfl⟩, by simp⟩
    · obtain ⟨e, h1, h2⟩ := ad_back c h1 _ _ rfl rfl h2 h3
      exact ⟨.ad e, c, ⟨rfl, h1⟩, h2, .inl ⟨hc, rfl⟩, by simp⟩
    · obtain ⟨e, h1, h2⟩ := counters_back c h1 h2 h3
      exact ⟨.counters e, c, ⟨rfl, h1⟩, h2, .inl ⟨hc, rfl⟩, by simp⟩
    · obtain ⟨e, h3, h4⟩ := state_back c h1 h2
      refine ⟨.state e, c, ⟨?_, h3⟩, h4, .inl ⟨hc, rfl⟩, by rcases ht with rfl | rfl <;> simp⟩
      rcases ht with rfl | rfl
      · left; rw [h1]; exact ⟨rfl, rfl⟩
      · right; rfl
    · obtain ⟨e, h1, h2⟩ := absan_back c h
      exact ⟨.absAn e, c, ⟨rfl, h1⟩, h2, .inl ⟨hc, rfl⟩, by rintro - rfl; simp at h⟩
    · obtain ⟨e, h1, h2⟩ := abscntr_back c h
      exact ⟨.absCntr e, c, ⟨rfl, h1⟩, h2, .inl ⟨hc, rfl⟩, by simp⟩
    · obtain ⟨e, h1, h2⟩ := liquid_back c h1 h2
      exact ⟨.liquid e, c, ⟨rfl, h1⟩, h2, .inl ⟨hc, rfl⟩, by simp⟩
  · obtain ⟨e, c', h1, h2, h3⟩ := pos_back c h
    exact ⟨.pos e, c', ⟨rfl, h1⟩, h2, .inr ⟨rfl, h, h3⟩, by simp⟩

theorem PassedOn.length {t : UInt8} {c c' : Bytes} (h : PassedOn t c c') : c'.length = c.length := by
  rcases h with ⟨-, rfl⟩ | ⟨-, -, h, -⟩
  · rfl
  · exact h

/-- the encoding of a decoded subrecord with its length field -/
theorem sub_encode {t : UInt8} {c c' : Bytes} {d : SubData} (hl : c.length < 65536) (hd : Content t (UInt16.ofNat c.length) c d)
    (he : d.encode = .ok c') (hc : c'.length = c.length) (h24 : t = 24 → c ≠ []) :
    RecordData.encode ⟨t, UInt16.ofNat c.length, some d⟩ = .ok ([t] ++ leBytes 2 c.length ++ c') := by
  have hu : (UInt16.ofNat c.length).toNat = c.length := by rw [UInt16.toNat_ofNat']; exact Nat.mod_eq_of_lt hl
  have h1 : (if t = 0 then match inferType (some d) with
      | some t => .ok t
      | none => .err .unknownData
    else .ok t : Go UInt8) = .ok t := by
    by_cases h0 : t = 0
    · subst h0
      rw [if_pos rfl]
      cases d <;> first | rfl | (exact absurd hd.1 (by decide)) | skip
      · rcases hd.1 with ⟨h, -⟩ | h <;> exact absurd h (by decide)
    · rw [if_neg h0]
  have h2 : (if UInt16.ofNat c.length = 0 then d.length else .ok (UInt16.ofNat c.length) : Go UInt16) = .ok (UInt16.ofNat c.length) := by
    by_cases h0 : UInt16.ofNat c.length = 0
    · rw [if_pos h0, h0]
      have hc0 : c.length = 0 := by rw [← hu, h0]; rfl
      have hl' : lengthOf d.encode = .ok 0 := by
        rw [he]
        show Go.ok (UInt16.ofNat c'.length) = _
        rw [hc, hc0]; rfl
      cases d
      case absAn e => exact absurd (List.eq_nil_of_length_eq_zero hc0) (h24 hd.1)
      all_goals exact hl'
    · rw [if_neg h0]
  unfold RecordData.encode
  simp only [h2, Go.ok_bind, he, Go.pure_def, le16_eq, hu]
  exact congrArg (fun x : Go UInt8 => x >>= fun t => Go.ok ([t] ++ leBytes 2 c.length ++ c')) h1

/-! ### subrecords, records, packets -/

/-- contents that satisfy `ok` are decoded and encoded again as contents related by `r` -/
def Back (ok : UInt8 → Bytes → Prop) (r : UInt8 → Bytes → Bytes → Prop) : Prop := ∀ t c, ok t c →
  ∃ d c', Content t (UInt16.ofNat c.length) c d ∧ d.encode = .ok c' ∧ r t c c' ∧ c'.length = c.length ∧ (t = 24 → c ≠ [])

theorem back_passable : Back Passable PassedOn := by
  intro t c h
  obtain ⟨d, c', h1, h2, h3, h4⟩ := passable_back t c h
  exact ⟨d, c', h1, h2, h3, h3.length, h4⟩

theorem back_canonical : Back Canonical (fun _ c c' => c' = c) := by
  intro t c h
  obtain ⟨d, c', h1, h2, h3, h4⟩ := passable_back t c (.inl h)
  rcases h3 with ⟨-, rfl⟩ | ⟨rfl, -⟩
  · exact ⟨d, c', h1, h2, rfl, rfl, h4⟩
  · exfalso
    rcases h with ⟨h, -⟩ | ⟨h, -⟩ | ⟨h, -⟩ | ⟨h, -⟩ | ⟨h, -⟩ | ⟨h, -⟩ | ⟨h, -⟩ | ⟨h, -⟩ | ⟨h, -⟩ | ⟨h | h, -⟩ | ⟨h, -⟩ | ⟨h, -⟩ | ⟨h, -⟩ <;>
      exact absurd h (by decide)

variable {ok : UInt8 → Bytes → Prop} {r : UInt8 → Bytes → Bytes → Prop}

theorem subs_back (hR : Back ok r) {b b2 : Bytes} (h : SubsBecome (fun t c c' => ok t c ∧ c' = c) b b2) :
    ∃ l b', CompleteSubs b l ∧ SubsBecome r b b' ∧ RecordDataSet.encode l = .ok b' ∧ b'.length = b.length := by
  induction h with
  | nil => exact ⟨[], [], .nil, .nil, rfl, rfl⟩
  | @cons t c c2 b b2 hp hl _ ih =>
    obtain ⟨l, b', h1, h2, h3, h4⟩ := ih
    obtain ⟨d, c', k1, k2, k3, k5, k4⟩ := hR t c hp.1
    refine ⟨⟨t, UInt16.ofNat c.length, some d⟩ :: l, [t] ++ leBytes 2 c.length ++ c' ++ b', ?_, .cons k3 hl h2, ?_, ?_⟩
    · refine .cons ⟨c, d, rfl, ?_, rfl, k1⟩ h1
      rw [UInt16.toNat_ofNat']; exact (Nat.mod_eq_of_lt hl).symm
    · unfold RecordDataSet.encode at h3 ⊢
      unfold encodeAll
      rw [sub_encode hl k1 k2 k5 k4, h3]
      rfl
    · simp only [List.length_append]; omega

theorem head_record (n : Nat) (hn : n < 65536) (rn : UInt16) (fl : UInt8) (oid evid tm : UInt32) (sst rst : UInt8) (l : List RecordData)
    (d' : Bytes) (hd : RecordDataSet.encode l = .ok d') (hl : d'.length = n) : ∃ r : ServiceDataRecord,
    RecordHeader (recordHead n rn fl oid evid tm sst rst) r ∧ r.RecordDataSet = l ∧ r.RecordLength.toNat = n ∧
    r.encode = .ok (recordHead n rn fl oid evid tm sst rst ++ d') := by
  have hu : (UInt16.ofNat n).toNat = n := by rw [UInt16.toNat_ofNat']; exact Nat.mod_eq_of_lt hn
  refine ⟨{
    RecordLength := UInt16.ofNat n
    RecordNumber := rn
    SourceServiceOnDevice := bitText fl 7
    RecipientServiceOnDevice := bitText fl 6
    Group := bitText fl 5
    RecordProcessingPriority := bitText fl 4 ++ bitText fl 3
    TimeFieldExists := bitText fl 2
    EventIDFieldExists := bitText fl 1
    ObjectIDFieldExists := bitText fl 0
    ObjectIdentifier := if fl.toNat.testBit 0 then oid else 0
    EventIdentifier := if fl.toNat.testBit 1 then evid else 0
    Time := if fl.toNat.testBit 2 then tm else 0
    SourceServiceType := sst
    RecipientServiceType := rst
    RecordDataSet := l }, ⟨fl, ?_, rfl, rfl, rfl, rfl, rfl, rfl, rfl, ?_, ?_, ?_⟩, rfl, hu, ?_⟩
  · unfold recordHead
    simp only [hu]
    cases fl.toNat.testBit 0 <;> cases fl.toNat.testBit 1 <;> cases fl.toNat.testBit 2 <;> rfl
  · intro h; simp [h]
  · intro h; simp [h]
  · intro h; simp [h]
  · unfold ServiceDataRecord.encode
    have hp := parse_text fl
    have hp' : parseFlags (bitText fl 7 ++ bitText fl 6 ++ bitText fl 5 ++ (bitText fl 4 ++ bitText fl 3) ++ bitText fl 2 ++ bitText fl 1 ++
        bitText fl 0) = .ok fl := by
      rw [← hp]; simp only [List.append_assoc]
    have hrl : (if UInt16.ofNat n = 0 then len16 d' else UInt16.ofNat n) = UInt16.ofNat n := by
      split
      · unfold len16; rw [hl]
      · rfl
    simp only [hd, Go.ok_bind, hp', hrl, Go.pure_def, bitText_eq_one, le16_eq, le32_eq, hu]
    refine congrArg Go.ok ?_
    unfold recordHead
    cases fl.toNat.testBit 0 <;> cases fl.toNat.testBit 1 <;> cases fl.toNat.testBit 2 <;> rfl

theorem records_back (hR : Back ok r) {b b2 : Bytes} (h : RecordsBecome (fun t c c' => ok t c ∧ c' = c) b b2) :
    ∃ l b', CompleteRecords b l ∧ RecordsBecome r b b' ∧ ServiceDataSet.encode l = .ok b' ∧ b'.length = b.length := by
  induction h with
  | nil => exact ⟨[], [], .nil, .nil, rfl, rfl⟩
  | @cons d d2 b b2 rn fl oid evid tm sst rst hs hl _ ih =>
    obtain ⟨l, b', h1, h2, h3, h4⟩ := ih
    obtain ⟨m, d', k1, k2, k3, k4⟩ := subs_back hR hs
    obtain ⟨e, q1, q2, q3, q4⟩ := head_record d.length hl rn fl oid evid tm sst rst m d' k3 k4
    refine ⟨e :: l, _, .cons q1 q3.symm (q2 ▸ k1) h1, .cons rn fl oid evid tm sst rst k2 hl h2, ?_, ?_⟩
    · unfold ServiceDataSet.encode at h3 ⊢
      unfold encodeAll
      rw [q4, h3]
      rfl
    · simp only [List.length_append]; omega


/-- the header of a decoded right packet is encoded again as it was, but for the body length -/
theorem header_back {hdr b : Bytes} {t : UInt8} {pid : Nat} (hh : RightHeader hdr t pid b.length) {p q : Package} {spare : Bytes} {code : UInt8} {er : Option Err}
    (hq : Package.decode p (packet hdr b) spare = .ret code er q) :
    q.HeaderLength ≠ 0 ∧
    parseFlags (q.Prefix ++ q.Route ++ q.EncryptionAlg ++ q.Compression ++ q.Priority) = .ok (byteAt hdr 2) ∧
    (∀ n, hdrOf q (byteAt hdr 2) q.HeaderLength n = hdr.take 5 ++ le16 n ++ hdr.drop 7) ∧ q.FrameDataLength.toNat = b.length ∧
    le16 q.FrameDataLength = (hdr.drop 5).take 2 := by
  have h10 := right_header_len hh
  have hs : packet hdr b = hdr ++ ([crc8 hdr] ++ b ++ leBytes 2 (crc16 b).toNat) := by simp [packet]
  have hhs : headerSize (packet hdr b) = headerSize hdr := by rw [hs, headerSize_append _ _ (by omega)]
  have hrt : routed (packet hdr b) = routed hdr := by
    unfold routed; rw [hs, byteAt_append _ _ _ (by omega)]
  have hle : headerSize (packet hdr b) ≤ (packet hdr b).length := by
    rw [hhs, ← hh.size, hs]; simp
  obtain ⟨f0, f1, f2, f3, f4, f5, f6, f7, f8, f9, f10, f11, f12, -⟩ := decode_header_fields p q _ spare code er hle hq
  have w16 : ∀ i, i + 1 < hdr.length → word16At (packet hdr b) i = word16At hdr i := by
    intro i hi; rw [hs, word16_append _ _ _ (by omega)]
  have ba : ∀ i, i < hdr.length → byteAt (packet hdr b) i = byteAt hdr i := by
    intro i hi; rw [hs, byteAt_append _ _ _ (by omega)]
  rw [ba 0 (by omega)] at f0
  rw [ba 1 (by omega)] at f1
  rw [ba 2 (by omega)] at f2 f3 f4 f5 f6
  rw [ba 3 (by omega)] at f7
  rw [ba 4 (by omega)] at f8
  rw [w16 5 (by omega)] at f9
  rw [w16 7 (by omega)] at f10
  rw [ba 9 (by omega)] at f11
  have hle16 : ∀ (v : UInt16) (i : Nat), v.toNat = word16At hdr i → le16 v = [byteAt hdr i, byteAt hdr (i + 1)] := by
    intro v i hv
    rw [le16_eq, hv]
    unfold word16At
    have := leBytes_leValue [byteAt hdr i, byteAt hdr (i + 1)]
    exact this
  have hfd : q.FrameDataLength.toNat = b.length := f9.trans hh.fdl
  refine ⟨?_, ?_, ?_, hfd, ?_⟩
  · rw [f7]
    intro h0
    have := hh.hl
    unfold declaredHL at this
    rw [h0, ← hh.size] at this
    simp at this
  · rw [f2, f3, f4, f5, f6, ← parse_text (byteAt hdr 2)]
    simp only [List.append_assoc]
  · intro n
    have hrq : (q.Route == [49]) = routed hdr := by rw [f3, bitText_eq_one]; rfl
    unfold hdrOf
    rw [hrq, hle16 _ 7 f10, f0, f1, f7, f8, f11]
    have hsz := hh.size
    unfold headerSize at hsz
    cases hr : routed hdr with
    | false =>
      rw [hr] at hsz
      have h10' : hdr.length = 10 := by simpa using hsz
      clear * - h10'
      match hdr, h10' with
      | [_, _, _, _, _, _, _, _, _, _], _ => rfl
    | true =>
      rw [hr] at hsz
      have h15 : hdr.length = 15 := by simpa using hsz
      obtain ⟨g1, g2, g3, -⟩ := f12 (by rw [hrt, hr])
      rw [w16 10 (by omega)] at g1
      rw [w16 12 (by omega)] at g2
      rw [ba 14 (by omega)] at g3
      rw [hle16 _ 10 g1, hle16 _ 12 g2, g3]
      clear * - h15
      match hdr, h15 with
      | [_, _, _, _, _, _, _, _, _, _, _, _, _, _, _], _ => rfl
  · rw [hle16 _ 5 f9]
    clear * - h10
    match hdr, h10 with
    | _ :: _ :: _ :: _ :: _ :: _ :: _ :: _ :: _ :: _ :: _, _ => rfl

/-- encoding a decoded right packet: the same header, the encoded body, and its checksum; the package itself is not changed -/
theorem package_back {hdr b b' : Bytes} {t : UInt8} {pid : Nat} (hh : RightHeader hdr t pid b.length) (hl : b'.length = b.length)
    (hb : b.length < 65536) (hne : b ≠ []) {p q : Package} {spare : Bytes} {code : UInt8} {er : Option Err}
    (hq : Package.decode p (packet hdr b) spare = .ret code er q) {body : Body} (hB : q.ServicesFrameData = some body)
    (he : body.encode = .ok b') : q.encode = .ok (packet hdr b', q) := by
  obtain ⟨h1, h2, h3, h4, h5⟩ := header_back hh hq
  have h6 : q.FrameDataLength = len16 b' := by
    apply UInt16.toNat_inj.mp
    unfold len16
    rw [h4, UInt16.toNat_ofNat', hl, Nat.mod_eq_of_lt hb]
  have h7 : hdrOf q (byteAt hdr 2) q.HeaderLength (len16 b') = hdr := by
    rw [h3, ← h6, h5]
    have e1 := List.take_append_drop 2 (hdr.drop 5)
    rw [List.drop_drop] at e1
    rw [List.append_assoc, e1, List.take_append_drop]
  have hbody : q.HasBody b' := by
    rw [hasBody_iff, hB]
    exact he
  obtain ⟨hl', e1, e2⟩ := encode_eq q _ b' h2 hbody
  rw [if_neg h1] at e1
  subst e1
  have hne' : b' ≠ [] := by
    rintro rfl
    exact hne (List.eq_nil_of_length_eq_zero (by simpa using hl.symm))
  rw [e2, h7, if_pos (len16_pos b' (by omega) hne')]
  unfold packet
  rw [le16_eq, ← h6]
  simp only [List.append_assoc]

theorem pass_on_core (hR : Back ok r) (hdr b : Bytes) (t : UInt8) (pid : Nat) (hh : RightHeader hdr t pid b.length) (hne : b ≠ [])
    (hlen : (packet hdr b).length < 65536) (hb : BodyWith ok t b) (p : Package) (spare : Bytes) :
    ∃ q b', Package.decode p (packet hdr b) spare = .ret 0 none q ∧ q.encode = .ok (packet hdr b', q) ∧ BodyBecomes r t b b' := by
  have hbl : b.length < 65536 := by simp [packet] at hlen; omega
  rcases hb with ⟨rfl, h⟩ | ⟨rfl, rpid, res, x, x2, h, rfl, -⟩
  · obtain ⟨l, b', h1, h2, h3, h4⟩ := records_back hR h
    obtain ⟨q, q1, q2, -, -⟩ := packet_decoded hh hne (.inr rfl) hlen ((decodeBody_iff 1 (.inr rfl) b (.appdata l)).2 ⟨rfl, h1.records⟩) p spare
    exact ⟨q, b', q1, package_back hh h4 hbl hne q1 q2 h3, .inl ⟨rfl, h2⟩⟩
  · obtain ⟨l, x', h1, h2, h3, h4⟩ := records_back hR h
    have hB : BodyOf 0 (leBytes 2 rpid.toNat ++ [res] ++ x) (.response ⟨rpid, res, if x = [] then none else some l⟩) := by
      refine ⟨rfl, x, rfl, ?_⟩
      by_cases hx : x = []
      · left; exact ⟨hx, by simp [hx]⟩
      · right; exact ⟨hx, l, by simp [hx], h1.records⟩
    obtain ⟨q, q1, q2, -, -⟩ := packet_decoded hh hne (.inl rfl) hlen ((decodeBody_iff 0 (.inl rfl) _ _).2 hB) p spare
    refine ⟨q, leBytes 2 rpid.toNat ++ [res] ++ x', q1, package_back hh (by simp [h4]) hbl hne q1 q2 ?_,
      .inr ⟨rfl, rpid, res, x, x', h2, rfl, rfl⟩⟩
    show PtResponse.encode _ = _
    unfold PtResponse.encode
    by_cases hx : x = []
    · have hx' : x' = [] := List.eq_nil_of_length_eq_zero (by rw [h4, hx]; rfl)
      simp only [hx, if_true, Go.ok_bind, Go.pure_def, le16_eq, hx']
    · simp only [hx, if_false, h3, Go.ok_bind, Go.pure_def, le16_eq]

omit P in
theorem same_subs {b b' : Bytes} (h : SubsBecome (fun _ c c' => c' = c) b b') : b' = b := by
  induction h with
  | nil => rfl
  | cons h1 _ _ ih => rw [h1, ih]

omit P in
theorem same_records {b b' : Bytes} (h : RecordsBecome (fun _ c c' => c' = c) b b') : b' = b := by
  induction h with
  | nil => rfl
  | cons _ _ _ _ _ _ _ h1 _ _ ih => rw [same_subs h1, ih]

/-- C87 (partial): a packet of the standard all of whose subrecords are canonical is accepted by Decode, and encoding the decoded package
gives exactly the same packet; the package is not changed by Encode. Missing: subrecords that are not canonical (`pass_on_wrong`,
`pass_on_reserved`), an empty body (`pass_on_empty`); for positions see `pass_on_pos_partial`. -/
theorem pass_on_partial (hdr b : Bytes) (t : UInt8) (pid : Nat) (hh : RightHeader hdr t pid b.length) (hne : b ≠ [])
    (hlen : (packet hdr b).length < 65536) (hb : BodyWith Canonical t b) (p : Package) (spare : Bytes) :
    ∃ q, Package.decode p (packet hdr b) spare = .ret 0 none q ∧ q.encode = .ok (packet hdr b, q) := by
  obtain ⟨q, b', h1, h2, h3⟩ := pass_on_core back_canonical hdr b t pid hh hne hlen hb p spare
  have : b' = b := by
    rcases h3 with ⟨-, h⟩ | ⟨-, rpid, res, x, x', h, rfl, rfl⟩
    · exact same_records h
    · rw [same_records h]
  subst this
  exact ⟨q, h1, h2⟩

/-- C87 (partial): with positions (of whole km/h, and course as in `PlainPos`) the packet that Encode gives has the same header, the same
records and the same subrecords byte for byte, except that LAT and LONG of each position may be one less, and right checksums. -/
theorem pass_on_pos_partial (hdr b : Bytes) (t : UInt8) (pid : Nat) (hh : RightHeader hdr t pid b.length) (hne : b ≠ [])
    (hlen : (packet hdr b).length < 65536) (hb : BodyWith Passable t b) (p : Package) (spare : Bytes) :
    ∃ q b', Package.decode p (packet hdr b) spare = .ret 0 none q ∧ q.encode = .ok (packet hdr b', q) ∧ BodyBecomes PassedOn t b b' :=
  pass_on_core back_passable hdr b t pid hh hne hlen hb p spare

end Egts
