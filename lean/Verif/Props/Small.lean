import Verif.Model.SrSmall
import Verif.Props.Counters
set_option autoImplicit false
/- C29: state, absolute counter, absolute analog sensor, liquid level and result code subrecords. -/
namespace Egts

/-- C29 (state): every state subrecord with one-bit flags survives Encode/Decode. -/
theorem state_roundtrip (e : SrStateData) (hN : IsBit e.NMS) (hI : IsBit e.IBU) (hB : IsBit e.BBU) :
    ∃ b, e.encode = .ok b ∧ b.length = 5 ∧ SrStateData.decode {} b = .ok e := by
  obtain ⟨st, mv, bv, iv, n, i, u⟩ := e
  simp only at hN hI hB
  obtain ⟨n, rfl⟩ := isBit_iff.mp hN
  obtain ⟨i, rfl⟩ := isBit_iff.mp hI
  obtain ⟨u, rfl⟩ := isBit_iff.mp hB
  have hf : parseFlags ([48, 48, 48, 48, 48] ++ bitS n ++ bitS i ++ bitS u)
    = .ok (flagByte false false false false false n i u) := parse_bits false false false false false n i u
  refine ⟨_, by simp only [SrStateData.encode, hf, Go.ok_bind]; rfl, rfl, ?_⟩
  apply Dec.run_of_ok (u := ()) (r := [])
  simp [SrStateData.decodeM, Dec.bind_apply, fmt_flagByte, sl, bitS]

example : let e : SrStateData := ⟨2, 127, 50, 3, [48], [49], [49]⟩
    IsBit e.NMS ∧ IsBit e.IBU ∧ IsBit e.BBU ∧ e.encode = .ok [2, 127, 50, 3, 3] := by
  refine ⟨?_, ?_, ?_, by decide⟩ <;> simp [IsBit]

/-- C29 (absolute counter): every 24-bit counter value survives Encode/Decode. -/
theorem abscntr_roundtrip (e : SrAbsCntrData) (h : e.CounterValue.toNat < 2 ^ 24) :
    ∃ b, e.encode = .ok b ∧ b.length = 4 ∧ SrAbsCntrData.decode {} b = .ok e := by
  obtain ⟨n, v⟩ := e
  refine ⟨_, rfl, rfl, ?_⟩
  apply Dec.run_of_ok (u := ()) (r := [])
  have := Dec.read_exact (zeros 3) ((le32 v).take 3) ({ CounterNumber := n } : SrAbsCntrData) (by simp) (by simp [le32])
  simp [SrAbsCntrData.decodeM, Dec.bind_apply, this, u32_take3_of_lt v h]

example : (⟨111, 16777215⟩ : SrAbsCntrData).CounterValue.toNat < 2 ^ 24 := by decide

/-- C29 (absolute analog sensor): every 24-bit value survives Encode/Decode. -/
theorem absan_roundtrip (e : SrAbsAnSensData) (h : e.Value.toNat < 2 ^ 24) :
    ∃ b, e.encode = .ok b ∧ b.length = 4 ∧ SrAbsAnSensData.decode {} b = .ok e := by
  obtain ⟨n, v⟩ := e
  refine ⟨_, rfl, rfl, ?_⟩
  simp only at h
  simp only [SrAbsAnSensData.decode, List.length_cons, List.length_nil]
  simp only [Nat.reduceAdd, Nat.lt_irrefl, ↓reduceIte, Out.ok.injEq, SrAbsAnSensData.mk.injEq, true_and]
  apply UInt32.toNat_inj.mp
  rw [UInt32.toNat_shiftRight, u32_toNat]
  have hn := n.toNat_lt
  simp [Nat.shiftRight_eq_div_pow]
  omega

example : (⟨3, 16777215⟩ : SrAbsAnSensData).Value.toNat < 2 ^ 24 := by decide

/-- C29 (liquid level): every liquid level reading with sensor number 0..7, one-bit error and raw
flags and a two-bit unit survives Encode/Decode. -/
theorem liquid_roundtrip (e : SrLiquidLevelSensor) (hE : IsBit e.LiquidLevelSensorErrorFlag)
    (hU : IsBit2 e.LiquidLevelSensorValueUnit) (hR : IsBit e.RawDataFlag)
    (hN : e.LiquidLevelSensorNumber.toNat < 8) :
    ∃ b, e.encode = .ok b ∧ b.length = 7 ∧ SrLiquidLevelSensor.decode {} b = .ok e := by
  obtain ⟨f, u, w, n, m, d⟩ := e
  simp only at hE hU hR hN
  obtain ⟨f, rfl⟩ := isBit_iff.mp hE
  obtain ⟨u1, u0, hu1, hu0, rfl⟩ := hU
  obtain ⟨u1, rfl⟩ := isBit_iff.mp hu1
  obtain ⟨u0, rfl⟩ := isBit_iff.mp hu0
  obtain ⟨w, rfl⟩ := isBit_iff.mp hR
  have hk : ∃ b2 b1 b0, fmtBin 3 n.toNat = [dig b2, dig b1, dig b0] ∧
      parseUint2 [dig b2, dig b1, dig b0] 8 = (n.toNat, none) := by
    have : ∀ k : Fin 8, ∃ b2 b1 b0, fmtBin 3 k.val = [dig b2, dig b1, dig b0] ∧
      parseUint2 [dig b2, dig b1, dig b0] 8 = (k.val, none) := by decide +kernel
    exact this ⟨n.toNat, hN⟩
  obtain ⟨b2, b1, b0, hk1, hk2⟩ := hk
  have hf : parseFlags ([48] ++ bitS f ++ (bitS u1 ++ bitS u0) ++ bitS w ++ fmtBin 3 n.toNat)
    = .ok (flagByte false f u1 u0 w b2 b1 b0) := by
    rw [hk1]; exact parse_bits false f u1 u0 w b2 b1 b0
  refine ⟨_, by simp only [SrLiquidLevelSensor.encode, hf, Go.ok_bind]; rfl, rfl, ?_⟩
  apply Dec.run_of_ok (u := ()) (r := [])
  unfold SrLiquidLevelSensor.decodeM
  refine Dec.step (Dec.readByte_cons _ _ _) ?_
  rw [fmt_flagByte]
  refine Dec.step (Dec.upd_apply _ _ _) ?_
  simp only [List.drop, hk2]
  refine Dec.step (Dec.pure_apply _ _ _) ?_
  refine Dec.step (Dec.upd_apply _ _ _) ?_
  refine Dec.step (Dec.read_le16 _ _ _ m rfl) ?_
  refine Dec.step (Dec.upd_apply _ _ _) ?_
  refine Dec.step (Dec.read_exact _ _ _ (by simp) (by simp [le32])) ?_
  simp [sl, bitS]

example : let e : SrLiquidLevelSensor := ⟨[48], [49, 48], [48], 7, 513, 4294967295⟩
    IsBit e.LiquidLevelSensorErrorFlag ∧ IsBit2 e.LiquidLevelSensorValueUnit ∧ IsBit e.RawDataFlag ∧
    e.LiquidLevelSensorNumber.toNat < 8 ∧ e.encode = .ok [39, 1, 2, 255, 255, 255, 255] := by
  refine ⟨by simp [IsBit], ⟨[49], [48], by simp [IsBit], by simp [IsBit], rfl⟩, by simp [IsBit], by decide, by decide⟩

/-- The bound on the sensor number is necessary: with number 8 (which a Go `uint8` field can hold)
`Encode` fails or writes something that does not decode to the same value; here the nine-bit flag
string still parses and the unit, raw flag and number come back changed. -/
theorem liquid_sensor_number_overflow :
    ∃ e b e', IsBit e.LiquidLevelSensorErrorFlag ∧ IsBit2 e.LiquidLevelSensorValueUnit ∧ IsBit e.RawDataFlag ∧
      e.LiquidLevelSensorNumber = 8 ∧ SrLiquidLevelSensor.encode e = .ok b ∧
      SrLiquidLevelSensor.decode {} b = .ok e' ∧ e'.LiquidLevelSensorNumber = 0 ∧
      e'.LiquidLevelSensorValueUnit ≠ e.LiquidLevelSensorValueUnit := by
  refine ⟨⟨[48], [48, 49], [48], 8, 0, 0⟩, [40, 0, 0, 0, 0, 0, 0], _, by simp [IsBit],
    ⟨[48], [49], by simp [IsBit], by simp [IsBit], rfl⟩, by simp [IsBit], rfl, by decide, rfl, by decide, by decide⟩

/-- C31 (result code): every result code survives Encode/Decode. -/
theorem resultcode_roundtrip (e : SrResultCode) :
    ∃ b, e.encode = .ok b ∧ b.length = 1 ∧ SrResultCode.decode {} b = .ok e := by
  exact ⟨_, rfl, rfl, rfl⟩

end Egts
