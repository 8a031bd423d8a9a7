import Verif.Spec.SubWire
import Verif.Props.Pos
import Verif.Lemmas.Count
import Verif.Props.Counters
import Verif.Props.Identity
import Verif.Model.SrSmall
import Verif.Model.SrIdentity
import Verif.Model.SrExtPosData
set_option autoImplicit false
/- C69: the fields of decoded subrecords come from their specified offsets, for every complete byte string. -/
namespace Egts
open Frame

/-! ### reading at an offset -/

theorem drop_cons_of_lt {b : Bytes} {o : Nat} (h : o < b.length) : ∃ a r, b.drop o = a :: r ∧ b.drop (o + 1) = r ∧ byteAt b o = a := by
  refine ⟨b[o], b.drop (o + 1), List.drop_eq_getElem_cons h, rfl, ?_⟩
  simp [byteAt, h]

theorem read_at {σ : Type} (p : Bytes) (s : σ) (b : Bytes) (o n : Nat) (hp : p.length = n) (hn : 0 < n) (h : o + n ≤ b.length) :
    Dec.read p s (b.drop o) = .ok ((b.drop o).take n) s (b.drop (o + n)) := by
  have hl : ((b.drop o).take n).length = p.length := by simp; omega
  have := Dec.read_append p ((b.drop o).take n) ((b.drop o).drop n) s hl (by intro hc; rw [hc] at hl; simp at hl; omega)
  rw [List.take_append_drop, List.drop_drop] at this
  exact this

theorem readByteTo_at {σ : Type} (set : σ → UInt8 → σ) (s : σ) (b : Bytes) (o : Nat) (h : o < b.length) :
    Dec.readByteTo set s (b.drop o) = .ok () (set s (byteAt b o)) (b.drop (o + 1)) := by
  obtain ⟨a, r, h1, h2, h3⟩ := drop_cons_of_lt h
  rw [h1, h2, h3, Dec.readByteTo_cons]

theorem readByte_at {σ : Type} (s : σ) (b : Bytes) (o : Nat) (h : o < b.length) :
    Dec.readByte s (b.drop o) = .ok (byteAt b o) s (b.drop (o + 1)) := by
  obtain ⟨a, r, h1, h2, h3⟩ := drop_cons_of_lt h
  rw [h1, h2, h3, Dec.readByte_cons]

theorem optRead_at {σ τ : Type} (get : σ → τ) (fl : UInt8) (i : Nat) (b : Bytes) (o n : Nat) {cond : σ → Bytes} {p : Bytes}
    {conv : Bytes → τ} {set : σ → τ → σ} {e : σ} (hp : p.length = n) (hn : 0 < n)
    (h : o + (if fl.toNat.testBit i then n else 0) ≤ b.length)
    (hc : cond e = bitText fl i) (hs : ∀ e, set e (get e) = e := by exact fun _ => rfl) :
    Dec.optRead cond p conv set e (b.drop o) =
      .ok (if fl.toNat.testBit i then (b.drop o).take n else p)
        (set e (if fl.toNat.testBit i then conv ((b.drop o).take n) else get e)) (b.drop (o + if fl.toNat.testBit i then n else 0)) := by
  have hcc : (cond e == [49]) = fl.toNat.testBit i := by rw [hc, bitText_eq_one]
  have hci : cond e = [49] ↔ fl.toNat.testBit i = true := by rw [← hcc]; simp
  cases hb : fl.toNat.testBit i with
  | false =>
    simp [Dec.optRead, Dec.bind_apply, hci, hb, hs]
  | true =>
    rw [hb, if_pos rfl] at h
    simp [Dec.optRead, Dec.bind_apply, hci, hb, read_at p e b o n hp hn h]

theorem optByte_at {σ : Type} (get : σ → UInt8) (fl : UInt8) (i : Nat) (b : Bytes) (o : Nat) {cond : σ → Bytes}
    {set : σ → UInt8 → σ} {e : σ}
    (h : o + (if fl.toNat.testBit i then 1 else 0) ≤ b.length)
    (hc : cond e = bitText fl i) (hs : ∀ e, set e (get e) = e := by exact fun _ => rfl) :
    Dec.optByte cond set e (b.drop o) =
      .ok () (set e (if fl.toNat.testBit i then byteAt b o else get e)) (b.drop (o + if fl.toNat.testBit i then 1 else 0)) := by
  have hcc : (cond e == [49]) = fl.toNat.testBit i := by rw [hc, bitText_eq_one]
  cases hb : fl.toNat.testBit i with
  | false =>
    simp [Dec.optByte, Dec.bind_apply, hcc, hb, hs]
  | true =>
    rw [hb, if_pos rfl] at h
    simp [Dec.optByte, Dec.bind_apply, hcc, hb, readByteTo_at set e b o (by omega)]

theorem len_take {b : Bytes} {o n : Nat} (h : o + n ≤ b.length) : ((b.drop o).take n).length = n := by simp; omega

theorem len_opt {c : Bool} {x p : Bytes} {n : Nat} (hx : c = true → x.length = n) (hp : p.length = n) : (if c then x else p).length = n := by
  cases c
  · simpa using hp
  · simpa using hx rfl

theorem u16_wire (b : Bytes) (o : Nat) (h : o + 2 ≤ b.length) : (u16 ((b.drop o).take 2)).toNat = wireNat b o 2 := by
  have hl := len_take h
  unfold wireNat
  match (b.drop o).take 2, hl with
  | [x, y], _ => rw [u16_toNat]; simp [leValue]

theorem u32_wire (b : Bytes) (o : Nat) (h : o + 4 ≤ b.length) : (u32 ((b.drop o).take 4)).toNat = wireNat b o 4 := by
  have hl := len_take h
  unfold wireNat
  match (b.drop o).take 4, hl with
  | [x, y, z, w], _ => rw [u32_toNat]; simp [leValue]; omega

theorem u24_wire (b : Bytes) (o : Nat) (h : o + 3 ≤ b.length) : (u24 ((b.drop o).take 3)).toNat = wireNat b o 3 := by
  have hl := len_take h
  unfold wireNat u24
  match (b.drop o).take 3, hl with
  | [x, y, z], _ =>
    show (u32 [x, y, z, 0]).toNat = _
    rw [u32_toNat]; simp [leValue]; omega

theorem opt16_wire (b : Bytes) (fl : UInt8) (i o : Nat) (h : o + (if fl.toNat.testBit i then 2 else 0) ≤ b.length) :
    (if fl.toNat.testBit i then u16 ((b.drop o).take 2) else 0).toNat = optNat b fl i o 2 := by
  unfold optNat
  cases hb : fl.toNat.testBit i with
  | false => rfl
  | true => rw [hb, if_pos rfl] at h; simp only [if_true]; exact u16_wire b o h

theorem opt24_wire (b : Bytes) (fl : UInt8) (i o : Nat) (h : o + (if fl.toNat.testBit i then 3 else 0) ≤ b.length) :
    (if fl.toNat.testBit i then u24 ((b.drop o).take 3) else 0).toNat = optNat b fl i o 3 := by
  unfold optNat
  cases hb : fl.toNat.testBit i with
  | false => rfl
  | true => rw [hb, if_pos rfl] at h; simp only [if_true]; exact u24_wire b o h

theorem opt8_wire (b : Bytes) (fl : UInt8) (i o : Nat) (h : o + (if fl.toNat.testBit i then 1 else 0) ≤ b.length) :
    (if fl.toNat.testBit i then byteAt b o else 0).toNat = optNat b fl i o 1 := by
  unfold optNat
  cases hb : fl.toNat.testBit i with
  | false => rfl
  | true =>
    rw [hb, if_pos rfl] at h
    simp only [if_true]
    obtain ⟨a, r, h1, h2, h3⟩ := drop_cons_of_lt (show o < b.length by omega)
    unfold wireNat
    rw [h1, h3]
    simp [leValue]

theorem run_ex {σ : Type} {m : Dec σ Unit} {s : σ} {c : Bytes} {Q : σ → Prop} (h : ∃ e r, m s c = .ok () e r ∧ Q e) :
    ∃ e, m.run s c = .ok e ∧ Q e := by
  obtain ⟨e, r, h1, h2⟩ := h
  exact ⟨e, Dec.run_of_ok h1, h2⟩

theorem stepQ {σ α : Type} {m : Dec σ α} {f : α → Dec σ Unit} {s s1 : σ} {r r1 : Bytes} {a : α} {Q : σ → Prop} (h : m s r = .ok a s1 r1)
    (k : ∃ e r', f a s1 r1 = .ok () e r' ∧ Q e) : ∃ e r', (m >>= f) s r = .ok () e r' ∧ Q e := by
  rw [Dec.bind_ok h]; exact k

theorem stepOpt {σ τ : Type} (get : σ → τ) (fl : UInt8) (i : Nat) (b : Bytes) (o n : Nat) {cond : σ → Bytes} {p : Bytes}
    {conv : Bytes → τ} {set : σ → τ → σ} {e : σ} {f : Bytes → Dec σ Unit} {Q : σ → Prop} (hp : p.length = n) (hn : 0 < n)
    (h : o + (if fl.toNat.testBit i then n else 0) ≤ b.length) (hc : cond e = bitText fl i)
    (k : ∀ p', p'.length = n → ∃ s r', f p' (set e (if fl.toNat.testBit i then conv ((b.drop o).take n) else get e))
      (b.drop (o + if fl.toNat.testBit i then n else 0)) = .ok () s r' ∧ Q s)
    (hs : ∀ e, set e (get e) = e := by exact fun _ => rfl) :
    ∃ s r', (Dec.optRead cond p conv set >>= f) e (b.drop o) = .ok () s r' ∧ Q s :=
  stepQ (optRead_at get fl i b o n hp hn h hc hs) (k _ (len_opt (fun hb => len_take (by rw [hb] at h; exact h)) hp))

/-! ### fixed layouts -/

/-- C69, state: state, three voltages, flags NMS IBU BBU in bits 2, 1, 0. -/
theorem state_wire (b : Bytes) (h : 5 ≤ b.length) : SrStateData.decode {} b = .ok ⟨byteAt b 0, byteAt b 1, byteAt b 2, byteAt b 3,
    bitText (byteAt b 4) 2, bitText (byteAt b 4) 1, bitText (byteAt b 4) 0⟩ := by
  obtain ⟨f0, f1, f2, f3, f4, f5, f6, f7⟩ := fmt_text1 (byteAt b 4)
  apply Dec.run_of_ok (u := ()) (r := b.drop 5)
  unfold SrStateData.decodeM
  refine Dec.step (readByteTo_at _ _ b 0 (by omega)) ?_
  refine Dec.step (readByteTo_at _ _ b 1 (by omega)) ?_
  refine Dec.step (readByteTo_at _ _ b 2 (by omega)) ?_
  refine Dec.step (readByteTo_at _ _ b 3 (by omega)) ?_
  refine Dec.step (readByte_at _ b 4 (by omega)) ?_
  simp only [Dec.upd_apply, f5, f6, f7]

/-- C69, liquid level: error flag in bit 6, unit in bits 5 and 4, raw data flag in bit 3, sensor number in bits 2 to 0; module address and value
little-endian. -/
theorem liquid_wire (b : Bytes) (h : 7 ≤ b.length) : ∃ e, SrLiquidLevelSensor.decode {} b = .ok e ∧
    e.LiquidLevelSensorErrorFlag = bitText (byteAt b 0) 6 ∧ e.LiquidLevelSensorValueUnit = bitText (byteAt b 0) 5 ++ bitText (byteAt b 0) 4 ∧
    e.RawDataFlag = bitText (byteAt b 0) 3 ∧ e.LiquidLevelSensorNumber.toNat = bitsNat (byteAt b 0) 0 3 ∧
    e.ModuleAddress.toNat = wireNat b 1 2 ∧ e.LiquidLevelSensorData.toNat = wireNat b 3 4 := by
  obtain ⟨f0, f1, f2, f3, f4, f5, f6, f7⟩ := fmt_text1 (byteAt b 0)
  have hn : parseUint2 ((fmtBin 8 (byteAt b 0).toNat).drop 5) 8 = ((byteAt b 0).toNat % 8, none) := by
    have : ∀ n : Fin 256, parseUint2 ((fmtBin 8 n.val).drop 5) 8 = (n.val % 8, none) := by decide +kernel
    exact this ⟨_, (byteAt b 0).toNat_lt⟩
  have hu : sl (fmtBin 8 (byteAt b 0).toNat) 2 4 = bitText (byteAt b 0) 5 ++ bitText (byteAt b 0) 4 := by
    rw [← f2, ← f3, fmt_byte]; rfl
  refine ⟨⟨bitText (byteAt b 0) 6, bitText (byteAt b 0) 5 ++ bitText (byteAt b 0) 4, bitText (byteAt b 0) 3, UInt8.ofNat ((byteAt b 0).toNat % 8),
    u16 ((b.drop 1).take 2), u32 ((b.drop 3).take 4)⟩, ?_, rfl, rfl, rfl, ?_, u16_wire b 1 (by omega), u32_wire b 3 (by omega)⟩
  · apply Dec.run_of_ok (u := ()) (r := b.drop 7)
    unfold SrLiquidLevelSensor.decodeM
    refine Dec.step (readByte_at _ b 0 (by omega)) ?_
    refine Dec.step (Dec.upd_apply _ _ _) ?_
    simp only [hn]
    refine Dec.step (Dec.pure_apply _ _ _) ?_
    refine Dec.step (Dec.upd_apply _ _ _) ?_
    refine Dec.step (read_at (zeros 2) _ b 1 2 rfl (by omega) (by omega)) ?_
    refine Dec.step (Dec.upd_apply _ _ _) ?_
    refine Dec.step (read_at (zeros 4) _ b 3 4 rfl (by omega) (by omega)) ?_
    simp only [Dec.upd_apply, f1, hu, f4]
  · show (UInt8.ofNat ((byteAt b 0).toNat % 8)).toNat = _
    rw [u8_ofNat_toNat]
    unfold bitsNat
    omega

/-- C69, absolute counter: number, then three bytes little-endian. -/
theorem abscntr_wire (b : Bytes) (h : 4 ≤ b.length) : ∃ e, SrAbsCntrData.decode {} b = .ok e ∧ e.CounterNumber = byteAt b 0 ∧
    e.CounterValue.toNat = wireNat b 1 3 := by
  refine ⟨⟨byteAt b 0, u24 ((b.drop 1).take 3)⟩, ?_, rfl, u24_wire b 1 (by omega)⟩
  apply Dec.run_of_ok (u := ()) (r := b.drop 4)
  unfold SrAbsCntrData.decodeM
  refine Dec.step (readByteTo_at _ _ b 0 (by omega)) ?_
  refine Dec.step (read_at (zeros 3) _ b 1 3 rfl (by omega) (by omega)) ?_
  rfl

/-- C69, absolute analog sensor: number, then three bytes little-endian; and it is an error if there are less than four bytes. -/
theorem absan_wire (b : Bytes) : (4 ≤ b.length → ∃ e, SrAbsAnSensData.decode {} b = .ok e ∧ e.SensorNumber = byteAt b 0 ∧
    e.Value.toNat = wireNat b 1 3) ∧ (b.length < 4 → SrAbsAnSensData.decode {} b = .err .badSize {}) := by
  constructor
  · intro h
    match b, h with
    | b0 :: b1 :: b2 :: b3 :: r, h =>
      refine ⟨⟨b0, u32 (b0 :: b1 :: b2 :: b3 :: r) >>> 8⟩, ?_, rfl, ?_⟩
      · unfold SrAbsAnSensData.decode
        rw [if_neg (by omega)]
      · have := b0.toNat_lt
        show (u32 (b0 :: b1 :: b2 :: b3 :: r) >>> 8).toNat = _
        rw [UInt32.toNat_shiftRight, u32_toNat]
        simp [Nat.shiftRight_eq_div_pow, wireNat, leValue]
        omega
  · intro h
    unfold SrAbsAnSensData.decode
    rw [if_pos h]

/-- C69, result code: the first byte. -/
theorem resultcode_wire (b : Bytes) (h : 1 ≤ b.length) : SrResultCode.decode {} b = .ok ⟨byteAt b 0⟩ := by
  apply Dec.run_of_ok (u := ()) (r := b.drop 1)
  exact readByteTo_at _ _ b 0 (by omega)

/-- C69, dispatcher identity: type, four bytes little-endian, and the description to the end. -/
theorem dispatcher_wire (b : Bytes) (h : 5 ≤ b.length) : ∃ e, SrDispatcherIdentity.decode {} b = .ok e ∧ e.DispatcherType = byteAt b 0 ∧
    e.DispatcherID.toNat = wireNat b 1 4 ∧ e.Description = b.drop 5 := by
  refine ⟨⟨byteAt b 0, u32 ((b.drop 1).take 4), b.drop 5⟩, ?_, rfl, u32_wire b 1 (by omega), rfl⟩
  apply Dec.run_of_ok (u := ()) (r := b.drop 5)
  unfold SrDispatcherIdentity.decodeM
  refine Dec.step (readByteTo_at _ _ b 0 (by omega)) ?_
  refine Dec.step (read_at (zeros 4) _ b 1 4 rfl (by omega) (by omega)) ?_
  rfl

/-- C69, record response of exactly three bytes: confirmed record number little-endian, status. -/
theorem response_wire [Platform] (b : Bytes) (h : b.length = 3) : ∃ e, SrResponse.decode {} b = .ok e ∧
    e.ConfirmedRecordNumber.toNat = wireNat b 0 2 ∧ e.RecordStatus = byteAt b 2 := by
  refine ⟨⟨u16 ((b.drop 0).take 2), byteAt b 2⟩, ?_, u16_wire b 0 (by omega), rfl⟩
  apply Dec.run_of_ok (u := ()) (r := b.drop 3)
  unfold SrResponse.decodeM
  refine Dec.step (read_at (zeros 2) _ b 0 2 rfl (by omega) (by omega)) ?_
  refine Dec.step (Dec.upd_apply _ _ _) ?_
  refine Dec.step (readByteTo_at _ _ b 2 (by omega)) ?_
  refine Dec.step (Dec.unread_apply _ _) ?_
  rw [List.drop_eq_nil_of_le (show b.length ≤ 2 + 1 by omega)]
  rfl

/-! ### layouts with optional fields -/

/-- C69, extended position: VDOP, HDOP, PDOP, number of satellites, navigation systems, announced by the bits 0 to 4. -/
theorem extpos_wire (b : Bytes) (h1 : 1 ≤ b.length) (fl : UInt8) (hfl : fl = byteAt b 0)
    (h : optOff fl 1 [(0, 2), (1, 2), (2, 2), (3, 1), (4, 2)] ≤ b.length) :
    ∃ e, SrExtPosData.decode {} b = .ok e ∧
      e.VdopFieldExists = bitText fl 0 ∧ e.HdopFieldExists = bitText fl 1 ∧ e.PdopFieldExists = bitText fl 2 ∧
      e.SatellitesFieldExists = bitText fl 3 ∧ e.NavigationSystemFieldExists = bitText fl 4 ∧
      e.VerticalDilutionOfPrecision.toNat = optNat b fl 0 1 2 ∧
      e.HorizontalDilutionOfPrecision.toNat = optNat b fl 1 (optOff fl 1 [(0, 2)]) 2 ∧
      e.PositionDilutionOfPrecision.toNat = optNat b fl 2 (optOff fl 1 [(0, 2), (1, 2)]) 2 ∧
      e.Satellites.toNat = optNat b fl 3 (optOff fl 1 [(0, 2), (1, 2), (2, 2)]) 1 ∧
      e.NavigationSystem.toNat = optNat b fl 4 (optOff fl 1 [(0, 2), (1, 2), (2, 2), (3, 1)]) 2 := by
  subst hfl
  simp only [optOff, List.foldl_cons, List.foldl_nil] at h ⊢
  obtain ⟨f0, f1, f2, f3, f4, f5, f6, f7⟩ := fmt_text1 (byteAt b 0)
  generalize hfl : byteAt b 0 = fl at *
  have k0 : 1 + (if fl.toNat.testBit 0 then 2 else 0) ≤ b.length := by omega
  have k1 : 1 + (if fl.toNat.testBit 0 then 2 else 0) + (if fl.toNat.testBit 1 then 2 else 0) ≤ b.length := by omega
  have k2 : 1 + (if fl.toNat.testBit 0 then 2 else 0) + (if fl.toNat.testBit 1 then 2 else 0) + (if fl.toNat.testBit 2 then 2 else 0) ≤ b.length := by omega
  have k3 : 1 + (if fl.toNat.testBit 0 then 2 else 0) + (if fl.toNat.testBit 1 then 2 else 0) + (if fl.toNat.testBit 2 then 2 else 0)
    + (if fl.toNat.testBit 3 then 1 else 0) ≤ b.length := by omega
  · apply run_ex
    unfold SrExtPosData.decodeM
    refine stepQ (readByte_at _ b 0 (by omega)) ?_
    rw [hfl]
    refine stepQ (Dec.upd_apply _ _ _) ?_
    refine stepOpt (·.VerticalDilutionOfPrecision) fl 0 b 1 2 rfl (by omega) k0 f7 fun p hp => ?_
    refine stepOpt (·.HorizontalDilutionOfPrecision) fl 1 b _ 2 hp (by omega) k1 f6 fun p hp => ?_
    refine stepOpt (·.PositionDilutionOfPrecision) fl 2 b _ 2 hp (by omega) k2 f5 fun p hp => ?_
    refine stepQ (optByte_at (·.Satellites) fl 3 b _ k3 f4) ?_
    refine stepOpt (·.NavigationSystem) fl 4 b _ 2 hp (by omega) h f3 fun p hp => ?_
    exact ⟨_, _, rfl, f7, f6, f5, f4, f3, opt16_wire b fl 0 1 k0, opt16_wire b fl 1 _ k1, opt16_wire b fl 2 _ k2, opt8_wire b fl 3 _ k3, opt16_wire b fl 4 _ h⟩

set_option maxHeartbeats 400000 in
/-- C28 (partial), on the wire: for every complete counter subrecord the flags are the bits of the first byte, and the counters 3 to 8 are the
three-byte fields in order; counter 1 is, if counter 2 is present, the field of counter 2 (and counter 2 is never set). Missing: the right
assignment of the fields of counters 1 and 2. -/
theorem counters_wire_partial (b : Bytes) (h1 : 1 ≤ b.length) (fl : UInt8) (hfl : fl = byteAt b 0)
    (h : optOff fl 1 [(0, 3), (1, 3), (2, 3), (3, 3), (4, 3), (5, 3), (6, 3), (7, 3)] ≤ b.length) :
    ∃ e, SrCountersData.decode {} b = .ok e ∧
      e.CFE1 = bitText fl 0 ∧ e.CFE2 = bitText fl 1 ∧ e.CFE3 = bitText fl 2 ∧ e.CFE4 = bitText fl 3 ∧ e.CFE5 = bitText fl 4 ∧ e.CFE6 = bitText fl 5 ∧ e.CFE7 = bitText fl 6 ∧ e.CFE8 = bitText fl 7 ∧
      e.CN1.toNat = (if fl.toNat.testBit 1 then wireNat b (optOff fl 1 [(0, 3)]) 3 else optNat b fl 0 1 3) ∧ e.CN2 = 0 ∧
      e.CN3.toNat = optNat b fl 2 (optOff fl 1 [(0, 3), (1, 3)]) 3 ∧
      e.CN4.toNat = optNat b fl 3 (optOff fl 1 [(0, 3), (1, 3), (2, 3)]) 3 ∧
      e.CN5.toNat = optNat b fl 4 (optOff fl 1 [(0, 3), (1, 3), (2, 3), (3, 3)]) 3 ∧
      e.CN6.toNat = optNat b fl 5 (optOff fl 1 [(0, 3), (1, 3), (2, 3), (3, 3), (4, 3)]) 3 ∧
      e.CN7.toNat = optNat b fl 6 (optOff fl 1 [(0, 3), (1, 3), (2, 3), (3, 3), (4, 3), (5, 3)]) 3 ∧
      e.CN8.toNat = optNat b fl 7 (optOff fl 1 [(0, 3), (1, 3), (2, 3), (3, 3), (4, 3), (5, 3), (6, 3)]) 3 := by
  subst hfl
  simp only [optOff, List.foldl_cons, List.foldl_nil] at h ⊢
  obtain ⟨f0, f1, f2, f3, f4, f5, f6, f7⟩ := fmt_text1 (byteAt b 0)
  generalize hfl : byteAt b 0 = fl at *
  have k6 : 1 + (if fl.toNat.testBit 0 then 3 else 0) + (if fl.toNat.testBit 1 then 3 else 0) + (if fl.toNat.testBit 2 then 3 else 0) + (if fl.toNat.testBit 3 then 3 else 0) + (if fl.toNat.testBit 4 then 3 else 0) + (if fl.toNat.testBit 5 then 3 else 0) + (if fl.toNat.testBit 6 then 3 else 0) ≤ b.length := Nat.le_trans (Nat.le_add_right _ _) h
  have k5 : 1 + (if fl.toNat.testBit 0 then 3 else 0) + (if fl.toNat.testBit 1 then 3 else 0) + (if fl.toNat.testBit 2 then 3 else 0) + (if fl.toNat.testBit 3 then 3 else 0) + (if fl.toNat.testBit 4 then 3 else 0) + (if fl.toNat.testBit 5 then 3 else 0) ≤ b.length := Nat.le_trans (Nat.le_add_right _ _) k6
  have k4 : 1 + (if fl.toNat.testBit 0 then 3 else 0) + (if fl.toNat.testBit 1 then 3 else 0) + (if fl.toNat.testBit 2 then 3 else 0) + (if fl.toNat.testBit 3 then 3 else 0) + (if fl.toNat.testBit 4 then 3 else 0) ≤ b.length := Nat.le_trans (Nat.le_add_right _ _) k5
  have k3 : 1 + (if fl.toNat.testBit 0 then 3 else 0) + (if fl.toNat.testBit 1 then 3 else 0) + (if fl.toNat.testBit 2 then 3 else 0) + (if fl.toNat.testBit 3 then 3 else 0) ≤ b.length := Nat.le_trans (Nat.le_add_right _ _) k4
  have k2 : 1 + (if fl.toNat.testBit 0 then 3 else 0) + (if fl.toNat.testBit 1 then 3 else 0) + (if fl.toNat.testBit 2 then 3 else 0) ≤ b.length := Nat.le_trans (Nat.le_add_right _ _) k3
  have k1 : 1 + (if fl.toNat.testBit 0 then 3 else 0) + (if fl.toNat.testBit 1 then 3 else 0) ≤ b.length := Nat.le_trans (Nat.le_add_right _ _) k2
  have k0 : 1 + (if fl.toNat.testBit 0 then 3 else 0) ≤ b.length := Nat.le_trans (Nat.le_add_right _ _) k1
  apply run_ex
  unfold SrCountersData.decodeM
  refine stepQ (readByte_at _ b 0 (by omega)) ?_
  rw [hfl]
  refine stepQ (Dec.upd_apply _ _ _) ?_
  refine stepOpt (·.CN1) fl 0 b 1 3 rfl (by omega) k0 f7 fun p hp => ?_
  refine stepOpt (·.CN1) fl 1 b _ 3 hp (by omega) k1 f6 fun p hp => ?_
  refine stepOpt (·.CN3) fl 2 b _ 3 hp (by omega) k2 f5 fun p hp => ?_
  refine stepOpt (·.CN4) fl 3 b _ 3 hp (by omega) k3 f4 fun p hp => ?_
  refine stepOpt (·.CN5) fl 4 b _ 3 hp (by omega) k4 f3 fun p hp => ?_
  refine stepOpt (·.CN6) fl 5 b _ 3 hp (by omega) k5 f2 fun p hp => ?_
  refine stepOpt (·.CN7) fl 6 b _ 3 hp (by omega) k6 f1 fun p hp => ?_
  refine stepOpt (·.CN8) fl 7 b _ 3 hp (by omega) h f0 fun p hp => ?_
  refine ⟨_, _, rfl, ?_⟩
  refine ⟨f7, f6, f5, f4, f3, f2, f1, f0, ?_, ?_, ?_, ?_, ?_, ?_, ?_, ?_⟩
  · show (if fl.toNat.testBit 1 = true then u24 ((b.drop (1 + if fl.toNat.testBit 0 = true then 3 else 0)).take 3) else
      if fl.toNat.testBit 0 = true then u24 ((b.drop 1).take 3) else 0).toNat = _
    clear k2 k3 k4 k5 k6 h
    cases hb : fl.toNat.testBit 1 with
    | true =>
      rw [hb] at k1
      exact u24_wire b _ k1
    | false => exact opt24_wire b fl 0 1 k0
  · show (0 : UInt32) = 0
    rfl
  · exact opt24_wire b fl 2 _ k2
  · exact opt24_wire b fl 3 _ k3
  · exact opt24_wire b fl 4 _ k4
  · exact opt24_wire b fl 5 _ k5
  · exact opt24_wire b fl 6 _ k6
  · exact opt24_wire b fl 7 _ h

set_option maxHeartbeats 1000000 in
/-- C69, analog and digital sensors: presence flags of the additional digital inputs in the bits of byte 0, digital outputs in byte 1, presence flags of
the analog sensors in the bits of byte 2, then the announced inputs of one byte and sensors of three bytes in order of their number. -/
theorem adsensors_wire (b : Bytes) (h1 : 3 ≤ b.length) (fl fs : UInt8) (hfl : fl = byteAt b 0) (hfs : fs = byteAt b 2)
    (h : optOff fs (optOff fl 3 [(0, 1), (1, 1), (2, 1), (3, 1), (4, 1), (5, 1), (6, 1), (7, 1)]) [(0, 3), (1, 3), (2, 3), (3, 3), (4, 3), (5, 3), (6, 3), (7, 3)] ≤ b.length) :
    ∃ e, SrAdSensorsData.decode {} b = .ok e ∧ e.DOUT = byteAt b 1 ∧
      e.DIOE1 = bitText fl 0 ∧ e.DIOE2 = bitText fl 1 ∧ e.DIOE3 = bitText fl 2 ∧ e.DIOE4 = bitText fl 3 ∧ e.DIOE5 = bitText fl 4 ∧ e.DIOE6 = bitText fl 5 ∧ e.DIOE7 = bitText fl 6 ∧ e.DIOE8 = bitText fl 7 ∧
      e.ASFE1 = bitText fs 0 ∧ e.ASFE2 = bitText fs 1 ∧ e.ASFE3 = bitText fs 2 ∧ e.ASFE4 = bitText fs 3 ∧ e.ASFE5 = bitText fs 4 ∧ e.ASFE6 = bitText fs 5 ∧ e.ASFE7 = bitText fs 6 ∧ e.ASFE8 = bitText fs 7 ∧
      e.ADIO1.toNat = optNat b fl 0 (optOff fl 3 []) 1 ∧
      e.ADIO2.toNat = optNat b fl 1 (optOff fl 3 [(0, 1)]) 1 ∧
      e.ADIO3.toNat = optNat b fl 2 (optOff fl 3 [(0, 1), (1, 1)]) 1 ∧
      e.ADIO4.toNat = optNat b fl 3 (optOff fl 3 [(0, 1), (1, 1), (2, 1)]) 1 ∧
      e.ADIO5.toNat = optNat b fl 4 (optOff fl 3 [(0, 1), (1, 1), (2, 1), (3, 1)]) 1 ∧
      e.ADIO6.toNat = optNat b fl 5 (optOff fl 3 [(0, 1), (1, 1), (2, 1), (3, 1), (4, 1)]) 1 ∧
      e.ADIO7.toNat = optNat b fl 6 (optOff fl 3 [(0, 1), (1, 1), (2, 1), (3, 1), (4, 1), (5, 1)]) 1 ∧
      e.ADIO8.toNat = optNat b fl 7 (optOff fl 3 [(0, 1), (1, 1), (2, 1), (3, 1), (4, 1), (5, 1), (6, 1)]) 1 ∧
      e.ANS1.toNat = optNat b fs 0 (optOff fs (optOff fl 3 [(0, 1), (1, 1), (2, 1), (3, 1), (4, 1), (5, 1), (6, 1), (7, 1)]) []) 3 ∧
      e.ANS2.toNat = optNat b fs 1 (optOff fs (optOff fl 3 [(0, 1), (1, 1), (2, 1), (3, 1), (4, 1), (5, 1), (6, 1), (7, 1)]) [(0, 3)]) 3 ∧
      e.ANS3.toNat = optNat b fs 2 (optOff fs (optOff fl 3 [(0, 1), (1, 1), (2, 1), (3, 1), (4, 1), (5, 1), (6, 1), (7, 1)]) [(0, 3), (1, 3)]) 3 ∧
      e.ANS4.toNat = optNat b fs 3 (optOff fs (optOff fl 3 [(0, 1), (1, 1), (2, 1), (3, 1), (4, 1), (5, 1), (6, 1), (7, 1)]) [(0, 3), (1, 3), (2, 3)]) 3 ∧
      e.ANS5.toNat = optNat b fs 4 (optOff fs (optOff fl 3 [(0, 1), (1, 1), (2, 1), (3, 1), (4, 1), (5, 1), (6, 1), (7, 1)]) [(0, 3), (1, 3), (2, 3), (3, 3)]) 3 ∧
      e.ANS6.toNat = optNat b fs 5 (optOff fs (optOff fl 3 [(0, 1), (1, 1), (2, 1), (3, 1), (4, 1), (5, 1), (6, 1), (7, 1)]) [(0, 3), (1, 3), (2, 3), (3, 3), (4, 3)]) 3 ∧
      e.ANS7.toNat = optNat b fs 6 (optOff fs (optOff fl 3 [(0, 1), (1, 1), (2, 1), (3, 1), (4, 1), (5, 1), (6, 1), (7, 1)]) [(0, 3), (1, 3), (2, 3), (3, 3), (4, 3), (5, 3)]) 3 ∧
      e.ANS8.toNat = optNat b fs 7 (optOff fs (optOff fl 3 [(0, 1), (1, 1), (2, 1), (3, 1), (4, 1), (5, 1), (6, 1), (7, 1)]) [(0, 3), (1, 3), (2, 3), (3, 3), (4, 3), (5, 3), (6, 3)]) 3 := by
  subst hfl hfs
  simp only [optOff, List.foldl_cons, List.foldl_nil] at h ⊢
  obtain ⟨f0, f1, f2, f3, f4, f5, f6, f7⟩ := fmt_text1 (byteAt b 0)
  obtain ⟨g0, g1, g2, g3, g4, g5, g6, g7⟩ := fmt_text1 (byteAt b 2)
  generalize hfl : byteAt b 0 = fl at *
  generalize hfs : byteAt b 2 = fs at *
  have l6 : 3 + (if fl.toNat.testBit 0 then 1 else 0) + (if fl.toNat.testBit 1 then 1 else 0) + (if fl.toNat.testBit 2 then 1 else 0) + (if fl.toNat.testBit 3 then 1 else 0) + (if fl.toNat.testBit 4 then 1 else 0) + (if fl.toNat.testBit 5 then 1 else 0) + (if fl.toNat.testBit 6 then 1 else 0) + (if fl.toNat.testBit 7 then 1 else 0) + (if fs.toNat.testBit 0 then 3 else 0) + (if fs.toNat.testBit 1 then 3 else 0) + (if fs.toNat.testBit 2 then 3 else 0) + (if fs.toNat.testBit 3 then 3 else 0) + (if fs.toNat.testBit 4 then 3 else 0) + (if fs.toNat.testBit 5 then 3 else 0) + (if fs.toNat.testBit 6 then 3 else 0) ≤ b.length := Nat.le_trans (Nat.le_add_right _ _) h
  have l5 : 3 + (if fl.toNat.testBit 0 then 1 else 0) + (if fl.toNat.testBit 1 then 1 else 0) + (if fl.toNat.testBit 2 then 1 else 0) + (if fl.toNat.testBit 3 then 1 else 0) + (if fl.toNat.testBit 4 then 1 else 0) + (if fl.toNat.testBit 5 then 1 else 0) + (if fl.toNat.testBit 6 then 1 else 0) + (if fl.toNat.testBit 7 then 1 else 0) + (if fs.toNat.testBit 0 then 3 else 0) + (if fs.toNat.testBit 1 then 3 else 0) + (if fs.toNat.testBit 2 then 3 else 0) + (if fs.toNat.testBit 3 then 3 else 0) + (if fs.toNat.testBit 4 then 3 else 0) + (if fs.toNat.testBit 5 then 3 else 0) ≤ b.length := Nat.le_trans (Nat.le_add_right _ _) l6
  have l4 : 3 + (if fl.toNat.testBit 0 then 1 else 0) + (if fl.toNat.testBit 1 then 1 else 0) + (if fl.toNat.testBit 2 then 1 else 0) + (if fl.toNat.testBit 3 then 1 else 0) + (if fl.toNat.testBit 4 then 1 else 0) + (if fl.toNat.testBit 5 then 1 else 0) + (if fl.toNat.testBit 6 then 1 else 0) + (if fl.toNat.testBit 7 then 1 else 0) + (if fs.toNat.testBit 0 then 3 else 0) + (if fs.toNat.testBit 1 then 3 else 0) + (if fs.toNat.testBit 2 then 3 else 0) + (if fs.toNat.testBit 3 then 3 else 0) + (if fs.toNat.testBit 4 then 3 else 0) ≤ b.length := Nat.le_trans (Nat.le_add_right _ _) l5
  have l3 : 3 + (if fl.toNat.testBit 0 then 1 else 0) + (if fl.toNat.testBit 1 then 1 else 0) + (if fl.toNat.testBit 2 then 1 else 0) + (if fl.toNat.testBit 3 then 1 else 0) + (if fl.toNat.testBit 4 then 1 else 0) + (if fl.toNat.testBit 5 then 1 else 0) + (if fl.toNat.testBit 6 then 1 else 0) + (if fl.toNat.testBit 7 then 1 else 0) + (if fs.toNat.testBit 0 then 3 else 0) + (if fs.toNat.testBit 1 then 3 else 0) + (if fs.toNat.testBit 2 then 3 else 0) + (if fs.toNat.testBit 3 then 3 else 0) ≤ b.length := Nat.le_trans (Nat.le_add_right _ _) l4
  have l2 : 3 + (if fl.toNat.testBit 0 then 1 else 0) + (if fl.toNat.testBit 1 then 1 else 0) + (if fl.toNat.testBit 2 then 1 else 0) + (if fl.toNat.testBit 3 then 1 else 0) + (if fl.toNat.testBit 4 then 1 else 0) + (if fl.toNat.testBit 5 then 1 else 0) + (if fl.toNat.testBit 6 then 1 else 0) + (if fl.toNat.testBit 7 then 1 else 0) + (if fs.toNat.testBit 0 then 3 else 0) + (if fs.toNat.testBit 1 then 3 else 0) + (if fs.toNat.testBit 2 then 3 else 0) ≤ b.length := Nat.le_trans (Nat.le_add_right _ _) l3
  have l1 : 3 + (if fl.toNat.testBit 0 then 1 else 0) + (if fl.toNat.testBit 1 then 1 else 0) + (if fl.toNat.testBit 2 then 1 else 0) + (if fl.toNat.testBit 3 then 1 else 0) + (if fl.toNat.testBit 4 then 1 else 0) + (if fl.toNat.testBit 5 then 1 else 0) + (if fl.toNat.testBit 6 then 1 else 0) + (if fl.toNat.testBit 7 then 1 else 0) + (if fs.toNat.testBit 0 then 3 else 0) + (if fs.toNat.testBit 1 then 3 else 0) ≤ b.length := Nat.le_trans (Nat.le_add_right _ _) l2
  have l0 : 3 + (if fl.toNat.testBit 0 then 1 else 0) + (if fl.toNat.testBit 1 then 1 else 0) + (if fl.toNat.testBit 2 then 1 else 0) + (if fl.toNat.testBit 3 then 1 else 0) + (if fl.toNat.testBit 4 then 1 else 0) + (if fl.toNat.testBit 5 then 1 else 0) + (if fl.toNat.testBit 6 then 1 else 0) + (if fl.toNat.testBit 7 then 1 else 0) + (if fs.toNat.testBit 0 then 3 else 0) ≤ b.length := Nat.le_trans (Nat.le_add_right _ _) l1
  have k7 : 3 + (if fl.toNat.testBit 0 then 1 else 0) + (if fl.toNat.testBit 1 then 1 else 0) + (if fl.toNat.testBit 2 then 1 else 0) + (if fl.toNat.testBit 3 then 1 else 0) + (if fl.toNat.testBit 4 then 1 else 0) + (if fl.toNat.testBit 5 then 1 else 0) + (if fl.toNat.testBit 6 then 1 else 0) + (if fl.toNat.testBit 7 then 1 else 0) ≤ b.length := Nat.le_trans (Nat.le_add_right _ _) l0
  have k6 : 3 + (if fl.toNat.testBit 0 then 1 else 0) + (if fl.toNat.testBit 1 then 1 else 0) + (if fl.toNat.testBit 2 then 1 else 0) + (if fl.toNat.testBit 3 then 1 else 0) + (if fl.toNat.testBit 4 then 1 else 0) + (if fl.toNat.testBit 5 then 1 else 0) + (if fl.toNat.testBit 6 then 1 else 0) ≤ b.length := Nat.le_trans (Nat.le_add_right _ _) k7
  have k5 : 3 + (if fl.toNat.testBit 0 then 1 else 0) + (if fl.toNat.testBit 1 then 1 else 0) + (if fl.toNat.testBit 2 then 1 else 0) + (if fl.toNat.testBit 3 then 1 else 0) + (if fl.toNat.testBit 4 then 1 else 0) + (if fl.toNat.testBit 5 then 1 else 0) ≤ b.length := Nat.le_trans (Nat.le_add_right _ _) k6
  have k4 : 3 + (if fl.toNat.testBit 0 then 1 else 0) + (if fl.toNat.testBit 1 then 1 else 0) + (if fl.toNat.testBit 2 then 1 else 0) + (if fl.toNat.testBit 3 then 1 else 0) + (if fl.toNat.testBit 4 then 1 else 0) ≤ b.length := Nat.le_trans (Nat.le_add_right _ _) k5
  have k3 : 3 + (if fl.toNat.testBit 0 then 1 else 0) + (if fl.toNat.testBit 1 then 1 else 0) + (if fl.toNat.testBit 2 then 1 else 0) + (if fl.toNat.testBit 3 then 1 else 0) ≤ b.length := Nat.le_trans (Nat.le_add_right _ _) k4
  have k2 : 3 + (if fl.toNat.testBit 0 then 1 else 0) + (if fl.toNat.testBit 1 then 1 else 0) + (if fl.toNat.testBit 2 then 1 else 0) ≤ b.length := Nat.le_trans (Nat.le_add_right _ _) k3
  have k1 : 3 + (if fl.toNat.testBit 0 then 1 else 0) + (if fl.toNat.testBit 1 then 1 else 0) ≤ b.length := Nat.le_trans (Nat.le_add_right _ _) k2
  have k0 : 3 + (if fl.toNat.testBit 0 then 1 else 0) ≤ b.length := Nat.le_trans (Nat.le_add_right _ _) k1
  apply run_ex
  unfold SrAdSensorsData.decodeM
  refine stepQ (readByte_at _ b 0 (by omega)) ?_
  rw [hfl]
  refine stepQ (Dec.upd_apply _ _ _) ?_
  refine stepQ (readByteTo_at _ _ b 1 (by omega)) ?_
  refine stepQ (readByte_at _ b 2 (by omega)) ?_
  rw [hfs]
  refine stepQ (Dec.upd_apply _ _ _) ?_
  refine stepQ (optByte_at (·.ADIO1) fl 0 b 3 k0 f7) ?_
  refine stepQ (optByte_at (·.ADIO2) fl 1 b _ k1 f6) ?_
  refine stepQ (optByte_at (·.ADIO3) fl 2 b _ k2 f5) ?_
  refine stepQ (optByte_at (·.ADIO4) fl 3 b _ k3 f4) ?_
  refine stepQ (optByte_at (·.ADIO5) fl 4 b _ k4 f3) ?_
  refine stepQ (optByte_at (·.ADIO6) fl 5 b _ k5 f2) ?_
  refine stepQ (optByte_at (·.ADIO7) fl 6 b _ k6 f1) ?_
  refine stepQ (optByte_at (·.ADIO8) fl 7 b _ k7 f0) ?_
  refine stepOpt (·.ANS1) fs 0 b _ 3 rfl (by omega) l0 g7 fun p hp => ?_
  refine stepOpt (·.ANS2) fs 1 b _ 3 hp (by omega) l1 g6 fun p hp => ?_
  refine stepOpt (·.ANS3) fs 2 b _ 3 hp (by omega) l2 g5 fun p hp => ?_
  refine stepOpt (·.ANS4) fs 3 b _ 3 hp (by omega) l3 g4 fun p hp => ?_
  refine stepOpt (·.ANS5) fs 4 b _ 3 hp (by omega) l4 g3 fun p hp => ?_
  refine stepOpt (·.ANS6) fs 5 b _ 3 hp (by omega) l5 g2 fun p hp => ?_
  refine stepOpt (·.ANS7) fs 6 b _ 3 hp (by omega) l6 g1 fun p hp => ?_
  refine stepOpt (·.ANS8) fs 7 b _ 3 hp (by omega) h g0 fun p hp => ?_
  exact ⟨_, _, rfl, rfl, f7, f6, f5, f4, f3, f2, f1, f0, g7, g6, g5, g4, g3, g2, g1, g0,
    opt8_wire b fl 0 _ k0, opt8_wire b fl 1 _ k1, opt8_wire b fl 2 _ k2, opt8_wire b fl 3 _ k3, opt8_wire b fl 4 _ k4, opt8_wire b fl 5 _ k5, opt8_wire b fl 6 _ k6, opt8_wire b fl 7 _ k7,
    opt24_wire b fs 0 _ l0, opt24_wire b fs 1 _ l1, opt24_wire b fs 2 _ l2, opt24_wire b fs 3 _ l3, opt24_wire b fs 4 _ l4, opt24_wire b fs 5 _ l5, opt24_wire b fs 6 _ l6, opt24_wire b fs 7 _ h⟩

/-- C69, terminal identity: identifier in bytes 0 to 3, flags in byte 4, then home dispatcher (bit 0), IMEI (bit 1, 15 bytes), IMSI (bit 2, 16 bytes),
language (bit 3, 3 bytes), network (bit 5, 3 bytes), buffer size (bit 6), mobile number (bit 7, 15 bytes) as announced. -/
theorem term_wire (b : Bytes) (h1 : 5 ≤ b.length) (fl : UInt8) (hfl : fl = byteAt b 4)
    (h : optOff fl 5 [(0, 2), (1, 15), (2, 16), (3, 3), (5, 3), (6, 2), (7, 15)] ≤ b.length) :
    ∃ e, SrTermIdentity.decode {} b = .ok e ∧ e.TerminalIdentifier.toNat = wireNat b 0 4 ∧
      e.HDIDE = bitText fl 0 ∧ e.IMEIE = bitText fl 1 ∧ e.IMSIE = bitText fl 2 ∧ e.LNGCE = bitText fl 3 ∧ e.SSRA = bitText fl 4 ∧
      e.NIDE = bitText fl 5 ∧ e.BSE = bitText fl 6 ∧ e.MNE = bitText fl 7 ∧
      e.HomeDispatcherIdentifier.toNat = optNat b fl 0 (optOff fl 5 []) 2 ∧
      e.IMEI = optBytes b fl 1 (optOff fl 5 [(0, 2)]) 15 ∧
      e.IMSI = optBytes b fl 2 (optOff fl 5 [(0, 2), (1, 15)]) 16 ∧
      e.LanguageCode = optBytes b fl 3 (optOff fl 5 [(0, 2), (1, 15), (2, 16)]) 3 ∧
      e.NetworkIdentifier = optBytes b fl 5 (optOff fl 5 [(0, 2), (1, 15), (2, 16), (3, 3)]) 3 ∧
      e.BufferSize.toNat = optNat b fl 6 (optOff fl 5 [(0, 2), (1, 15), (2, 16), (3, 3), (5, 3)]) 2 ∧
      e.MobileNumber = optBytes b fl 7 (optOff fl 5 [(0, 2), (1, 15), (2, 16), (3, 3), (5, 3), (6, 2)]) 15 := by
  subst hfl
  simp only [optOff, List.foldl_cons, List.foldl_nil] at h ⊢
  obtain ⟨f0, f1, f2, f3, f4, f5, f6, f7⟩ := fmt_text1 (byteAt b 4)
  generalize hfl : byteAt b 4 = fl at *
  have k0 : 5 + (if fl.toNat.testBit 0 then 2 else 0) ≤ b.length := by omega
  have k1 : 5 + (if fl.toNat.testBit 0 then 2 else 0) + (if fl.toNat.testBit 1 then 15 else 0) ≤ b.length := by omega
  have k2 : 5 + (if fl.toNat.testBit 0 then 2 else 0) + (if fl.toNat.testBit 1 then 15 else 0) + (if fl.toNat.testBit 2 then 16 else 0) ≤ b.length := by omega
  have k3 : 5 + (if fl.toNat.testBit 0 then 2 else 0) + (if fl.toNat.testBit 1 then 15 else 0) + (if fl.toNat.testBit 2 then 16 else 0) + (if fl.toNat.testBit 3 then 3 else 0) ≤ b.length := by omega
  have k4 : 5 + (if fl.toNat.testBit 0 then 2 else 0) + (if fl.toNat.testBit 1 then 15 else 0) + (if fl.toNat.testBit 2 then 16 else 0) + (if fl.toNat.testBit 3 then 3 else 0) + (if fl.toNat.testBit 5 then 3 else 0) ≤ b.length := by omega
  have k5 : 5 + (if fl.toNat.testBit 0 then 2 else 0) + (if fl.toNat.testBit 1 then 15 else 0) + (if fl.toNat.testBit 2 then 16 else 0) + (if fl.toNat.testBit 3 then 3 else 0) + (if fl.toNat.testBit 5 then 3 else 0) + (if fl.toNat.testBit 6 then 2 else 0) ≤ b.length := by omega
  apply run_ex
  unfold SrTermIdentity.decodeM
  refine stepQ (read_at (zeros 4) _ b 0 4 rfl (by omega) (by omega)) ?_
  refine stepQ (Dec.upd_apply _ _ _) ?_
  refine stepQ (readByte_at _ b 4 (by omega)) ?_
  rw [hfl]
  refine stepQ (Dec.upd_apply _ _ _) ?_
  refine stepOpt (·.HomeDispatcherIdentifier) fl 0 b 5 2 rfl (by omega) k0 f7 fun p hp => ?_
  refine stepOpt (·.IMEI) fl 1 b _ 15 rfl (by omega) k1 f6 fun p hp => ?_
  refine stepOpt (·.IMSI) fl 2 b _ 16 rfl (by omega) k2 f5 fun p hp => ?_
  refine stepOpt (·.LanguageCode) fl 3 b _ 3 rfl (by omega) k3 f4 fun p hp => ?_
  refine stepOpt (·.NetworkIdentifier) fl 5 b _ 3 rfl (by omega) k4 f2 fun p hp => ?_
  refine stepOpt (·.BufferSize) fl 6 b _ 2 rfl (by omega) k5 f1 fun p hp => ?_
  refine stepOpt (·.MobileNumber) fl 7 b _ 15 rfl (by omega) h f0 fun p hp => ?_
  exact ⟨_, _, rfl, u32_wire b 0 (by omega), f7, f6, f5, f4, f3, f2, f1, f0,
    opt16_wire b fl 0 _ k0, rfl, rfl, rfl, rfl, opt16_wire b fl 6 _ k5, rfl⟩

/-! ### authentication: NUL-terminated texts -/

theorem readNul_ok_iff {σ : Type} (s s' : σ) (r t r' : Bytes) : readNul s r = .ok t s' r' ↔ s' = s ∧ (0 : UInt8) ∉ t ∧ r = t ++ 0 :: r' := by
  constructor
  · intro h
    by_cases hm : (0 : UInt8) ∈ r
    · obtain ⟨x, y, rfl, hx⟩ := List.eq_append_cons_of_mem hm
      rw [readNul_append s x y hx] at h
      injection h with h1 h2 h3
      subst h1 h2 h3
      exact ⟨rfl, hx, rfl⟩
    · unfold readNul at h
      rw [if_neg hm] at h
      cases h
  · rintro ⟨rfl, hz, rfl⟩
    exact readNul_append _ _ _ hz

/-- C69, authentication: exactly the byte strings name NUL password NUL and name NUL password NUL sequence NUL rest are accepted, and these texts are
the fields. -/
theorem auth_wire (b : Bytes) (e : SrAuthInfo) : SrAuthInfo.decode {} b = .ok e ↔
    (0 : UInt8) ∉ e.UserName ∧ (0 : UInt8) ∉ e.UserPassword ∧
      (b = e.UserName ++ 0 :: (e.UserPassword ++ [0]) ∧ e.ServerSequence = [] ∨
        (0 : UInt8) ∉ e.ServerSequence ∧ ∃ rest, b = e.UserName ++ 0 :: (e.UserPassword ++ 0 :: (e.ServerSequence ++ 0 :: rest))) := by
  constructor
  · intro h
    unfold SrAuthInfo.decode Dec.run at h
    split at h
    · rename_i u s r hm
      injection h with h; subst h
      unfold SrAuthInfo.decodeM at hm
      obtain ⟨t1, s1, r1, h1, hm1⟩ := Dec.bind_inv hm
      obtain ⟨rfl, hz1, rfl⟩ := (readNul_ok_iff _ _ _ _ _).1 h1
      rw [Dec.bind_ok (Dec.upd_apply _ _ _)] at hm1
      obtain ⟨t2, s2, r2, h2, hm2⟩ := Dec.bind_inv hm1
      obtain ⟨rfl, hz2, rfl⟩ := (readNul_ok_iff _ _ _ _ _).1 h2
      rw [Dec.bind_ok (Dec.upd_apply _ _ _), Dec.bind_ok (Dec.unread_apply _ _)] at hm2
      cases r2 with
      | nil =>
        have hf : decide (([] : Bytes).length > 0) = false := rfl
        rw [hf, Dec.when_false] at hm2
        injection hm2 with _ hm2 _
        subst hm2
        exact ⟨hz1, hz2, .inl ⟨rfl, rfl⟩⟩
      | cons a q =>
        have hf : decide ((a :: q).length > 0) = true := by simp
        rw [hf, Dec.when_true] at hm2
        obtain ⟨t3, s3, r3, h3, hm3⟩ := Dec.bind_inv hm2
        obtain ⟨rfl, hz3, hq⟩ := (readNul_ok_iff _ _ _ _ _).1 h3
        rw [Dec.upd_apply] at hm3
        injection hm3 with _ hm3 _
        subst hm3
        exact ⟨hz1, hz2, .inr ⟨hz3, r3, by rw [hq]⟩⟩
    all_goals cases h
  · obtain ⟨u, p, s⟩ := e
    rintro ⟨hU, hP, h⟩
    dsimp only at hU hP h
    obtain ⟨rfl, rfl⟩ | ⟨hS, rest, rfl⟩ := h
    · apply Dec.run_of_ok (u := ()) (r := [])
      unfold SrAuthInfo.decodeM
      refine Dec.step (readNul_append _ u _ hU) ?_
      refine Dec.step (Dec.upd_apply _ _ _) ?_
      refine Dec.step (readNul_append _ p _ hP) ?_
      simp [Dec.bind_apply]
    · apply Dec.run_of_ok (u := ()) (r := rest)
      unfold SrAuthInfo.decodeM
      refine Dec.step (readNul_append _ u _ hU) ?_
      refine Dec.step (Dec.upd_apply _ _ _) ?_
      refine Dec.step (readNul_append _ p _ hP) ?_
      refine Dec.step (Dec.upd_apply _ _ _) ?_
      refine Dec.step (Dec.unread_apply _ _) ?_
      have hf : decide ((s ++ 0 :: rest).length > 0) = true := by simp
      rw [hf, Dec.when_true]
      refine Dec.step (readNul_append _ s rest hS) ?_
      simp

/-! ### non-vacuity -/

/-- counters: flags 0x15 announce counters 1, 3 and 5 (10 bytes) -/
example : let b : Bytes := [0x15, 1, 2, 3, 4, 5, 6, 7, 8, 9]
    1 ≤ b.length ∧ optOff (byteAt b 0) 1 [(0, 3), (1, 3), (2, 3), (3, 3), (4, 3), (5, 3), (6, 3), (7, 3)] ≤ b.length ∧
      optNat b (byteAt b 0) 2 (optOff (byteAt b 0) 1 [(0, 3), (1, 3)]) 3 = 4 + 256 * 5 + 65536 * 6 := by decide

/-- sensors: one additional input and the analog sensors 2 and 8 -/
example : let b : Bytes := [0x02, 9, 0x82, 7, 1, 0, 0, 2, 0, 0]
    3 ≤ b.length ∧ optOff (byteAt b 2) (optOff (byteAt b 0) 3 [(0, 1), (1, 1), (2, 1), (3, 1), (4, 1), (5, 1), (6, 1), (7, 1)])
      [(0, 3), (1, 3), (2, 3), (3, 3), (4, 3), (5, 3), (6, 3), (7, 3)] ≤ b.length ∧
      optNat b (byteAt b 0) 1 (optOff (byteAt b 0) 3 [(0, 1)]) 1 = 7 := by decide

/-- extended position: HDOP and satellites -/
example : let b : Bytes := [0x0A, 0x10, 0x27, 12]
    1 ≤ b.length ∧ optOff (byteAt b 0) 1 [(0, 2), (1, 2), (2, 2), (3, 1), (4, 2)] ≤ b.length ∧ optNat b (byteAt b 0) 1 1 2 = 10000 := by decide

/-- terminal identity: IMEI and buffer size -/
example : let b : Bytes := [1, 0, 0, 0, 0x42] ++ List.replicate 15 0x31 ++ [0, 4]
    5 ≤ b.length ∧ optOff (byteAt b 4) 5 [(0, 2), (1, 15), (2, 16), (3, 3), (5, 3), (6, 2), (7, 15)] ≤ b.length ∧
      optNat b (byteAt b 4) 6 (optOff (byteAt b 4) 5 [(0, 2), (1, 15), (2, 16), (3, 3), (5, 3)]) 2 = 1024 := by decide

/-- authentication -/
example : SrAuthInfo.decode {} [55, 0, 49, 50, 0] = .ok ⟨[55], [49, 50], []⟩ := (auth_wire _ _).2 ⟨by decide, by decide, .inl (by decide)⟩

end Egts
