import Verif.Lemmas.StorageRecord
import Verif.Spec.ProtoWire
set_option autoImplicit false
/- C80: what EGTS_SR_EGTSPLUS_DATA looks like on the wire, message by message, as docs/egts_sr_egtsplus_data.proto says.
Written by a script from the .proto file alone (numbers, types and names; the model is written from the tags of the Go code). -/
namespace Egts
open PB Proto

namespace PB
open Proto

/-- equal, unless the specified bytes are more than any length field can count -/
def Agree (x y : Bytes) : Prop := y.length < 18446744073709551616 → x = y

theorem Agree.refl (x : Bytes) : Agree x x := fun _ => rfl
theorem Agree.append {a a' b b' : Bytes} (h : Agree a a') (k : Agree b b') : Agree (a ++ b) (a' ++ b') := by
  intro hl
  rw [List.length_append] at hl
  rw [h (by omega), k (by omega)]

theorem putVarint_eq (k n : Nat) (h : n < 128 ^ k) (hk : 0 < k) : putVarint k n = base128 n := by
  induction k generalizing n with
  | zero => omega
  | succ k ih =>
    rw [putVarint, base128]
    by_cases hn : n < 128
    · rw [if_pos hn, if_pos hn]
    · rw [if_neg hn, if_neg hn]
      cases k with
      | zero => simp at h; omega
      | succ k =>
        rw [ih (n / 128) (by rw [Nat.div_lt_iff_lt_mul (by omega), ← Nat.pow_succ]; exact h) (by omega), Nat.add_comm 128]

theorem varint_eq (n : Nat) (h : n < 18446744073709551616) : varint n = base128 n :=
  putVarint_eq 10 n (by norm_num; omega) (by omega)

theorem base128_length (n : Nat) : 0 < (base128 n).length := by
  rw [base128]; split <;> simp

theorem int32_range (n : Int32) : -2147483648 ≤ n.toInt ∧ n.toInt < 2147483648 := ⟨n.le_toInt, n.toInt_lt⟩

theorem putFixed32_eq (n : UInt32) : putFixed32 n = leBytes 4 n.toNat := by
  have h : ∀ m : Nat, UInt8.ofNat m = UInt8.ofNat (m % 256) := fun m => UInt8.toNat_inj.mp (by simp)
  simp only [putFixed32, leBytes]
  rw [h n.toNat, h (n.toNat / 256), h (n.toNat / 65536), h (n.toNat / 16777216)]
  simp only [Nat.div_div_eq_div_mul]

theorem toUInt32_toNat (n : Int32) : n.toUInt32.toNat = if n.toInt < 0 then 2 ^ 32 - n.toInt.natAbs else n.toInt.natAbs := by
  have hr := int32_range n
  have h1 : (n.toUInt32.toNat : Int) = n.toInt % 4294967296 := by
    have h : n.toUInt32.toBitVec = n.toBitVec := rfl
    have : n.toInt = n.toBitVec.toInt := rfl
    rw [this]
    show ((n.toBitVec.toNat : Nat) : Int) = _
    rw [BitVec.toInt_eq_toNat_bmod]
    have := n.toBitVec.isLt
    rw [Int.bmod_def]
    split <;> omega
  split <;> omega

theorem putVal_eq (t : Ty) (v : Val) : Agree (putVal t v) (value t v) := by
  intro hl
  cases t <;> cases v <;> try rfl
  · rename_i n
    exact varint_eq _ (by have := n.toNat_lt; omega)
  · rename_i n
    have hr := int32_range n
    show varint (zigzag n) = base128 _
    have : zigzag n = if n.toInt < 0 then 2 * n.toInt.natAbs - 1 else 2 * n.toInt.natAbs := by
      unfold zigzag; split <;> split <;> omega
    rw [← this]
    apply varint_eq
    rw [this]; split <;> omega
  · rename_i x
    cases x <;> rfl
  · rename_i n
    have hr := int32_range n
    show varint _ = base128 _
    have : (n.toInt % 18446744073709551616).toNat = if n.toInt < 0 then 2 ^ 64 - n.toInt.natAbs else n.toInt.natAbs := by
      split <;> omega
    rw [this]
    apply varint_eq
    split <;> omega
  · exact putFixed32_eq _
  · rename_i n
    show putFixed32 n.toUInt32 = _
    rw [putFixed32_eq, toUInt32_toNat]; rfl
  · exact putFixed32_eq _
  · rename_i x
    have : x.length < 18446744073709551616 := by
      have : (value .bytes (.s x)).length = (base128 x.length).length + x.length := by simp [value]
      omega
    show varint x.length ++ x = base128 x.length ++ x
    rw [varint_eq _ this]

theorem tag_eq (num wt : Nat) (h : num < 1000 ∧ wt < 8) : tag num wt = key num wt := by
  unfold tag key
  rw [varint_eq _ (by omega), Nat.mul_comm]

theorem wire_eq (t : Ty) : t.wire = wireType t := by cases t <;> rfl

theorem field_eq (n : Nat) (t : Ty) (v : Option Val) (hn : n < 1000) :
    Agree (match v with | none => [] | some v => tag n t.wire ++ putVal t v) (optional n t v) := by
  cases v with
  | none => exact Agree.refl _
  | some v =>
    show Agree (tag n t.wire ++ putVal t v) (key n (wireType t) ++ value t v)
    rw [wire_eq, tag_eq n _ ⟨hn, by cases t <;> decide⟩]
    exact (Agree.refl _).append (putVal_eq t v)

theorem putSubFields_step {n : Nat} {t : Ty} {sch : SubSchema} {v : Option Val} {vals : List (Option Val)} {u b : Bytes} (hn : n < 1000)
    (h : Agree (putSubFields sch vals ++ u) b) : Agree (putSubFields ((n, t) :: sch) (v :: vals) ++ u) (optional n t v ++ b) := by
  have : putSubFields ((n, t) :: sch) (v :: vals) ++ u =
      (match v with | none => [] | some v => tag n t.wire ++ putVal t v) ++ (putSubFields sch vals ++ u) := by
    cases v <;> simp [putSubFields]
  rw [this]
  exact (field_eq n t v hn).append h
theorem putSubFields_end (u : Bytes) : Agree (putSubFields [] [] ++ u) u := Agree.refl _

theorem putSlot_one (n : Nat) (t : Ty) (v : Option Val) (hn : n < 1000) : Agree (putSlot n (.one t) (.one v)) (optional n t v) := by
  have := field_eq n t v hn
  cases v <;> exact this

theorem flatMap_agree {T : Type} (f g : T → Bytes) (h : ∀ x, Agree (f x) (g x)) (l : List T) : Agree (l.flatMap f) (l.flatMap g) := by
  induction l with
  | nil => exact Agree.refl _
  | cons x l ih => rw [List.flatMap_cons, List.flatMap_cons]; exact (h x).append ih

theorem putSlot_msgs {T : Type} (n : Nat) (sch : SubSchema) (toSub : T → Sub) (wire : T → Bytes) (hn : n < 1000)
    (h : ∀ m, Agree (putSub sch (toSub m)) (wire m)) (l : List T) :
    Agree (putSlot n (.msgs sch) (.msgs (l.map toSub))) (repeatedMsg n wire l) := by
  have e : putSlot n (.msgs sch) (.msgs (l.map toSub)) = l.flatMap fun m => tag n 2 ++ putBytes (putSub sch (toSub m)) := by
    simp [putSlot, List.flatMap_map]
  rw [e]
  apply flatMap_agree
  intro m
  rw [tag_eq n 2 ⟨hn, by omega⟩]
  apply (Agree.refl _).append
  intro hl
  rw [List.length_append] at hl
  show varint _ ++ _ = _
  rw [h m (by omega), varint_eq _ (by omega)]

theorem putSlot_enums (n : Nat) (l : List Int32) (hn : n < 1000) : Agree (putSlot n .enums (.enums l)) (repeatedEnum n l) := by
  apply flatMap_agree
  intro x
  rw [tag_eq n 0 ⟨hn, by omega⟩]
  exact (Agree.refl _).append (putVal_eq _ _)

theorem putFields_cons (n : Nat) (k : Field) (sch : Schema) (v : Slot) (vals : List Slot) :
    putFields ((n, k) :: sch) (v :: vals) = putSlot n k v ++ putFields sch vals := rfl
theorem putFields_step {n : Nat} {k : Field} {sch : Schema} {v : Slot} {vals : List Slot} {u a b : Bytes}
    (h1 : Agree (putSlot n k v) a) (h2 : Agree (putFields sch vals ++ u) b) :
    Agree (putFields ((n, k) :: sch) (v :: vals) ++ u) (a ++ b) := by
  rw [putFields_cons, List.append_assoc]
  exact h1.append h2
theorem putFields_end (u : Bytes) : Agree (putFields [] [] ++ u) u := Agree.refl _
end PB

/-- message sens_accelerometer_data, docs/egts_sr_egtsplus_data.proto:123-133 -/
def SensAccelerometerData.wire (m : SensAccelerometerData) : Bytes :=
  optional 1 .uint32 (m.SensNum.map .u) ++
  optional 2 .bytes (m.Buf.map .s) ++
  optional 3 .uint32 (m.Atm.map .u) ++
  optional 4 .uint32 (m.Frequency.map .u) ++
  optional 5 .uint32 (m.Range.map .u) ++
  optional 6 .uint32 (m.Format.map .u) ++
  optional 7 .uint32 (m.Zlib.map .u) ++
  m.XXX_unrecognized

theorem SensAccelerometerData.putSub_wire (m : SensAccelerometerData) : Agree (PB.putSub SensAccelerometerData.schema m.toSub) m.wire := by
  unfold PB.putSub SensAccelerometerData.schema SensAccelerometerData.toSub SensAccelerometerData.wire
  simp only [List.append_assoc]
  repeat' first
    | exact putSubFields_end _
    | refine putSubFields_step (by decide) ?_

/-- message sens_ain_ain_value, docs/egts_sr_egtsplus_data.proto:136-141 -/
def SensAinAinValue.wire (m : SensAinAinValue) : Bytes :=
  optional 1 .uint32 (m.SensNum.map .u) ++
  optional 2 .uint32 (m.Mv.map .u) ++
  m.XXX_unrecognized

theorem SensAinAinValue.putSub_wire (m : SensAinAinValue) : Agree (PB.putSub SensAinAinValue.schema m.toSub) m.wire := by
  unfold PB.putSub SensAinAinValue.schema SensAinAinValue.toSub SensAinAinValue.wire
  simp only [List.append_assoc]
  repeat' first
    | exact putSubFields_end _
    | refine putSubFields_step (by decide) ?_

/-- message sens_buffer_data, docs/egts_sr_egtsplus_data.proto:144-150 -/
def SensBufferData.wire (m : SensBufferData) : Bytes :=
  optional 1 .uint32 (m.SensNum.map .u) ++
  optional 2 .bytes (m.Data.map .s) ++
  optional 3 .bool (m.IsPacked.map .b) ++
  m.XXX_unrecognized

theorem SensBufferData.putSub_wire (m : SensBufferData) : Agree (PB.putSub SensBufferData.schema m.toSub) m.wire := by
  unfold PB.putSub SensBufferData.schema SensBufferData.toSub SensBufferData.wire
  simp only [List.append_assoc]
  repeat' first
    | exact putSubFields_end _
    | refine putSubFields_step (by decide) ?_

/-- message sens_button_press_counter, docs/egts_sr_egtsplus_data.proto:153-158 -/
def SensButtonPressCounter.wire (m : SensButtonPressCounter) : Bytes :=
  optional 1 .uint32 (m.SensNum.map .u) ++
  optional 2 .bool (m.State.map .b) ++
  m.XXX_unrecognized

theorem SensButtonPressCounter.putSub_wire (m : SensButtonPressCounter) : Agree (PB.putSub SensButtonPressCounter.schema m.toSub) m.wire := by
  unfold PB.putSub SensButtonPressCounter.schema SensButtonPressCounter.toSub SensButtonPressCounter.wire
  simp only [List.append_assoc]
  repeat' first
    | exact putSubFields_end _
    | refine putSubFields_step (by decide) ?_

/-- message sens_can_log_data, docs/egts_sr_egtsplus_data.proto:162-180 -/
def SensCanLogData.wire (m : SensCanLogData) : Bytes :=
  optional 1 .uint32 (m.SensNum.map .u) ++
  optional 2 .uint32 (m.FlagSecurityState.map .u) ++
  optional 3 .uint32 (m.FlagAlarm.map .u) ++
  optional 4 .uint32 (m.EngineTimeAll.map .u) ++
  optional 5 .uint32 (m.EngineTurnSpeed.map .u) ++
  optional 6 .sint32 (m.EngineTemperature.map .i) ++
  optional 7 .uint32 (m.FuelConsumptionAll.map .u) ++
  optional 8 .uint32 (m.FuelLevel.map .u) ++
  optional 9 .uint32 (m.TrackAll.map .u) ++
  optional 10 .uint32 (m.Speed.map .u) ++
  optional 11 .uint32 (m.PressureAxis_1.map .u) ++
  optional 12 .uint32 (m.PressureAxis_2.map .u) ++
  optional 13 .uint32 (m.PressureAxis_3.map .u) ++
  optional 14 .uint32 (m.PressureAxis_4.map .u) ++
  optional 15 .uint32 (m.PressureAxis_5.map .u) ++
  m.XXX_unrecognized

theorem SensCanLogData.putSub_wire (m : SensCanLogData) : Agree (PB.putSub SensCanLogData.schema m.toSub) m.wire := by
  unfold PB.putSub SensCanLogData.schema SensCanLogData.toSub SensCanLogData.wire
  simp only [List.append_assoc]
  repeat' first
    | exact putSubFields_end _
    | refine putSubFields_step (by decide) ?_

/-- message sens_can_log_tmp_data_ext, docs/egts_sr_egtsplus_data.proto:183-189 -/
def SensCanLogTmpDataExt.wire (m : SensCanLogTmpDataExt) : Bytes :=
  optional 1 .uint32 (m.SensNum.map .u) ++
  optional 2 .uint32 (m.FlagsHigh.map .u) ++
  optional 3 .uint32 (m.FlagsLow.map .u) ++
  m.XXX_unrecognized

theorem SensCanLogTmpDataExt.putSub_wire (m : SensCanLogTmpDataExt) : Agree (PB.putSub SensCanLogTmpDataExt.schema m.toSub) m.wire := by
  unfold PB.putSub SensCanLogTmpDataExt.schema SensCanLogTmpDataExt.toSub SensCanLogTmpDataExt.wire
  simp only [List.append_assoc]
  repeat' first
    | exact putSubFields_end _
    | refine putSubFields_step (by decide) ?_

/-- message sens_counter_count, docs/egts_sr_egtsplus_data.proto:192-197 -/
def SensCounterCount.wire (m : SensCounterCount) : Bytes :=
  optional 1 .uint32 (m.SensNum.map .u) ++
  optional 2 .uint32 (m.Value.map .u) ++
  m.XXX_unrecognized

theorem SensCounterCount.putSub_wire (m : SensCounterCount) : Agree (PB.putSub SensCounterCount.schema m.toSub) m.wire := by
  unfold PB.putSub SensCounterCount.schema SensCounterCount.toSub SensCounterCount.wire
  simp only [List.append_assoc]
  repeat' first
    | exact putSubFields_end _
    | refine putSubFields_step (by decide) ?_

/-- message sens_crash_data, docs/egts_sr_egtsplus_data.proto:200-206 -/
def SensCrashData.wire (m : SensCrashData) : Bytes :=
  optional 1 .uint32 (m.SensNum.map .u) ++
  optional 2 .uint32 (m.Energy.map .u) ++
  optional 3 .bool (m.IsOverturned.map .b) ++
  m.XXX_unrecognized

theorem SensCrashData.putSub_wire (m : SensCrashData) : Agree (PB.putSub SensCrashData.schema m.toSub) m.wire := by
  unfold PB.putSub SensCrashData.schema SensCrashData.toSub SensCrashData.wire
  simp only [List.append_assoc]
  repeat' first
    | exact putSubFields_end _
    | refine putSubFields_step (by decide) ?_

/-- message sens_dins_flags, docs/egts_sr_egtsplus_data.proto:209-215 -/
def SensDinsFlags.wire (m : SensDinsFlags) : Bytes :=
  optional 1 .uint32 (m.SensNum.map .u) ++
  optional 2 .uint32 (m.Device.map .u) ++
  optional 3 .uint32 (m.External.map .u) ++
  m.XXX_unrecognized

theorem SensDinsFlags.putSub_wire (m : SensDinsFlags) : Agree (PB.putSub SensDinsFlags.schema m.toSub) m.wire := by
  unfold PB.putSub SensDinsFlags.schema SensDinsFlags.toSub SensDinsFlags.wire
  simp only [List.append_assoc]
  repeat' first
    | exact putSubFields_end _
    | refine putSubFields_step (by decide) ?_

/-- message sens_douts_flags, docs/egts_sr_egtsplus_data.proto:218-224 -/
def SensDoutsFlags.wire (m : SensDoutsFlags) : Bytes :=
  optional 1 .uint32 (m.SensNum.map .u) ++
  optional 2 .uint32 (m.Device.map .u) ++
  optional 3 .uint32 (m.External.map .u) ++
  m.XXX_unrecognized

theorem SensDoutsFlags.putSub_wire (m : SensDoutsFlags) : Agree (PB.putSub SensDoutsFlags.schema m.toSub) m.wire := by
  unfold PB.putSub SensDoutsFlags.schema SensDoutsFlags.toSub SensDoutsFlags.wire
  simp only [List.append_assoc]
  repeat' first
    | exact putSubFields_end _
    | refine putSubFields_step (by decide) ?_

/-- message sens_fmeter_frequency, docs/egts_sr_egtsplus_data.proto:227-232 -/
def SensFmeterFrequency.wire (m : SensFmeterFrequency) : Bytes :=
  optional 1 .uint32 (m.SensNum.map .u) ++
  optional 2 .uint32 (m.Value.map .u) ++
  m.XXX_unrecognized

theorem SensFmeterFrequency.putSub_wire (m : SensFmeterFrequency) : Agree (PB.putSub SensFmeterFrequency.schema m.toSub) m.wire := by
  unfold PB.putSub SensFmeterFrequency.schema SensFmeterFrequency.toSub SensFmeterFrequency.wire
  simp only [List.append_assoc]
  repeat' first
    | exact putSubFields_end _
    | refine putSubFields_step (by decide) ?_

/-- message sens_fuel_level, docs/egts_sr_egtsplus_data.proto:235-244 -/
def SensFuelLevel.wire (m : SensFuelLevel) : Bytes :=
  optional 1 .uint32 (m.SensNum.map .u) ++
  optional 2 .float (m.Value.map .u) ++
  optional 3 .uint32 (m.Parrots.map .u) ++
  optional 4 .uint32 (m.Unit.map .u) ++
  optional 5 .uint32 (m.T.map .u) ++
  optional 6 .uint32 (m.Status.map .u) ++
  m.XXX_unrecognized

theorem SensFuelLevel.putSub_wire (m : SensFuelLevel) : Agree (PB.putSub SensFuelLevel.schema m.toSub) m.wire := by
  unfold PB.putSub SensFuelLevel.schema SensFuelLevel.toSub SensFuelLevel.wire
  simp only [List.append_assoc]
  repeat' first
    | exact putSubFields_end _
    | refine putSubFields_step (by decide) ?_

/-- message sens_gsm_cell_monotoring_cell_monitoring, docs/egts_sr_egtsplus_data.proto:247-257 -/
def SensGsmCellMonotoringCellMonitoring.wire (m : SensGsmCellMonotoringCellMonitoring) : Bytes :=
  optional 1 .uint32 (m.SensNum.map .u) ++
  optional 2 .uint32 (m.Mcc.map .u) ++
  optional 3 .uint32 (m.Mnc.map .u) ++
  optional 4 .bytes (m.Lac.map .s) ++
  optional 5 .bytes (m.Cid.map .s) ++
  optional 6 .bytes (m.Rssi.map .s) ++
  optional 7 .bytes (m.TimeAdv.map .s) ++
  m.XXX_unrecognized

theorem SensGsmCellMonotoringCellMonitoring.putSub_wire (m : SensGsmCellMonotoringCellMonitoring) : Agree (PB.putSub SensGsmCellMonotoringCellMonitoring.schema m.toSub) m.wire := by
  unfold PB.putSub SensGsmCellMonotoringCellMonitoring.schema SensGsmCellMonotoringCellMonitoring.toSub SensGsmCellMonotoringCellMonitoring.wire
  simp only [List.append_assoc]
  repeat' first
    | exact putSubFields_end _
    | refine putSubFields_step (by decide) ?_

/-- message sens_nd_nav_data, docs/egts_sr_egtsplus_data.proto:260-273 -/
def SensNdNavData.wire (m : SensNdNavData) : Bytes :=
  optional 1 .uint32 (m.SensNum.map .u) ++
  optional 2 .sfixed32 (m.Longitude.map .i) ++
  optional 3 .sfixed32 (m.Latitude.map .i) ++
  optional 4 .uint32 (m.Altitude.map .u) ++
  optional 5 .uint32 (m.Speed.map .u) ++
  optional 6 .uint32 (m.Course.map .u) ++
  optional 7 .uint32 (m.SatCount.map .u) ++
  optional 8 .uint32 (m.Pdop.map .u) ++
  optional 9 .uint32 (m.Track.map .u) ++
  optional 10 .uint32 (m.Odometer.map .u) ++
  m.XXX_unrecognized

theorem SensNdNavData.putSub_wire (m : SensNdNavData) : Agree (PB.putSub SensNdNavData.schema m.toSub) m.wire := by
  unfold PB.putSub SensNdNavData.schema SensNdNavData.toSub SensNdNavData.wire
  simp only [List.append_assoc]
  repeat' first
    | exact putSubFields_end _
    | refine putSubFields_step (by decide) ?_

/-- message sens_stor_info, docs/egts_sr_egtsplus_data.proto:276-286 -/
def SensStorInfo.wire (m : SensStorInfo) : Bytes :=
  optional 1 .uint32 (m.SensNum.map .u) ++
  optional 2 .uint32 (m.IdMax.map .u) ++
  optional 3 .uint32 (m.IdMin.map .u) ++
  optional 4 .uint32 (m.TmOldest.map .u) ++
  optional 5 .uint32 (m.TmOldestUnack.map .u) ++
  optional 6 .uint32 (m.CntUnack.map .u) ++
  optional 7 .uint32 (m.CntUnackLosted.map .u) ++
  m.XXX_unrecognized

theorem SensStorInfo.putSub_wire (m : SensStorInfo) : Agree (PB.putSub SensStorInfo.schema m.toSub) m.wire := by
  unfold PB.putSub SensStorInfo.schema SensStorInfo.toSub SensStorInfo.wire
  simp only [List.append_assoc]
  repeat' first
    | exact putSubFields_end _
    | refine putSubFields_step (by decide) ?_

/-- message sens_termo_data, docs/egts_sr_egtsplus_data.proto:289-295 -/
def SensTermoData.wire (m : SensTermoData) : Bytes :=
  optional 1 .uint32 (m.SensNum.map .u) ++
  optional 2 .uint32 (m.Status.map .u) ++
  optional 3 .sint32 (m.Temperature.map .i) ++
  m.XXX_unrecognized

theorem SensTermoData.putSub_wire (m : SensTermoData) : Agree (PB.putSub SensTermoData.schema m.toSub) m.wire := by
  unfold PB.putSub SensTermoData.schema SensTermoData.toSub SensTermoData.wire
  simp only [List.append_assoc]
  repeat' first
    | exact putSubFields_end _
    | refine putSubFields_step (by decide) ?_

/-- message sens_test_era_tests, docs/egts_sr_egtsplus_data.proto:298-312 -/
def SensTestEraTests.wire (m : SensTestEraTests) : Bytes :=
  optional 1 .uint32 (m.SensNum.map .u) ++
  optional 2 .bool (m.MicConFailure.map .b) ++
  optional 3 .bool (m.MicFailure.map .b) ++
  optional 4 .bool (m.IgnitionFailure.map .b) ++
  optional 5 .bool (m.UimFailure.map .b) ++
  optional 6 .bool (m.BatFailure.map .b) ++
  optional 7 .bool (m.BatVoltLow.map .b) ++
  optional 8 .bool (m.CrashSensFailure.map .b) ++
  optional 9 .bool (m.RaimProblem.map .b) ++
  optional 10 .bool (m.GnssAntennaFailure.map .b) ++
  optional 11 .bool (m.EventsMemoryOverflow.map .b) ++
  m.XXX_unrecognized

theorem SensTestEraTests.putSub_wire (m : SensTestEraTests) : Agree (PB.putSub SensTestEraTests.schema m.toSub) m.wire := by
  unfold PB.putSub SensTestEraTests.schema SensTestEraTests.toSub SensTestEraTests.wire
  simp only [List.append_assoc]
  repeat' first
    | exact putSubFields_end _
    | refine putSubFields_step (by decide) ?_

/-- message sens_tracker_info, docs/egts_sr_egtsplus_data.proto:315-323 -/
def SensTrackerInfo.wire (m : SensTrackerInfo) : Bytes :=
  optional 1 .uint32 (m.SensNum.map .u) ++
  optional 2 .uint32 (m.CntAck.map .u) ++
  optional 3 .uint32 (m.CntAckRealtime.map .u) ++
  optional 4 .uint32 (m.CntNoack.map .u) ++
  optional 5 .uint32 (m.CntConnect.map .u) ++
  m.XXX_unrecognized

theorem SensTrackerInfo.putSub_wire (m : SensTrackerInfo) : Agree (PB.putSub SensTrackerInfo.schema m.toSub) m.wire := by
  unfold PB.putSub SensTrackerInfo.schema SensTrackerInfo.toSub SensTrackerInfo.wire
  simp only [List.append_assoc]
  repeat' first
    | exact putSubFields_end _
    | refine putSubFields_step (by decide) ?_

/-- message storage_record, docs/egts_sr_egtsplus_data.proto:4-120 -/
def StorageRecord.wire (m : StorageRecord) : Bytes :=
  optional 1 .uint32 (m.RecordNumber.map .u) ++
  optional 2 .fixed32 (m.TimeStamp.map .u) ++
  repeatedEnum 3 m.RecordReason ++
  optional 4 .fixed32 (m.StatusFlags.map .u) ++
  repeatedMsg 7 SensNdNavData.wire m.SensNdNavData ++
  repeatedMsg 8 SensFuelLevel.wire m.SensFuelLevel ++
  repeatedMsg 9 SensAinAinValue.wire m.SensAinAinValue ++
  repeatedMsg 10 SensDinsFlags.wire m.SensDinsFlags ++
  repeatedMsg 11 SensCounterCount.wire m.SensCounterCount ++
  repeatedMsg 12 SensFmeterFrequency.wire m.SensFmeterFrequency ++
  repeatedMsg 13 SensGsmCellMonotoringCellMonitoring.wire m.SensGsmCellMonotoringCellMonitoring ++
  repeatedMsg 14 SensButtonPressCounter.wire m.SensButtonPressCounter ++
  repeatedMsg 15 SensTermoData.wire m.SensTermoData ++
  repeatedMsg 16 SensCanLogData.wire m.SensCanLogData ++
  repeatedMsg 17 SensCanLogTmpDataExt.wire m.SensCanLogTmpDataExt ++
  repeatedMsg 18 SensAccelerometerData.wire m.SensAccelerometerData ++
  repeatedMsg 19 SensDoutsFlags.wire m.SensDoutsFlags ++
  repeatedMsg 20 SensBufferData.wire m.SensBufferData ++
  repeatedMsg 21 SensStorInfo.wire m.SensStorInfo ++
  repeatedMsg 22 SensTrackerInfo.wire m.SensTrackerInfo ++
  repeatedMsg 23 SensTestEraTests.wire m.SensTestEraTests ++
  repeatedMsg 24 SensCrashData.wire m.SensCrashData ++
  m.XXX_unrecognized

theorem StorageRecord.putMsg_agree (m : StorageRecord) : Agree (PB.putMsg StorageRecord.schema m.toMsg) m.wire := by
  unfold PB.putMsg StorageRecord.schema StorageRecord.toMsg StorageRecord.wire
  simp only [List.append_assoc]
  repeat' first
    | exact putFields_end _
    | exact putSlot_one _ _ _ (by decide)
    | exact putSlot_enums _ _ (by decide)
    | refine putFields_step ?_ ?_
  · exact putSlot_msgs 7 SensNdNavData.schema SensNdNavData.toSub SensNdNavData.wire (by decide) SensNdNavData.putSub_wire _
  · exact putSlot_msgs 8 SensFuelLevel.schema SensFuelLevel.toSub SensFuelLevel.wire (by decide) SensFuelLevel.putSub_wire _
  · exact putSlot_msgs 9 SensAinAinValue.schema SensAinAinValue.toSub SensAinAinValue.wire (by decide) SensAinAinValue.putSub_wire _
  · exact putSlot_msgs 10 SensDinsFlags.schema SensDinsFlags.toSub SensDinsFlags.wire (by decide) SensDinsFlags.putSub_wire _
  · exact putSlot_msgs 11 SensCounterCount.schema SensCounterCount.toSub SensCounterCount.wire (by decide) SensCounterCount.putSub_wire _
  · exact putSlot_msgs 12 SensFmeterFrequency.schema SensFmeterFrequency.toSub SensFmeterFrequency.wire (by decide) SensFmeterFrequency.putSub_wire _
  · exact putSlot_msgs 13 SensGsmCellMonotoringCellMonitoring.schema SensGsmCellMonotoringCellMonitoring.toSub SensGsmCellMonotoringCellMonitoring.wire (by decide) SensGsmCellMonotoringCellMonitoring.putSub_wire _
  · exact putSlot_msgs 14 SensButtonPressCounter.schema SensButtonPressCounter.toSub SensButtonPressCounter.wire (by decide) SensButtonPressCounter.putSub_wire _
  · exact putSlot_msgs 15 SensTermoData.schema SensTermoData.toSub SensTermoData.wire (by decide) SensTermoData.putSub_wire _
  · exact putSlot_msgs 16 SensCanLogData.schema SensCanLogData.toSub SensCanLogData.wire (by decide) SensCanLogData.putSub_wire _
  · exact putSlot_msgs 17 SensCanLogTmpDataExt.schema SensCanLogTmpDataExt.toSub SensCanLogTmpDataExt.wire (by decide) SensCanLogTmpDataExt.putSub_wire _
  · exact putSlot_msgs 18 SensAccelerometerData.schema SensAccelerometerData.toSub SensAccelerometerData.wire (by decide) SensAccelerometerData.putSub_wire _
  · exact putSlot_msgs 19 SensDoutsFlags.schema SensDoutsFlags.toSub SensDoutsFlags.wire (by decide) SensDoutsFlags.putSub_wire _
  · exact putSlot_msgs 20 SensBufferData.schema SensBufferData.toSub SensBufferData.wire (by decide) SensBufferData.putSub_wire _
  · exact putSlot_msgs 21 SensStorInfo.schema SensStorInfo.toSub SensStorInfo.wire (by decide) SensStorInfo.putSub_wire _
  · exact putSlot_msgs 22 SensTrackerInfo.schema SensTrackerInfo.toSub SensTrackerInfo.wire (by decide) SensTrackerInfo.putSub_wire _
  · exact putSlot_msgs 23 SensTestEraTests.schema SensTestEraTests.toSub SensTestEraTests.wire (by decide) SensTestEraTests.putSub_wire _
  · exact putSlot_msgs 24 SensCrashData.schema SensCrashData.toSub SensCrashData.wire (by decide) SensCrashData.putSub_wire _

theorem StorageRecord.putMsg_wire (m : StorageRecord) (h : m.wire.length < 18446744073709551616) :
    PB.putMsg StorageRecord.schema m.toMsg = m.wire := m.putMsg_agree h

/-- the fields the .proto file declares as required -/
def StorageRecord.Required (m : StorageRecord) : Prop := m.RecordNumber ≠ none ∧ m.TimeStamp ≠ none ∧ m.StatusFlags ≠ none

end Egts
