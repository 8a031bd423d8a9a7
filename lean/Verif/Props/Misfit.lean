import Verif.Props.Pos
import Verif.Props.Small
/- Values that do not fit their field of the wire format: Encode accepts them all and something else arrives (C103). -/
set_option autoImplicit false
namespace Egts
open Frame

theorem ofNat_mod24_eq_iff (x : UInt32) : UInt32.ofNat (x.toNat % 16777216) = x ↔ x.toNat < 2 ^ 24 := by
  rw [← UInt32.toNat_inj, UInt32.toNat_ofNat']
  have := x.toNat_lt
  constructor
  · intro h; omega
  · intro h; rw [Nat.mod_eq_of_lt (by omega : x.toNat % 16777216 < 2 ^ 32)]; omega

/-- C103 (partial), positions: with well-formed flags Encode refuses no value; each field arrives unchanged exactly if it is
representable: the time is a whole number of seconds of 2010-01-01 plus 32 bits, the odometer (and the altitude, if it is
present) has 24 bits, the speed is at most 1638 km/h; a latitude outside of 0..90 or a longitude outside of 0..180 arrives as
another one. Missing: that Encode refuses the values that do not fit (`misfit_pos_accepted`: it does not). -/
theorem misfit_pos_partial [Platform] (e : SrPosData) (hf : e.FlagsOk)
    (hd : e.DirectionHighestBit = 0 ∨ e.DirectionHighestBit = 1) (ha : e.AltitudeSign = 0 ∨ e.AltitudeSign = 1) :
    ∃ b e', e.encode = .ok b ∧ SrPosData.decode {} b = .ok e' ∧
      (e'.NavigationTime = e.NavigationTime ↔ ∃ n : Nat, n < 2 ^ 32 ∧ e.NavigationTime = n * 1000000000) ∧
      (e'.Odometer = e.Odometer ↔ e.Odometer.toNat < 2 ^ 24) ∧
      (e.ALTE = [49] → (e'.Altitude = e.Altitude ↔ e.Altitude.toNat < 2 ^ 24)) ∧
      (e'.Speed = e.Speed ↔ e.Speed.toNat ≤ 1638) ∧
      (e.Latitude < 0 ∨ 90 < e.Latitude → e'.Latitude ≠ e.Latitude) ∧
      (e.Longitude < 0 ∨ 180 < e.Longitude → e'.Longitude ≠ e.Longitude) := by
  obtain ⟨b, hb, hdec⟩ := pos_behaviour e hf
  obtain ⟨d, hdd⟩ := bit_bool hd
  obtain ⟨s, hs⟩ := bit_bool ha
  have hd1 : d.toNat ≤ 1 := by cases d <;> simp
  have hs1 : s.toNat ≤ 1 := by cases s <;> simp
  refine ⟨b, _, hb, hdec, ?_, ofNat_mod24_eq_iff _, ?_, ?_, ?_, ?_⟩
  · constructor
    · intro h
      exact ⟨(rawOfNavTime e.NavigationTime).toNat, (rawOfNavTime e.NavigationTime).toNat_lt, h.symm⟩
    · rintro ⟨n, hn, h⟩
      simp only [h, rawOfNavTime_sec n hn, navTimeOfRaw]
      rw [u32_ofNat_toNat (by omega)]
  · intro h
    simp only [h, if_true]
    exact ofNat_mod24_eq_iff _
  · constructor
    · intro h
      rw [← h]
      simp only [UInt16.toNat_div, UInt16.toNat_ofNat']
      rw [show (10 : UInt16).toNat = 10 from rfl]
      omega
    · intro h
      have hw : e.speedWord.toNat = e.Speed.toNat * 10 + 32768 * d.toNat + 16384 * s.toNat := by
        unfold SrPosData.speedWord; rw [hdd, hs]
        exact speedWord_parts d s e.Speed (by omega)
      apply UInt16.toNat_inj.mp
      have q : e.speedWord.toNat % 16384 = e.Speed.toNat * 10 := by rw [hw]; omega
      simp only [q, UInt16.toNat_div, UInt16.toNat_ofNat']
      rw [Nat.mod_eq_of_lt (by omega)]
      exact Nat.mul_div_cancel _ (by norm_num)
  · intro h he
    have hv := (rawOfLat e.Latitude).toNat_lt
    have hr := coord_range ((rawOfLat e.Latitude).toNat : ℚ) 90 (by positivity) (by
      have : (rawOfLat e.Latitude).toNat ≤ 4294967295 := by omega
      exact_mod_cast this) (by norm_num)
    have he' : latOfRaw (rawOfLat e.Latitude) = e.Latitude := he
    rw [latOfRaw_eq] at he'
    push_cast at hr
    rw [he'] at hr
    rcases h with h | h
    · exact absurd hr.1 (not_le.mpr h)
    · exact absurd hr.2 (not_le.mpr h)
  · intro h he
    have hv := (rawOfLon e.Longitude).toNat_lt
    have hr := coord_range ((rawOfLon e.Longitude).toNat : ℚ) 180 (by positivity) (by
      have : (rawOfLon e.Longitude).toNat ≤ 4294967295 := by omega
      exact_mod_cast this) (by norm_num)
    have he' : lonOfRaw (rawOfLon e.Longitude) = e.Longitude := he
    rw [lonOfRaw_eq] at he'
    push_cast at hr
    rw [he'] at hr
    rcases h with h | h
    · exact absurd hr.1 (not_le.mpr h)
    · exact absurd hr.2 (not_le.mpr h)

/-- test: a position for which every one of the conditions of `misfit_pos_partial` fails -/
example : let e : SrPosData := { plainPos with
      ALTE := [49], NavigationTime := 5000000000000000000, Odometer := 16777216, Altitude := 20000000, Speed := 1639, Latitude := -1,
      Longitude := 181 }
    e.FlagsOk ∧ (e.DirectionHighestBit = 0 ∨ e.DirectionHighestBit = 1) ∧ (e.AltitudeSign = 0 ∨ e.AltitudeSign = 1) ∧
      ¬ (∃ n : Nat, n < 2 ^ 32 ∧ e.NavigationTime = n * 1000000000) ∧ ¬ e.Odometer.toNat < 2 ^ 24 ∧ ¬ e.Speed.toNat ≤ 1638 := by
  refine ⟨by simp [SrPosData.FlagsOk, IsBit, plainPos], .inl rfl, .inl rfl, ?_, by decide, by decide⟩
  rintro ⟨n, hn, h⟩
  simp only at h
  omega

/-- C103 is false of the code for positions: whatever speed above 1638 km/h and whatever odometer of more than 24 bits a
position has, Encode accepts it and the position that arrives has another speed and another odometer. -/
theorem misfit_pos_accepted [Platform] (v : UInt16) (o : UInt32) (hv : 1638 < v.toNat) (ho : 2 ^ 24 ≤ o.toNat) : ∃ b e',
    ({ plainPos with Speed := v, Odometer := o } : SrPosData).encode = .ok b ∧ SrPosData.decode {} b = .ok e' ∧
      e'.Speed ≠ v ∧ e'.Odometer ≠ o := by
  obtain ⟨b, e', h1, h2, -, h3, -, h4, -⟩ :=
    misfit_pos_partial { plainPos with Speed := v, Odometer := o } plainPos_flags (.inl rfl) (.inl rfl)
  refine ⟨b, e', h1, h2, fun h => ?_, fun h => ?_⟩
  · have := h4.mp h; simp only at this; omega
  · have := h3.mp h; simp only at this; omega

/-- C103 (partial), absolute counters: Encode refuses no value; it arrives unchanged exactly if it has 24 bits. -/
theorem misfit_abscntr_partial (e : SrAbsCntrData) : ∃ b e', e.encode = .ok b ∧ SrAbsCntrData.decode {} b = .ok e' ∧
    e'.CounterNumber = e.CounterNumber ∧ e'.CounterValue.toNat = e.CounterValue.toNat % 2 ^ 24 ∧
    (e' = e ↔ e.CounterValue.toNat < 2 ^ 24) := by
  obtain ⟨n, v⟩ := e
  have hlt := v.toNat_lt
  have hm : (UInt32.ofNat (v.toNat % 16777216)).toNat = v.toNat % 16777216 := u32_ofNat_toNat (by omega)
  obtain ⟨b, h1, -, h2⟩ := abscntr_roundtrip ⟨n, UInt32.ofNat (v.toNat % 16777216)⟩ (by simp only [hm]; omega)
  have : (le32 v).take 3 = (le32 (UInt32.ofNat (v.toNat % 16777216))).take 3 := by
    simp only [le32, List.take, List.cons.injEq, and_true]
    refine ⟨?_, ?_, ?_⟩ <;> · apply UInt8.toNat_inj.mp; simp only [u8_ofNat_toNat, hm]; omega
  refine ⟨b, _, ?_, h2, rfl, ?_, ?_⟩
  · rw [← h1]; simp only [SrAbsCntrData.encode, this]
  · show (UInt32.ofNat (v.toNat % 16777216)).toNat = _; rw [hm]; rfl
  · simp only [SrAbsCntrData.mk.injEq, true_and]; exact ofNat_mod24_eq_iff v

/-- C103 (partial), absolute analog sensors: Encode refuses no value; it arrives unchanged exactly if it has 24 bits. -/
theorem misfit_absan_partial (e : SrAbsAnSensData) : ∃ b e', e.encode = .ok b ∧ SrAbsAnSensData.decode {} b = .ok e' ∧
    e'.SensorNumber = e.SensorNumber ∧ e'.Value.toNat = e.Value.toNat % 2 ^ 24 ∧
    (e' = e ↔ e.Value.toNat < 2 ^ 24) := by
  obtain ⟨n, v⟩ := e
  have hlt := v.toNat_lt
  have hm : (UInt32.ofNat (v.toNat % 16777216)).toNat = v.toNat % 16777216 := u32_ofNat_toNat (by omega)
  obtain ⟨b, h1, -, h2⟩ := absan_roundtrip ⟨n, UInt32.ofNat (v.toNat % 16777216)⟩ (by simp only [hm]; omega)
  have e8 : (8 : UInt32).toNat = 8 := rfl
  have e16 : (16 : UInt32).toNat = 16 := rfl
  refine ⟨b, _, ?_, h2, rfl, ?_, ?_⟩
  · rw [← h1]; simp only [SrAbsAnSensData.encode, Go.ok.injEq, List.cons.injEq, true_and, and_true]
    refine ⟨?_, ?_, ?_⟩ <;>
    · apply UInt8.toNat_inj.mp
      simp only [UInt32.toNat_toUInt8, UInt32.toNat_shiftRight, hm, Nat.shiftRight_eq_div_pow, e8, e16, Nat.reduceMod, Nat.reducePow]; omega
  · show (UInt32.ofNat (v.toNat % 16777216)).toNat = _; rw [hm]; rfl
  · simp only [SrAbsAnSensData.mk.injEq, true_and]; exact ofNat_mod24_eq_iff v

/-- C103 is false of the code for counters: 2^24 + k arrives as k. -/
theorem misfit_counter_accepted (n : UInt8) (k : Nat) (hk : k < 2 ^ 24) : ∃ b e',
    (⟨n, UInt32.ofNat (2 ^ 24 + k)⟩ : SrAbsCntrData).encode = .ok b ∧ SrAbsCntrData.decode {} b = .ok e' ∧ e'.CounterValue.toNat = k := by
  obtain ⟨b, e', h1, h2, -, h3, -⟩ := misfit_abscntr_partial ⟨n, UInt32.ofNat (2 ^ 24 + k)⟩
  refine ⟨b, e', h1, h2, ?_⟩
  rw [h3]; simp only; rw [u32_ofNat_toNat (by omega)]; omega

end Egts
