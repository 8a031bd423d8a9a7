import Verif.Spec.Json
import Verif.Props.Trace
import Verif.Props.ServerEx
set_option autoImplicit false
/- C57, C67: the JSON document of a record. -/
namespace Egts
open Frame

/-! ### UTF-8 -/

theorem runeLen_char (c : Char) (s : Bytes) (h : 128 ≤ c.val.toNat) :
    runeLen (String.utf8EncodeChar c ++ s) = (String.utf8EncodeChar c).length ∧
      ∃ a r, String.utf8EncodeChar c = a :: r ∧ 128 ≤ a.toNat := by
  have hv := c.valid
  have hv' : c.val.toNat < 0xD800 ∨ (0xDFFF < c.val.toNat ∧ c.val.toNat < 0x110000) := hv
  unfold String.utf8EncodeChar
  generalize c.val.toNat = v at h hv'
  simp only
  rw [if_neg (by omega)]
  by_cases h1 : v ≤ 2047
  · rw [if_pos h1]
    have e1 : (UInt8.ofNat (v / 64 % 32 + 192)).toNat = v / 64 % 32 + 192 := by rw [UInt8.toNat_ofNat']; omega
    have e2 : (UInt8.ofNat (v % 64 + 128)).toNat = v % 64 + 128 := by rw [UInt8.toNat_ofNat']; omega
    refine ⟨?_, _, _, rfl, by omega⟩
    simp only [List.cons_append, List.nil_append, runeLen, e1, e2]
    rw [if_pos (by omega), if_pos (by simp; omega)]
    rfl
  · rw [if_neg h1]
    by_cases h2 : v ≤ 65535
    · rw [if_pos h2]
      have e1 : (UInt8.ofNat (v / 4096 % 16 + 224)).toNat = v / 4096 % 16 + 224 := by rw [UInt8.toNat_ofNat']; omega
      have e2 : (UInt8.ofNat (v / 64 % 64 + 128)).toNat = v / 64 % 64 + 128 := by rw [UInt8.toNat_ofNat']; omega
      have e3 : (UInt8.ofNat (v % 64 + 128)).toNat = v % 64 + 128 := by rw [UInt8.toNat_ofNat']; omega
      refine ⟨?_, _, _, rfl, by omega⟩
      simp only [List.cons_append, List.nil_append, runeLen, e1, e2, e3]
      rw [if_neg (by omega), if_pos (by omega), if_pos ?_]
      · rfl
      · refine ⟨?_, ?_, by simp; omega⟩
        · split <;> omega
        · split <;> omega
    · rw [if_neg h2]
      have e1 : (UInt8.ofNat (v / 262144 % 8 + 240)).toNat = v / 262144 % 8 + 240 := by rw [UInt8.toNat_ofNat']; omega
      have e2 : (UInt8.ofNat (v / 4096 % 64 + 128)).toNat = v / 4096 % 64 + 128 := by rw [UInt8.toNat_ofNat']; omega
      have e3 : (UInt8.ofNat (v / 64 % 64 + 128)).toNat = v / 64 % 64 + 128 := by rw [UInt8.toNat_ofNat']; omega
      have e4 : (UInt8.ofNat (v % 64 + 128)).toNat = v % 64 + 128 := by rw [UInt8.toNat_ofNat']; omega
      refine ⟨?_, _, _, rfl, by omega⟩
      simp only [List.cons_append, List.nil_append, runeLen, e1, e2, e3, e4]
      rw [if_neg (by omega), if_neg (by omega), if_pos (by omega), if_pos ?_]
      · rfl
      · refine ⟨?_, ?_, by simp; omega, by simp; omega⟩
        · split <;> omega
        · split <;> omega

/-- valid UTF-8 is exported as it is -/
theorem toUtf8_valid (s : Bytes) (h : ValidUtf8 s) : toUtf8 s = s := by
  obtain ⟨cs, rfl⟩ := h
  induction cs with
  | nil => simp [toUtf8]
  | cons c cs ih =>
    rw [List.flatMap_cons]
    by_cases hc : c.val.toNat < 128
    · have : String.utf8EncodeChar c = [UInt8.ofNat c.val.toNat] := by
        unfold String.utf8EncodeChar
        simp only
        rw [if_pos (by omega)]
      rw [this]
      simp only [List.cons_append, List.nil_append]
      rw [toUtf8, if_pos (by rw [UInt8.toNat_ofNat']; omega), ih]
    · generalize List.flatMap String.utf8EncodeChar cs = t at ih
      obtain ⟨h1, a, r, h2, h3⟩ := runeLen_char c t (by omega)
      rw [h2] at h1 ⊢
      simp only [List.cons_append] at h1 ⊢
      rw [toUtf8, if_neg (by omega), if_neg (by rw [h1]; simp), h1]
      have e : a :: (r ++ t) = (a :: r) ++ t := rfl
      rw [e, List.take_left' rfl, List.drop_left' rfl, ih]

/-- ASCII text is valid UTF-8 -/
theorem ascii_valid (s : Bytes) (h : ∀ b ∈ s, b.toNat < 128) : ValidUtf8 s := by
  refine ⟨s.map fun b => Char.ofNat b.toNat, ?_⟩
  induction s with
  | nil => rfl
  | cons b s ih =>
    rw [List.map_cons, List.flatMap_cons, ← ih (fun x hx => h x (by simp [hx]))]
    have hb := h b (by simp)
    have hv : (Char.ofNat b.toNat).val.toNat = b.toNat := by
      have hval : b.toNat.isValidChar := .inl (by omega)
      rw [Char.ofNat, dif_pos hval]
      rfl
    unfold String.utf8EncodeChar
    simp only [hv]
    rw [if_pos (by omega)]
    simp

/-- what `runeLen` accepts is the encoding of a Unicode character -/
theorem runeLen_some (s : Bytes) (h : runeLen s ≠ 0) : ∃ c : Char, s.take (runeLen s) = String.utf8EncodeChar c := by
  have mk : ∀ v : Nat, (v < 0xD800 ∨ (0xDFFF < v ∧ v < 0x110000)) → (Char.ofNat v).val.toNat = v := by
    intro v hv
    have hval : v.isValidChar := hv
    rw [Char.ofNat, dif_pos hval]
    rfl
  have eqb : ∀ (n : Nat) (b : UInt8), n = b.toNat → UInt8.ofNat n = b := by
    rintro _ b rfl; simp
  match s with
  | [] => exact absurd rfl h
  | [a] => exact absurd rfl h
  | a :: b :: r =>
    have ha := a.toNat_lt
    by_cases h2 : 0xC2 ≤ a.toNat ∧ a.toNat ≤ 0xDF
    · have hr : runeLen (a :: b :: r) = if (0x80 ≤ b.toNat && b.toNat ≤ 0xBF : Bool) then 2 else 0 := by
        simp only [runeLen]; rw [if_pos h2]
      rw [hr] at h ⊢
      by_cases hb : (0x80 ≤ b.toNat && b.toNat ≤ 0xBF : Bool)
      · rw [if_pos hb]
        simp only [Bool.and_eq_true, decide_eq_true_eq] at hb
        have hv := mk ((a.toNat - 0xC0) * 64 + (b.toNat - 0x80)) (by omega)
        refine ⟨Char.ofNat ((a.toNat - 0xC0) * 64 + (b.toNat - 0x80)), ?_⟩
        unfold String.utf8EncodeChar
        simp only [hv]
        rw [if_neg (by omega), if_pos (by omega), eqb _ a (by omega), eqb _ b (by omega)]
        rfl
      · rw [if_neg hb] at h; exact absurd rfl h
    by_cases h3 : 0xE0 ≤ a.toNat ∧ a.toNat ≤ 0xEF
    · match r with
      | [] =>
        have hr : runeLen [a, b] = 0 := by simp only [runeLen]; rw [if_neg h2, if_pos h3]
        exact absurd hr h
      | c :: r =>
        by_cases hb : (if a.toNat = 0xE0 then 0xA0 else 0x80) ≤ b.toNat ∧ b.toNat ≤ (if a.toNat = 0xED then 0x9F else 0xBF) ∧
            (0x80 ≤ c.toNat && c.toNat ≤ 0xBF : Bool) = true
        · have hr : runeLen (a :: b :: c :: r) = 3 := by
            simp only [runeLen]; rw [if_neg h2, if_pos h3, if_pos hb]
          rw [hr]
          simp only [Bool.and_eq_true, decide_eq_true_eq] at hb
          obtain ⟨b1, b2, b3⟩ := hb
          have hb1 : 0x80 ≤ b.toNat ∧ (a.toNat = 0xE0 → 0xA0 ≤ b.toNat) := by split at b1 <;> omega
          have hb2 : b.toNat ≤ 0xBF ∧ (a.toNat = 0xED → b.toNat ≤ 0x9F) := by split at b2 <;> omega
          have hv := mk ((a.toNat - 0xE0) * 4096 + (b.toNat - 0x80) * 64 + (c.toNat - 0x80)) (by omega)
          refine ⟨Char.ofNat ((a.toNat - 0xE0) * 4096 + (b.toNat - 0x80) * 64 + (c.toNat - 0x80)), ?_⟩
          unfold String.utf8EncodeChar
          simp only [hv]
          rw [if_neg (by omega), if_neg (by omega), if_pos (by omega), eqb _ a (by omega), eqb _ b (by omega), eqb _ c (by omega)]
          rfl
        · have hr : runeLen (a :: b :: c :: r) = 0 := by
            simp only [runeLen]; rw [if_neg h2, if_pos h3, if_neg hb]
          exact absurd hr h
    by_cases h4 : 0xF0 ≤ a.toNat ∧ a.toNat ≤ 0xF4
    · match r with
      | [] =>
        have hr : runeLen [a, b] = 0 := by simp only [runeLen]; rw [if_neg h2, if_neg h3, if_pos h4]
        exact absurd hr h
      | [c] =>
        have hr : runeLen [a, b, c] = 0 := by simp only [runeLen]; rw [if_neg h2, if_neg h3, if_pos h4]
        exact absurd hr h
      | c :: d :: r =>
        by_cases hb : (if a.toNat = 0xF0 then 0x90 else 0x80) ≤ b.toNat ∧ b.toNat ≤ (if a.toNat = 0xF4 then 0x8F else 0xBF) ∧
            (0x80 ≤ c.toNat && c.toNat ≤ 0xBF : Bool) = true ∧ (0x80 ≤ d.toNat && d.toNat ≤ 0xBF : Bool) = true
        · have hr : runeLen (a :: b :: c :: d :: r) = 4 := by
            simp only [runeLen]; rw [if_neg h2, if_neg h3, if_pos h4, if_pos hb]
          rw [hr]
          simp only [Bool.and_eq_true, decide_eq_true_eq] at hb
          obtain ⟨b1, b2, b3, b4⟩ := hb
          have hb1 : 0x80 ≤ b.toNat ∧ (a.toNat = 0xF0 → 0x90 ≤ b.toNat) := by split at b1 <;> omega
          have hb2 : b.toNat ≤ 0xBF ∧ (a.toNat = 0xF4 → b.toNat ≤ 0x8F) := by split at b2 <;> omega
          have hv := mk ((a.toNat - 0xF0) * 262144 + (b.toNat - 0x80) * 4096 + (c.toNat - 0x80) * 64 + (d.toNat - 0x80)) (by omega)
          refine ⟨Char.ofNat ((a.toNat - 0xF0) * 262144 + (b.toNat - 0x80) * 4096 + (c.toNat - 0x80) * 64 + (d.toNat - 0x80)), ?_⟩
          unfold String.utf8EncodeChar
          simp only [hv]
          rw [if_neg (by omega), if_neg (by omega), if_neg (by omega), eqb _ a (by omega), eqb _ b (by omega), eqb _ c (by omega),
            eqb _ d (by omega)]
          rfl
        · have hr : runeLen (a :: b :: c :: d :: r) = 0 := by
            simp only [runeLen]; rw [if_neg h2, if_neg h3, if_pos h4, if_neg hb]
          exact absurd hr h
    · have hr : runeLen (a :: b :: r) = 0 := by
        simp only [runeLen]; rw [if_neg h2, if_neg h3, if_neg h4]
      exact absurd hr h

/-- C84: whatever bytes a text of a record has (IMEIs are arbitrary bytes from the network), its text in the document is valid
UTF-8. -/
theorem exported_text_valid (s : Bytes) : ValidUtf8 (toUtf8 s) := by
  induction s using toUtf8.induct with
  | case1 => exact ⟨[], by simp [toUtf8]⟩
  | case2 a r h ih =>
    obtain ⟨cs, hc⟩ := ih
    obtain ⟨ds, hd⟩ := ascii_valid [a] (by simpa using h)
    exact ⟨ds ++ cs, by rw [toUtf8, if_pos h, hc, List.flatMap_append, ← hd]; rfl⟩
  | case3 a r h hr ih =>
    obtain ⟨cs, hc⟩ := ih
    refine ⟨Char.ofNat 0xFFFD :: cs, ?_⟩
    rw [toUtf8, if_neg h, if_pos hr, hc, List.flatMap_cons]
    congr 1
  | case4 a r h hr ih =>
    obtain ⟨cs, hc⟩ := ih
    obtain ⟨c, hc'⟩ := runeLen_some _ hr
    exact ⟨c :: cs, by rw [toUtf8, if_neg h, if_neg hr, hc, List.flatMap_cons, hc']⟩

/-! ### C57 -/

/-- C57 (partial), keys: the document of a record has exactly these keys, in this order. -/
theorem json_keys_partial (r : NavRecord) : r.json.keys = [asc "server_id", asc "IMEI", asc "client_id", asc "received_dt", asc "packet_id",
    asc "navigation_unix_time", asc "an_sensors", asc "liquid_sensors", asc "loc_states", asc "loc_states_count"] := rfl

/-- the members of the document of a record -/
theorem json_members (r : NavRecord) :
    r.json.member (asc "server_id") = some (.str (toUtf8 r.ServerID)) ∧
    r.json.member (asc "IMEI") = some (.str (toUtf8 r.IMEI)) ∧
    r.json.member (asc "client_id") = some (.num r.ClientID.toNat) ∧
    r.json.member (asc "received_dt") = some (.str (toUtf8 r.ReceivedDt)) ∧
    r.json.member (asc "packet_id") = some (.num r.PacketID.toNat) ∧
    r.json.member (asc "navigation_unix_time") = some (.num r.NavigationTimestamp) ∧
    r.json.member (asc "an_sensors") = some (if r.AnSensors = [] then .null else .arr (r.AnSensors.map AnSensor.json)) ∧
    r.json.member (asc "liquid_sensors") = some (if r.LiquidSensors = [] then .null else .arr (r.LiquidSensors.map LiquidSensor.json)) ∧
    r.json.member (asc "loc_states") = some (if r.LocStates = [] then .null else .arr (r.LocStates.map LocState.json)) ∧
    r.json.member (asc "loc_states_count") = some (.num r.LocStatesCount.toInt) := by
  have hs : ∀ {α : Type} (f : α → Json) (l : List α), jslice f l = if l = [] then .null else .arr (l.map f) := by
    intro α f l
    unfold jslice
    cases l <;> rfl
  simp only [← hs]
  have d : ∀ (k : Bytes) (m : List (Bytes × Json)), Json.member k (.obj m) = (m.find? (·.1 = k)).map (·.2) := fun _ _ => rfl
  have k1 : asc "server_id" = [115, 101, 114, 118, 101, 114, 95, 105, 100] := by decide
  have k2 : asc "IMEI" = [73, 77, 69, 73] := by decide
  have k3 : asc "client_id" = [99, 108, 105, 101, 110, 116, 95, 105, 100] := by decide
  have k4 : asc "received_dt" = [114, 101, 99, 101, 105, 118, 101, 100, 95, 100, 116] := by decide
  have k5 : asc "packet_id" = [112, 97, 99, 107, 101, 116, 95, 105, 100] := by decide
  have k6 : asc "navigation_unix_time" = [110, 97, 118, 105, 103, 97, 116, 105, 111, 110, 95, 117, 110, 105, 120, 95, 116, 105, 109, 101] := by decide
  have k7 : asc "an_sensors" = [97, 110, 95, 115, 101, 110, 115, 111, 114, 115] := by decide
  have k8 : asc "liquid_sensors" = [108, 105, 113, 117, 105, 100, 95, 115, 101, 110, 115, 111, 114, 115] := by decide
  have k9 : asc "loc_states" = [108, 111, 99, 95, 115, 116, 97, 116, 101, 115] := by decide
  have k10 : asc "loc_states_count" = [108, 111, 99, 95, 115, 116, 97, 116, 101, 115, 95, 99, 111, 117, 110, 116] := by decide
  unfold NavRecord.json
  rw [k1, k2, k3, k4, k5, k6, k7, k8, k9, k10]
  simp [d, jstr]

/-- the members of the document of a position: latitude under `lat`, longitude under `lng`, ... -/
theorem json_loc_members (s : LocState) :
    s.json.member (asc "lat") = some (.num s.Latitude) ∧ s.json.member (asc "lng") = some (.num s.Longitude) ∧
    s.json.member (asc "speed") = some (.num s.Speed.toNat) ∧ s.json.member (asc "navigation_dt") = some (.str (toUtf8 s.NavigationDt)) := by
  have d : ∀ (k : Bytes) (m : List (Bytes × Json)), Json.member k (.obj m) = (m.find? (·.1 = k)).map (·.2) := fun _ _ => rfl
  have k1 : asc "lat" = [108, 97, 116] := by decide
  have k2 : asc "lng" = [108, 110, 103] := by decide
  have k3 : asc "speed" = [115, 112, 101, 101, 100] := by decide
  have k4 : asc "navigation_dt" = [110, 97, 118, 105, 103, 97, 116, 105, 111, 110, 95, 100, 116] := by decide
  unfold LocState.json
  rw [k1, k2, k3, k4]
  simp [d, jstr]

/-- the members of the document of a liquid level sensor -/
theorem json_liquid_members (q : LiquidSensor) :
    q.json.member (asc "sensor_number") = some (.num q.SensorNumber.toNat) ∧
    q.json.member (asc "module_number") = some (.num q.ModuleNumber.toNat) ∧
    q.json.member (asc "error_flag") = some (.str (toUtf8 q.ErrorFlag)) ∧ q.json.member (asc "value_unit") = some (.str (toUtf8 q.ValueUnit)) ∧
    q.json.member (asc "value_mm") = some (.num q.ValueMm.toNat) ∧ q.json.member (asc "value_l") = some (.num q.ValueL) := by
  have d : ∀ (k : Bytes) (m : List (Bytes × Json)), Json.member k (.obj m) = (m.find? (·.1 = k)).map (·.2) := fun _ _ => rfl
  have k1 : asc "sensor_number" = [115, 101, 110, 115, 111, 114, 95, 110, 117, 109, 98, 101, 114] := by decide
  have k2 : asc "module_number" = [109, 111, 100, 117, 108, 101, 95, 110, 117, 109, 98, 101, 114] := by decide
  have k3 : asc "error_flag" = [101, 114, 114, 111, 114, 95, 102, 108, 97, 103] := by decide
  have k4 : asc "value_unit" = [118, 97, 108, 117, 101, 95, 117, 110, 105, 116] := by decide
  have k5 : asc "value_mm" = [118, 97, 108, 117, 101, 95, 109, 109] := by decide
  have k6 : asc "value_l" = [118, 97, 108, 117, 101, 95, 108] := by decide
  unfold LiquidSensor.json
  rw [k1, k2, k3, k4, k5, k6]
  simp [d, jstr]

/-- the members of the document of an analogue sensor -/
theorem json_an_members (a : AnSensor) :
    a.json.member (asc "sensor_number") = some (.num a.SensorNumber.toNat) ∧ a.json.member (asc "value") = some (.num a.Value.toNat) := by
  have d : ∀ (k : Bytes) (m : List (Bytes × Json)), Json.member k (.obj m) = (m.find? (·.1 = k)).map (·.2) := fun _ _ => rfl
  have k1 : asc "sensor_number" = [115, 101, 110, 115, 111, 114, 95, 110, 117, 109, 98, 101, 114] := by decide
  have k2 : asc "value" = [118, 97, 108, 117, 101] := by decide
  unfold AnSensor.json
  rw [k1, k2]
  simp [d]

variable [P : Platform]

/-- C57 (partial): in every record saved in any run `loc_states` is a non-empty array, of as many elements as `loc_states_count` says, and
every element has exactly the keys lat, lng, speed and navigation_dt. Missing: the sensor lists, which are `null` instead of an empty array
(`json_sensors_null`). -/
theorem json_loc_states_partial (env : Env) (hasStore : Bool) (tail : Tail) (chunks : List Bytes) (r : NavRecord)
    (hr : r ∈ savesOf (handleConn env hasStore tail chunks).1) :
    ∃ l : List Json, r.json.member (asc "loc_states") = some (.arr l) ∧ l ≠ [] ∧
      r.json.member (asc "loc_states_count") = some (.num l.length) ∧
      ∀ x ∈ l, x.keys = [asc "lat", asc "lng", asc "speed", asc "navigation_dt"] := by
  obtain ⟨-, -, -, -, -, l, -, -, -, -, hne, h1, h2, -⟩ := saved_from_packet env hasStore tail chunks r hr
  have hl : r.LocStates ≠ [] := by rw [h1]; simpa using hne
  obtain ⟨-, -, -, -, -, -, -, -, h9, h10⟩ := json_members r
  refine ⟨r.LocStates.map LocState.json, by rw [h9, if_neg hl], by simpa using hl, ?_, ?_⟩
  · rw [h10, h2, h1]
    simp
  · intro x hx
    obtain ⟨s, -, rfl⟩ := List.mem_map.mp hx
    rfl

omit P in
/-- C57 is false of the code: without sensors the members `an_sensors` and `liquid_sensors` are `null`. -/
theorem json_sensors_null (r : NavRecord) : (r.AnSensors = [] → r.json.member (asc "an_sensors") = some .null) ∧
    (r.LiquidSensors = [] → r.json.member (asc "liquid_sensors") = some .null) ∧
    (r.AnSensors ≠ [] → ∃ l, r.json.member (asc "an_sensors") = some (.arr l) ∧ ∀ x ∈ l, x.keys = [asc "sensor_number", asc "value"]) ∧
    (r.LiquidSensors ≠ [] → ∃ l, r.json.member (asc "liquid_sensors") = some (.arr l) ∧ ∀ x ∈ l, x.keys =
      [asc "sensor_number", asc "module_number", asc "error_flag", asc "value_unit", asc "value_mm", asc "value_l"]) := by
  obtain ⟨-, -, -, -, -, -, h7, h8, -⟩ := json_members r
  refine ⟨fun h => by rw [h7, if_pos h], fun h => by rw [h8, if_pos h], fun h => ⟨_, by rw [h7, if_neg h], ?_⟩,
    fun h => ⟨_, by rw [h8, if_neg h], ?_⟩⟩
  · intro x hx
    obtain ⟨s, -, rfl⟩ := List.mem_map.mp hx
    rfl
  · intro x hx
    obtain ⟨s, -, rfl⟩ := List.mem_map.mp hx
    rfl

/-! ### C67 -/

omit P in
theorem jstr_inj {a b : Bytes} (ha : ValidUtf8 a) (hb : ValidUtf8 b) (h : jstr a = jstr b) : a = b := by
  unfold jstr at h
  injection h with h
  rwa [toUtf8_valid a ha, toUtf8_valid b hb] at h

omit P in
theorem jslice_inj {α : Type} {f : α → Json} {l l' : List α} (hf : ∀ x ∈ l, ∀ y ∈ l', f x = f y → x = y)
    (h : jslice f l = jslice f l') : l = l' := by
  unfold jslice at h
  cases l with
  | nil =>
    cases l' with
    | nil => rfl
    | cons y l' => simp at h
  | cons x l =>
    cases l' with
    | nil => simp at h
    | cons y l' =>
      simp only [List.isEmpty_cons, Bool.false_eq_true, if_false] at h
      injection h with h
      generalize x :: l = a at *
      generalize y :: l' = b at *
      clear x l y l'
      induction a generalizing b with
      | nil => cases b with
        | nil => rfl
        | cons y b => simp at h
      | cons x a ih => cases b with
        | nil => simp at h
        | cons y b =>
          rw [List.map_cons, List.map_cons, List.cons.injEq] at h
          rw [hf x (by simp) y (by simp) h.1, ih b (fun u hu v hv => hf u (by simp [hu]) v (by simp [hv])) h.2]

omit P in
/-- C67 (partial): two records whose texts are valid UTF-8 have the same document only if they are equal: nothing of the record is lost. Missing:
an IMEI that is not valid UTF-8 (`json_imei_lost`). -/
theorem json_lossless_partial (r r' : NavRecord) (h : r.TextsOk) (h' : r'.TextsOk) (he : r.json = r'.json) : r = r' := by
  obtain ⟨a1, a2, a3, a4, a5⟩ := h
  obtain ⟨b1, b2, b3, b4, b5⟩ := h'
  unfold NavRecord.json at he
  injection he with he
  simp only [List.cons.injEq, Prod.mk.injEq, true_and, and_true, Json.num.injEq, Nat.cast_inj, Int.cast_inj] at he
  obtain ⟨e1, e2, e3, e4, e5, e6, e7, e8, e9, e10⟩ := he
  have f1 := jstr_inj a1 b1 e1
  have f2 := jstr_inj a2 b2 e2
  have f3 := UInt32.toNat_inj.mp e3
  have f4 := jstr_inj a3 b3 e4
  have f5 := UInt32.toNat_inj.mp e5
  have f7 := jslice_inj (fun x _ y _ hxy => by
    unfold AnSensor.json at hxy
    injection hxy with hxy
    simp only [List.cons.injEq, Prod.mk.injEq, true_and, and_true, Json.num.injEq, Nat.cast_inj] at hxy
    cases x; cases y
    simp only [AnSensor.mk.injEq]
    exact ⟨UInt8.toNat_inj.mp hxy.1, UInt32.toNat_inj.mp hxy.2⟩) e7
  have f8 := jslice_inj (fun x hx y hy hxy => by
    unfold LiquidSensor.json at hxy
    injection hxy with hxy
    simp only [List.cons.injEq, Prod.mk.injEq, true_and, and_true, Json.num.injEq, Nat.cast_inj] at hxy
    obtain ⟨g1, g2, g3, g4, g5, g6⟩ := hxy
    have g3' := jstr_inj (a5 x hx).1 (b5 y hy).1 g3
    have g4' := jstr_inj (a5 x hx).2 (b5 y hy).2 g4
    cases x; cases y
    simp only [LiquidSensor.mk.injEq]
    exact ⟨UInt8.toNat_inj.mp g1, UInt16.toNat_inj.mp g2, g3', g4', UInt32.toNat_inj.mp g5, g6⟩) e8
  have f9 := jslice_inj (fun x hx y hy hxy => by
    unfold LocState.json at hxy
    injection hxy with hxy
    simp only [List.cons.injEq, Prod.mk.injEq, true_and, and_true, Json.num.injEq, Nat.cast_inj] at hxy
    obtain ⟨g1, g2, g3, g4⟩ := hxy
    have g4' := jstr_inj (a4 x hx) (b4 y hy) g4
    cases x; cases y
    simp only [LocState.mk.injEq]
    exact ⟨g1, g2, UInt16.toNat_inj.mp g3, g4'⟩) e9
  have f10 := Int32.toInt_inj.mp e10
  cases r; cases r'
  simp only [NavRecord.mk.injEq]
  exact ⟨f1, f2, f3, f4, f5, e6, f7, f8, f9, f10⟩

omit P in
/-- C67 is false of the code: IMEIs that are not valid UTF-8 (the terminal sends 15 arbitrary bytes) are not exported as they are, and different ones
may have the same document. -/
theorem json_imei_lost : ∃ r r' : NavRecord, r.IMEI = List.replicate 15 0xFF ∧ r'.IMEI = List.replicate 15 0xFE ∧ r.json = r'.json := by
  refine ⟨{ IMEI := List.replicate 15 0xFF }, { IMEI := List.replicate 15 0xFE }, rfl, rfl, ?_⟩
  have h : toUtf8 (List.replicate 15 0xFF) = toUtf8 (List.replicate 15 0xFE) := by
    have key : ∀ (b : UInt8) (n : Nat), b.toNat = 0xFF ∨ b.toNat = 0xFE →
        toUtf8 (List.replicate n b) = (List.replicate n ([0xEF, 0xBF, 0xBD] : Bytes)).flatten := by
      intro b n hb
      induction n with
      | zero => simp [toUtf8]
      | succ n ih =>
        rw [List.replicate_succ, toUtf8, if_neg (by omega), if_pos, ih, List.replicate_succ, List.flatten_cons]
        unfold runeLen
        cases n with
        | zero => rfl
        | succ n =>
          rw [List.replicate_succ]
          simp only
          rw [if_neg (by omega), if_neg (by omega), if_neg (by omega)]
    rw [key _ _ (.inl rfl), key _ _ (.inr rfl)]
  unfold NavRecord.json jstr
  simp only [h]

end Egts
