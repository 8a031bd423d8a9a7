import Verif.Props.FloatShort
import Verif.Props.PackageText
import Verif.Props.EndToEnd
import Verif.Props.JsonSafe
import Verif.Props.JsonIndent
import Verif.Props.Saved
set_option autoImplicit false
/- C109: what the properties of JSON texts assumed of the formatting of floats holds of the formatting that is modelled in
Model/FloatText; the properties without these assumptions. -/
namespace Egts
open Frame JsonP

/-- the number that is written for a float64 -/
def goNum (x : F64) : Rat :=
  if x = 0 then 0
  else if 0 < x then ((shortest rnd x 17 1).1 : Rat) * pow10 (shortest rnd x 17 1).2
  else -(((shortest rnd (-x) 17 1).1 : Rat) * pow10 (shortest rnd (-x) 17 1).2)

/-- the number that is written for a float32 -/
def goNum32 (b : UInt32) : Rat :=
  let v := if f32Abs b = 0 then 0 else ((shortest rnd32 (f32Abs b) 9 1).1 : Rat) * pow10 (shortest rnd32 (f32Abs b) 9 1).2
  if 2147483648 ≤ b.toNat then -v else v

/-- the formatting of documents -/
def goDoc : DocFmt where
  num := goNum
  num32 := goNum32
  time ns := (timeText ns).getD []
  bin := base64

theorem goNum_text (x : F64) : getNumber (floatText x) = some (goNum x, []) := by
  unfold floatText goNum
  split
  · decide +kernel
  split
  · exact digit_head _ _ _ _ _ _ (getUnsigned_posText _ _ _ _ _)
  · show (getUnsigned _).map _ = _
    rw [getUnsigned_posText]
    rfl

theorem goNum32_text (b : UInt32) : getNumber (float32Text b) = some (goNum32 b, []) := by
  have h : ∀ (t : Bytes) (v : ℚ), getUnsigned t = some (v, []) → getNumber t = some (v, []) →
      getNumber ((if 2147483648 ≤ b.toNat then [45] else []) ++ t) = some (if 2147483648 ≤ b.toNat then -v else v, []) := by
    intro t v h1 h2
    by_cases hs : 2147483648 ≤ b.toNat
    · rw [if_pos hs, if_pos hs]
      show (getUnsigned t).map _ = _
      rw [h1]
      rfl
    · rw [if_neg hs, if_neg hs]
      exact h2
  unfold float32Text goNum32
  simp only
  by_cases h0 : f32Abs b = 0
  · rw [if_pos h0, if_pos h0]
    exact h _ _ (by decide +kernel) (by decide +kernel)
  · rw [if_neg h0, if_neg h0]
    exact h _ _ (getUnsigned_posText _ _ _ _ _) (digit_head _ _ _ _ _ _ (getUnsigned_posText _ _ _ _ _))

/-- C109: the assumptions of C105 are met -/
theorem goFmt_ok (bf : Bool) : FmtOk (goFmt bf) goDoc where
  float := goNum_text
  float32 b _ := goNum32_text b
  time ns t h := by simp [goDoc, h]
  bin _ := rfl

/-- a float64 is read back -/
theorem goNum_back (x : F64) (h : rnd x = x) : rnd (goNum x) = x := by
  obtain ⟨v, h1, h2, -⟩ := float_text x h
  rw [goNum_text] at h1
  cases h1
  exact h2

/-! ### the characters -/

theorem numberByte_digits (l : List Nat) (h : ∀ d ∈ l, d < 10) : ∀ b ∈ digitText l, NumberByte b := by
  intro b hb
  obtain ⟨d, hd, rfl⟩ := List.mem_map.mp hb
  have := h d hd
  left
  rw [UInt8.toNat_ofNat']
  omega

theorem numberByte_dec (n : Nat) : ∀ b ∈ decText n, NumberByte b := by
  induction n using decText.induct with
  | case1 n h =>
    rw [decText, if_pos h]
    intro b hb
    rw [List.mem_singleton.mp hb]
    left
    rw [UInt8.toNat_ofNat']
    omega
  | case2 n h ih =>
    rw [decText, if_neg h]
    intro b hb
    rcases List.mem_append.mp hb with hb | hb
    · exact ih b hb
    · rw [List.mem_singleton.mp hb]
      left
      rw [UInt8.toNat_ofNat']
      omega

theorem decDigits_digit (n : Nat) : ∀ d ∈ decDigits n, d < 10 := by
  induction n using decDigits.induct with
  | case1 n h => rw [decDigits, if_pos h]; simpa using h
  | case2 n h ih =>
    rw [decDigits, if_neg h]
    intro d hd
    rcases List.mem_append.mp hd with hd | hd
    · exact ih d hd
    · rw [List.mem_singleton.mp hd]; omega

theorem trimDigits_mem {l : List Nat} {d : Nat} (h : d ∈ trimDigits l) : d ∈ l := by
  unfold trimDigits at h
  rw [List.mem_reverse] at h
  exact List.mem_reverse.mp ((List.dropWhile_suffix _).subset h)

theorem numberByte_posText (R : ℚ → ℚ) (N : Nat) (lo hi x : ℚ) : ∀ b ∈ posText R N lo hi x, NumberByte b := by
  have z : NumberByte 48 := .inl (by decide)
  have p : NumberByte 46 := by unfold NumberByte; decide
  have rep : ∀ n, ∀ b ∈ List.replicate n (48 : UInt8), NumberByte b := fun n b hb => by rw [List.eq_of_mem_replicate hb]; exact z
  have e1 : ∀ b ∈ ([101, 45] : Bytes), NumberByte b := by unfold NumberByte; decide
  have e2 : ∀ b ∈ ([101, 43] : Bytes), NumberByte b := by unfold NumberByte; decide
  have app : ∀ s t : Bytes, (∀ b ∈ s, NumberByte b) → (∀ b ∈ t, NumberByte b) → ∀ b ∈ s ++ t, NumberByte b :=
    fun s t h1 h2 b hb => (List.mem_append.mp hb).elim (h1 b) (h2 b)
  have nil : ∀ b ∈ ([] : Bytes), NumberByte b := by simp
  have cons : ∀ (c : UInt8) (s : Bytes), NumberByte c → (∀ b ∈ s, NumberByte b) → ∀ b ∈ c :: s, NumberByte b :=
    fun c s h1 h2 b hb => (List.mem_cons.mp hb).elim (fun e => e ▸ h1) (h2 b)
  unfold posText
  simp only
  set d := (shortest R x N 1).1
  set q := (shortest R x N 1).2
  have hd : ∀ a ∈ trimDigits (decDigits d), a < 10 := fun a h => decDigits_digit _ _ (trimDigits_mem h)
  generalize trimDigits (decDigits d) = l at hd
  have ht : ∀ n, ∀ b ∈ digitText (l.take n), NumberByte b := fun n => numberByte_digits _ fun a ha => hd a (List.mem_of_mem_take ha)
  have hr : ∀ n, ∀ b ∈ digitText (l.drop n), NumberByte b := fun n => numberByte_digits _ fun a ha => hd a (List.mem_of_mem_drop ha)
  split
  · exact cons _ _ z nil
  split
  · unfold fmtE
    refine app _ _ (app _ _ (ht 1) ?_) ?_
    · split
      · exact cons _ _ p (hr 1)
      · exact nil
    · split
      · exact app _ _ e1 (numberByte_dec _)
      · refine app _ _ (app _ _ e2 ?_) (numberByte_dec _)
        split
        · exact cons _ _ z nil
        · exact nil
  · unfold fmtF
    refine app _ _ ?_ ?_
    · split
      · exact app _ _ (ht _) (rep _)
      · exact cons _ _ z nil
    · split
      · exact cons _ _ p (app _ _ (rep _) (hr _))
      · exact nil

/-- C109: a number is written with digits, signs, point and e only -/
theorem float_text_bytes (x : F64) : ∀ b ∈ floatText x, NumberByte b := by
  unfold floatText
  split
  · intro b hb; rw [List.mem_singleton.mp hb]; exact .inl (by decide)
  split
  · exact numberByte_posText _ _ _ _ _
  · intro b hb
    rcases List.mem_cons.mp hb with rfl | hb
    · unfold NumberByte; decide
    · exact numberByte_posText _ _ _ _ _ b hb

/-! ### records -/

/-- C109: whatever bytes were received, the float64 numbers of a record that is saved are numbers of the type -/
theorem saved_floats [P : Platform] (env : Env) (hasStore : Bool) (tail : Tail) (chunks : List Bytes) (r : NavRecord)
    (hr : r ∈ savesOf (handleConn env hasStore tail chunks).1) :
    (∀ s ∈ r.LocStates, rnd s.Latitude = s.Latitude ∧ rnd s.Longitude = s.Longitude) ∧ ∀ q ∈ r.LiquidSensors, rnd q.ValueL = q.ValueL := by
  obtain ⟨-, c, -, k, p, l, -, hd, hb, -, hne, h1, -, -, h4, -⟩ := saved_from_packet env hasStore tail chunks r hr
  constructor
  · intro s hs
    rw [h1] at hs
    obtain ⟨d, hdm, rfl⟩ := List.mem_map.mp hs
    obtain ⟨b, hdb⟩ := position_origin hd hb d hdm
    obtain ⟨-, rfl⟩ := (pos_decode_iff b d).mp hdb
    exact ⟨rnd_idem _, rnd_idem _⟩
  · intro q hq
    rw [h4] at hq
    obtain ⟨d, hdm, rfl⟩ := List.mem_map.mp hq
    unfold liquidOf
    simp only
    split
    · exact rnd_idem _
    · rfl

theorem saved_floatsOk [P : Platform] (env : Env) (hasStore : Bool) (tail : Tail) (chunks : List Bytes) (r : NavRecord)
    (hr : r ∈ savesOf (handleConn env hasStore tail chunks).1) : r.FloatsOk goNum := by
  obtain ⟨h1, h2⟩ := saved_floats env hasStore tail chunks r hr
  exact ⟨fun s hs => ⟨goNum_back _ (h1 s hs).1, goNum_back _ (h1 s hs).2⟩, fun q hq => goNum_back _ (h2 q hq)⟩

/-- C109: for every record that is saved in any run, the text is JSON, UTF-8, on one line, without <, >, &, U+2028 and U+2029, and a
reader that reads numbers as float64 gets exactly the record, up to the replacement of malformed UTF-8. Nothing is assumed of the
formatting of numbers. -/
theorem saved_text [P : Platform] (bf : Bool) (env : Env) (hasStore : Bool) (tail : Tail) (chunks : List Bytes) (r : NavRecord)
    (hr : r ∈ savesOf (handleConn env hasStore tail chunks).1) :
    (∃ r' : NavRecord, parse (r.text (goFmt bf).toJsonFmt) = some r'.json ∧ parse (r.logText (goFmt bf).toJsonFmt) = some r'.json ∧
      r'.mapFloats rnd = r) ∧
    HarmlessText (r.text (goFmt bf).toJsonFmt) := by
  have h := log_text_document (F := (goFmt bf).toJsonFmt) (dv := goNum) goNum_text r
  exact ⟨⟨r.mapFloats goNum, h.2 ▸ h.1, h.1, mapFloats_rnd (saved_floatsOk env hasStore tail chunks r hr)⟩,
    record_text_harmless _ float_text_bytes r⟩

/-- C109: two records that are saved (in any runs) with the same text are the same, if the IMEIs are UTF-8. -/
theorem saved_text_lossless_partial [P : Platform] (bf : Bool) (env env' : Env) (hs hs' : Bool) (t t' : Tail) (cs cs' : List Bytes)
    (r r' : NavRecord) (hr : r ∈ savesOf (handleConn env hs t cs).1) (hr' : r' ∈ savesOf (handleConn env' hs' t' cs').1)
    (hnow : ∀ k, ValidUtf8 (env.now k)) (hnow' : ∀ k, ValidUtf8 (env'.now k)) (hi : ValidUtf8 r.IMEI) (hi' : ValidUtf8 r'.IMEI)
    (he : r.text (goFmt bf).toJsonFmt = r'.text (goFmt bf).toJsonFmt) : r = r' :=
  text_lossless_partial (F := (goFmt bf).toJsonFmt) goNum_text r r' (saved_texts_ok env hs t cs r hr hnow hi)
    (saved_texts_ok env' hs' t' cs' r' hr' hnow' hi') (saved_floatsOk env hs t cs r hr) (saved_floatsOk env' hs' t' cs' r' hr') he

/-- the records due for the packets of a stream are those that are saved -/
theorem due_saved [P : Platform] (env : Env) (tail : Tail) (pks : List (Bytes × Nat × List ServiceDataRecord))
    (h : ∀ k ∈ pks, DataPacket k.1 k.2.1 k.2.2 ∧ NoResponses k.2.2)
    (chunks : List Bytes) (hc : chunks.flatten = (pks.map (·.1)).flatten) :
    dueRecords env 0 pks = savesOf (handleConn env true tail chunks).1 := by
  have hcut : CutInto chunks.flatten (pks.map (·.1)) [] := by
    refine ⟨by rw [hc, List.append_nil], fun x hx => ?_, .inl (by simp)⟩
    obtain ⟨k, hk, rfl⟩ := List.mem_map.mp hx
    exact framed_taken (data_packet_framed _ _ _ (h k hk).1)
  rw [stream_behaviour env tail chunks _ _ hcut, (reactAll_due env tail pks h 0).1]

/-- C109: C102 without assumptions on the formatting of numbers: the message of every call is the text of the record due, one line of
JSON, and a reader that reads numbers as float64 gets exactly this record, up to the replacement of malformed UTF-8. -/
theorem end_to_end_go [P : Platform] (bf : Bool)
    (read : Bytes → Option (List (Bytes × YamlValue))) (order : List (Bytes × Option Params) → List (Bytes × Option Params))
    (ho : ∀ l, (order l).Perm l) (g : Dial → Option Nat) (listen : Bytes → Bool) (path host port level : Bytes) (n : Int64)
    (st : List (Bytes × Option Params)) (hp : path ≠ [])
    (hf : read path = some [(asc "host", .str host), (asc "port", .str port), (asc "conn_ttl", .num n),
      (asc "log_level", .str level), (asc "storage", .sec st)])
    (hl : listen (host ++ asc ":" ++ port) = true) (hne : st ≠ [])
    (hi : ∀ e ∈ st, ∃ kind p, e.2 = some p ∧ (e.1, kind) ∈ storageNames ∧
      ∀ w, ∃ w', connectorInit (accepting g (goFmt bf).toJsonFmt) kind (some p) w = (.ok, w'))
    (env : Env) (tail : Tail) (pks : List (Bytes × Nat × List ServiceDataRecord))
    (h : ∀ k ∈ pks, DataPacket k.1 k.2.1 k.2.2 ∧ NoResponses k.2.2)
    (chunks : List Bytes) (hc : chunks.flatten = (pks.map (·.1)).flatten) :
    ∃ s : Serving, receiverMain read order (accepting g (goFmt bf).toJsonFmt) listen path [] = (.serves s, []) ∧
      s.stores.length = st.length ∧
      (∀ name kind p, (name, kind) ∈ storageNames → (name, some p) ∈ st → (kind, p) ∈ s.stores) ∧
      (perform (s.stores.map (accepting g (goFmt bf).toJsonFmt).saver) (handleConn env true tail chunks).1 []).2 =
        (dueRecords env 0 pks).flatMap (fun r => s.stores.filterMap fun (kind, p) => callOf kind p (r.text (goFmt bf).toJsonFmt)) ∧
      ∀ r ∈ dueRecords env 0 pks, HarmlessText (r.text (goFmt bf).toJsonFmt) ∧
        ∃ r' : NavRecord, parse (r.text (goFmt bf).toJsonFmt) = some r'.json ∧ r'.mapFloats rnd = r := by
  obtain ⟨s, h1, h2, h3, h4, -⟩ := end_to_end (goFmt bf).toJsonFmt goNum goNum_text read order ho g listen path host port level n st hp hf hl
    hne hi env tail pks h chunks hc
  refine ⟨s, h1, h2, h3, h4, fun r hr => ?_⟩
  rw [due_saved env tail pks h chunks hc] at hr
  obtain ⟨⟨r', g1, -, g2⟩, g3⟩ := saved_text bf env true tail chunks r hr
  exact ⟨g3, r', g1, g2⟩

/-- C109: `package_text_document` of the formatting that is modelled: the text of a package is JSON and is read as its document -/
theorem package_text_go (f2u32OutOfRange : F64 → UInt32) (bf : Bool) : letI : Platform := protobufPlatform f2u32OutOfRange
    ∀ (nilRD : ServiceDataRecord → Bool) (p : Package) (t : Bytes), p.toBytes (goFmt bf) ⟨StorageRecord.goVal, nilRD⟩ = some t →
      parse t = some (p.doc goDoc ⟨fun m => (StorageRecord.goVal m).json goDoc, nilRD⟩) := by
  intro nilRD p t h
  let _ : Platform := protobufPlatform f2u32OutOfRange
  exact package_text_document (goFmt_ok bf) _ storage_keyed p t h

/-- a latitude as it comes from the network, and a liquid level -/
example : floatText (latOfRaw 0x9E3B2F10) = asc "55.62815164579734" ∧ floatText (fdiv (f64OfInt 12345) 10) = asc "1234.5" := by
  decide +kernel

end Egts
