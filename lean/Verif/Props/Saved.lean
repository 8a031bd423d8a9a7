import Verif.Props.Time
import Verif.Props.Trace
import Verif.Props.Json
import Verif.Props.SubWire
set_option autoImplicit false
/- C68: what every saved record looks like; C67: which saved records have a lossless document. -/
namespace Egts
open Frame
variable [P : Platform]

/-- a decoded liquid sensor comes from the liquid sensor decoder -/
theorem decodeSub_liquid {t : UInt8} {srl : UInt16} {b : Bytes} {d : SrLiquidLevelSensor}
    (h : decodeSub nestedDecode t srl b = .ok (.liquid d)) : SrLiquidLevelSensor.decode {} b = .ok d := by
  have hk := decodeSub_kind t srl b _ h
  have : t = 27 := by
    by_cases h20 : t = 20
    · rw [if_pos h20] at hk; simp [SubData.typeCode] at hk
    · rw [if_neg h20] at hk; exact hk.symm
  subst this
  have e : decodeSub nestedDecode 27 srl b = (SrLiquidLevelSensor.decode {} b).map SubData.liquid := by simp [decodeSub]
  rw [e] at h
  obtain ⟨a, h1, h2⟩ := out_map_ok h
  cases h2; exact h1

omit P in
/-- flags and number of a decoded liquid sensor, whatever the length of the subrecord -/
theorem liquid_flags {b : Bytes} {d : SrLiquidLevelSensor} (h : SrLiquidLevelSensor.decode {} b = .ok d) :
    d.LiquidLevelSensorErrorFlag = bitText (byteAt b 0) 6 ∧ d.LiquidLevelSensorValueUnit = bitText (byteAt b 0) 5 ++ bitText (byteAt b 0) 4 ∧
      d.LiquidLevelSensorNumber.toNat = bitsNat (byteAt b 0) 0 3 := by
  cases b with
  | nil => cases h
  | cons x b =>
    obtain ⟨f0, f1, f2, f3, f4, f5, f6, f7⟩ := fmt_text1 x
    have hn : parseUint2 ((fmtBin 8 x.toNat).drop 5) 8 = (x.toNat % 8, none) := by
      have : ∀ n : Fin 256, parseUint2 ((fmtBin 8 n.val).drop 5) 8 = (n.val % 8, none) := by decide +kernel
      exact this ⟨_, x.toNat_lt⟩
    have hu : sl (fmtBin 8 x.toNat) 2 4 = bitText x 5 ++ bitText x 4 := by
      rw [← f2, ← f3, fmt_byte]; rfl
    have hb : byteAt (x :: b) 0 = x := rfl
    rw [hb]
    unfold SrLiquidLevelSensor.decode Dec.run at h
    revert h
    cases hw : SrLiquidLevelSensor.decodeM {} (x :: b) with
    | ok a s1 r1 =>
      intro h; cases h
      unfold SrLiquidLevelSensor.decodeM at hw
      obtain ⟨c, s2, r2, h2, g2⟩ := Dec.bind_inv hw
      rw [Dec.readByte_cons] at h2
      cases h2
      rw [Dec.bind_ok (Dec.upd_apply _ _ _)] at g2
      simp only [hn] at g2
      obtain ⟨n, s3, r3, h3, g3⟩ := Dec.bind_inv g2
      cases h3
      rw [Dec.bind_ok (Dec.upd_apply _ _ _)] at g3
      obtain ⟨t, s4, r4, h4, g4⟩ := Dec.bind_inv g3
      obtain ⟨rfl, -⟩ := Dec.read_inv h4
      rw [Dec.bind_ok (Dec.upd_apply _ _ _)] at g4
      obtain ⟨t', s5, r5, h5, g5⟩ := Dec.bind_inv g4
      obtain ⟨rfl, -⟩ := Dec.read_inv h5
      cases g5
      refine ⟨f1, hu, ?_⟩
      show (UInt8.ofNat (x.toNat % 8)).toNat = _
      unfold bitsNat
      rw [UInt8.toNat_ofNat']
      omega
    | err e x => intro h; cases h
    | panic => intro h; cases h
    | diverge => intro h; cases h

omit P in
/-- a decoded speed is below 1639 km/h -/
theorem speed_decoded {b : Bytes} {e : SrPosData} (h : SrPosData.decode {} b = .ok e) : e.Speed.toNat < 1639 := by
  obtain ⟨-, rfl⟩ := (pos_decode_iff b e).mp h
  show (UInt16.ofNat (spdWord b % 16384) / 10).toNat < 1639
  rw [UInt16.toNat_div, UInt16.toNat_ofNat']
  have : (10 : UInt16).toNat = 10 := rfl
  rw [this]
  omega

/-- positions of accepted packets come from position subrecords -/
theorem position_origin {c spare : Bytes} {p : Package} {l : ServiceDataSet} (hd : Package.decode {} c spare = .ret 0 none p)
    (hb : p.ServicesFrameData = some (.appdata l)) (d : SrPosData) (h : d ∈ positions (subsOf l)) : ∃ b, SrPosData.decode {} b = .ok d := by
  obtain ⟨x, hx, hxd⟩ := List.mem_filterMap.mp h
  obtain ⟨t, srl, content, hs⟩ := subs_origin (accepted_body hd hb) x hx
  cases x <;> cases hxd
  exact ⟨content, decodeSub_pos hs⟩

omit P in
theorem loc_denotes {d : SrPosData} {b : Bytes} (h : SrPosData.decode {} b = .ok d) :
    unixOf d.NavigationTime = 1262304000 + (ntm b : Int) ∧ Denotes (locOf d).NavigationDt (1262304000 + (ntm b : Int)) := by
  have ht := navtime_decoded b d h
  have hlt : ntm b < 2 ^ 32 := wireNat_lt b 0 4
  have hu : unixOf d.NavigationTime = 1262304000 + (ntm b : Int) := by
    unfold unixOf
    rw [ht]
    omega
  refine ⟨hu, ?_⟩
  show Denotes (rfc3339 (unixOf d.NavigationTime)) _
  rw [hu]
  exact rfc3339_denotes _ (by omega) (by omega)

/-- C68: in every record saved in any run, whatever bytes were received: at least one location; every location has latitude 0 to 90, longitude 0 to 180,
speed below 1639 km/h, and its time is an RFC 3339 text that denotes 2010-01-01T00:00:00Z plus the 32-bit number sent by the terminal; the time of
the record is the instant denoted by the last of these texts; sensor numbers, error flags and units of liquid sensors are 3-, 1- and 2-bit texts. -/
theorem saved_wellformed (env : Env) (hasStore : Bool) (tail : Tail) (chunks : List Bytes) (r : NavRecord)
    (hr : r ∈ savesOf (handleConn env hasStore tail chunks).1) :
    (∀ s ∈ r.LocStates, 0 ≤ s.Latitude ∧ s.Latitude ≤ 90 ∧ 0 ≤ s.Longitude ∧ s.Longitude ≤ 180 ∧ s.Speed.toNat < 1639 ∧
      ∃ n : Nat, n < 2 ^ 32 ∧ Denotes s.NavigationDt (1262304000 + n)) ∧
    (∃ s, r.LocStates.getLast? = some s ∧ Denotes s.NavigationDt r.NavigationTimestamp) ∧
    (∀ q ∈ r.LiquidSensors, q.SensorNumber.toNat < 8 ∧ q.ErrorFlag ∈ [[48], [49]] ∧
      q.ValueUnit ∈ [[48, 48], [48, 49], [49, 48], [49, 49]]) := by
  obtain ⟨-, c, -, k, p, l, -, hd, hb, -, hne, h1, -, -, h4, -, -, ⟨pos, hp, ht⟩, -⟩ := saved_from_packet env hasStore tail chunks r hr
  refine ⟨?_, ?_, ?_⟩
  · intro s hs
    rw [h1] at hs
    obtain ⟨d, hdm, rfl⟩ := List.mem_map.mp hs
    obtain ⟨b, hdb⟩ := position_origin hd hb d hdm
    obtain ⟨-, c1, c2, -, c3, c4⟩ := coord_decoded b d hdb
    exact ⟨c1, c2, c3, c4, speed_decoded hdb, ntm b, wireNat_lt b 0 4, (loc_denotes hdb).2⟩
  · obtain ⟨b, hdb⟩ := position_origin hd hb pos (List.mem_of_getLast? hp)
    refine ⟨locOf pos, by rw [h1, List.getLast?_map, hp]; rfl, ?_⟩
    rw [ht, (loc_denotes hdb).1]
    exact (loc_denotes hdb).2
  · intro q hq
    rw [h4] at hq
    obtain ⟨d, hdm, rfl⟩ := List.mem_map.mp hq
    obtain ⟨x, hx, hxd⟩ := List.mem_filterMap.mp hdm
    obtain ⟨t, srl, content, hs⟩ := subs_origin (accepted_body hd hb) x hx
    cases x <;> cases hxd
    obtain ⟨g1, g2, g3⟩ := liquid_flags (decodeSub_liquid hs)
    refine ⟨?_, ?_, ?_⟩
    · show d.LiquidLevelSensorNumber.toNat < 8
      rw [g3]; unfold bitsNat; omega
    · show d.LiquidLevelSensorErrorFlag ∈ _
      rw [g1]; unfold bitText; split <;> decide
    · show d.LiquidLevelSensorValueUnit ∈ _
      rw [g2]; unfold bitText; split <;> split <;> decide

omit P in
theorem decimal_ascii {s : Bytes} {n : Nat} (h : decimal s = some n) : ∀ b ∈ s, b.toNat < 128 := by
  unfold decimal at h
  dsimp only at h
  split at h
  · rename_i ha
    intro b hb
    have := List.all_eq_true.mp ha b hb
    simp at this
    omega
  · cases h

omit P in
/-- a date-time text is valid UTF-8 -/
theorem denotes_valid {t : Bytes} {u : Int} (h : Denotes t u) : ValidUtf8 t := by
  obtain ⟨y, m, d, hh, mi, s, ⟨ty, tm, td, th, tmi, ts, rfl, -, -, -, -, -, -, p1, p2, p3, p4, p5, p6⟩, -⟩ := h
  apply ascii_valid
  intro b hb
  simp only [List.mem_append, List.mem_singleton] at hb
  rcases hb with ((((((((((hb | rfl) | hb) | rfl) | hb) | rfl) | hb) | rfl) | hb) | rfl) | hb) | rfl
  · exact decimal_ascii p1 b hb
  · decide
  · exact decimal_ascii p2 b hb
  · decide
  · exact decimal_ascii p3 b hb
  · decide
  · exact decimal_ascii p4 b hb
  · decide
  · exact decimal_ascii p5 b hb
  · decide
  · exact decimal_ascii p6 b hb
  · decide

/-- C67: the only text of a saved record that may not be valid UTF-8 is the IMEI (for a clock that writes valid UTF-8). -/
theorem saved_texts_ok (env : Env) (hasStore : Bool) (tail : Tail) (chunks : List Bytes) (r : NavRecord)
    (hr : r ∈ savesOf (handleConn env hasStore tail chunks).1) (hnow : ∀ k, ValidUtf8 (env.now k)) (hi : ValidUtf8 r.IMEI) : r.TextsOk := by
  obtain ⟨w1, -, w3⟩ := saved_wellformed env hasStore tail chunks r hr
  obtain ⟨-, c, -, k, p, l, -, hd, hb, -, hne, -, -, -, -, -, -, -, h5, h6⟩ := saved_from_packet env hasStore tail chunks r hr
  refine ⟨?_, hi, by rw [h5]; exact hnow k, ?_, ?_⟩
  · rw [h6]; exact ascii_valid _ (by decide)
  · intro s hs
    obtain ⟨-, -, -, -, -, n, -, hn⟩ := w1 s hs
    exact denotes_valid hn
  · intro q hq
    obtain ⟨-, g1, g2⟩ := w3 q hq
    have v1 : ∀ x ∈ ([[48], [49]] : List Bytes), ∀ b ∈ x, b.toNat < 128 := by decide
    have v2 : ∀ x ∈ ([[48, 48], [48, 49], [49, 48], [49, 49]] : List Bytes), ∀ b ∈ x, b.toNat < 128 := by decide
    exact ⟨ascii_valid _ (v1 _ g1), ascii_valid _ (v2 _ g2)⟩

/-- C67 (partial), for runs: two saved records (of any runs) with valid IMEI texts and equal documents are equal. Missing: IMEIs that are not valid UTF-8. -/
theorem saved_lossless_partial (env env' : Env) (hs hs' : Bool) (t t' : Tail) (cs cs' : List Bytes) (r r' : NavRecord)
    (hr : r ∈ savesOf (handleConn env hs t cs).1) (hr' : r' ∈ savesOf (handleConn env' hs' t' cs').1)
    (hnow : ∀ k, ValidUtf8 (env.now k)) (hnow' : ∀ k, ValidUtf8 (env'.now k)) (hi : ValidUtf8 r.IMEI) (hi' : ValidUtf8 r'.IMEI)
    (he : r.json = r'.json) : r = r' :=
  json_lossless_partial r r' (saved_texts_ok env hs t cs r hr hnow hi) (saved_texts_ok env' hs' t' cs' r' hr' hnow' hi') he

/-- non-vacuity of C66, C67 and C68: the example packet (two positions, a liquid sensor) leads to a saved record -/
theorem exPacket_saved (env : Env) : ∃ r, r ∈ savesOf (handleConn env true .silent [exPacket]).1 ∧ r.LocStates.length = 2 ∧ r.LiquidSensors.length = 1 := by
  obtain ⟨p, l, hd, hb, hn, hpos, -, -, -, hq⟩ := exPacket_meets (P := P) (env.spare 0)
  refine ⟨exportOf (env.now 0) p.PacketIdentifier l, ?_, ?_, ?_⟩
  · rw [data_saved env exPacket p l exPacket_framed hd hb hn, if_neg]
    · simp
    · intro hc
      rw [List.isEmpty_iff] at hc
      rw [hc] at hpos
      cases hpos
  · show ((positions (subsOf l)).map locOf).length = 2
    rw [List.length_map, hpos]
  · show (((subsOf l).filterMap (·.liquid?)).map liquidOf).length = 1
    rw [List.length_map, hq]

end Egts
