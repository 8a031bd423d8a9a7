import Verif.Model.SrAdSensorsData
import Verif.Props.Counters
set_option autoImplicit false
/- C27: analog/digital sensor subrecord.  The full property (round trip for every combination of
the sixteen existence flags) is false of the code: egts_sr_ad_sensors_data.go:237-244 writes the
analog flags in reverse order.  `adsensors_wrong` is the counterexample,
`adsensors_behaviour` proves the digital half for every combination of all sixteen flags and
that the analog flags always come back reversed, and
`adsensors_roundtrip_partial` proves the whole round trip exactly for the flag combinations that
are equal to their reversal. -/
namespace Egts

/-- all sixteen existence flags are `"0"` or `"1"` -/
def SrAdSensorsData.FlagsOk (e : SrAdSensorsData) : Prop :=
  (IsBit e.DIOE1 ∧ IsBit e.DIOE2 ∧ IsBit e.DIOE3 ∧ IsBit e.DIOE4 ∧ IsBit e.DIOE5 ∧ IsBit e.DIOE6 ∧
    IsBit e.DIOE7 ∧ IsBit e.DIOE8) ∧
  (IsBit e.ASFE1 ∧ IsBit e.ASFE2 ∧ IsBit e.ASFE3 ∧ IsBit e.ASFE4 ∧ IsBit e.ASFE5 ∧ IsBit e.ASFE6 ∧
    IsBit e.ASFE7 ∧ IsBit e.ASFE8)

/-- the analog existence flags read the same in both directions -/
def SrAdSensorsData.AnalogFlagsSymmetric (e : SrAdSensorsData) : Prop :=
  e.ASFE1 = e.ASFE8 ∧ e.ASFE2 = e.ASFE7 ∧ e.ASFE3 = e.ASFE6 ∧ e.ASFE4 = e.ASFE5

/-- one optional three-byte field when enough bytes remain -/
theorem Dec.optRead3_any {σ : Type} (b : Bool) (k : Nat) {cond : σ → Bytes} {p r : Bytes}
    {set : σ → UInt32 → σ} {get : σ → UInt32} {e : σ} (hc : cond e = bitS b) (hp : p.length = 3)
    (hs : ∀ e, set e (get e) = e) (hr : r.length = 3 * (b.toNat + k)) :
    ∃ p' v r', Dec.optRead cond p u24 set e r = .ok p' (set e v) r' ∧ p'.length = 3 ∧ r'.length = 3 * k := by
  cases b with
  | false =>
    refine ⟨p, get e, r, ?_, hp, by simpa using hr⟩
    simp [Dec.optRead, Dec.bind_apply, hc, hs]
  | true =>
    match r, hr with
    | a :: b :: c :: r, hr =>
      refine ⟨[a, b, c], u24 [a, b, c], r, ?_, rfl, ?_⟩
      · have := Dec.read_append p [a, b, c] r e (by simp [hp]) (by simp)
        simp only [List.cons_append, List.nil_append] at this
        simp [Dec.optRead, Dec.bind_apply, hc, this]
      · simp at hr; omega
    | [], hr => simp at hr; omega
    | [_], hr => simp at hr; omega
    | [_, _], hr => simp at hr; omega

/-- the analog part of the decoder when the number of remaining bytes fits the flags -/
theorem SrAdSensorsData.analog_any (e : SrAdSensorsData) (r : Bytes) (a1 a2 a3 a4 a5 a6 a7 a8 : Bool)
    (h1 : e.ASFE1 = bitS a1) (h2 : e.ASFE2 = bitS a2) (h3 : e.ASFE3 = bitS a3) (h4 : e.ASFE4 = bitS a4)
    (h5 : e.ASFE5 = bitS a5) (h6 : e.ASFE6 = bitS a6) (h7 : e.ASFE7 = bitS a7) (h8 : e.ASFE8 = bitS a8)
    (hr : r.length = 3 * (a1.toNat + (a2.toNat + (a3.toNat + (a4.toNat + (a5.toNat + (a6.toNat +
      (a7.toNat + (a8.toNat + 0))))))))) :
    ∃ v1 v2 v3 v4 v5 v6 v7 v8, (do
  let tmp ← Dec.optRead (·.ASFE1) (zeros 3) u24 fun e v => { e with ANS1 := v }
  let tmp ← Dec.optRead (·.ASFE2) tmp u24 fun e v => { e with ANS2 := v }
  let tmp ← Dec.optRead (·.ASFE3) tmp u24 fun e v => { e with ANS3 := v }
  let tmp ← Dec.optRead (·.ASFE4) tmp u24 fun e v => { e with ANS4 := v }
  let tmp ← Dec.optRead (·.ASFE5) tmp u24 fun e v => { e with ANS5 := v }
  let tmp ← Dec.optRead (·.ASFE6) tmp u24 fun e v => { e with ANS6 := v }
  let tmp ← Dec.optRead (·.ASFE7) tmp u24 fun e v => { e with ANS7 := v }
  let _ ← Dec.optRead (·.ASFE8) tmp u24 fun e v => { e with ANS8 := v }
  pure () : Dec SrAdSensorsData Unit) e r = .ok () { e with ANS1 := v1, ANS2 := v2, ANS3 := v3, ANS4 := v4, ANS5 := v5, ANS6 := v6, ANS7 := v7, ANS8 := v8 } [] := by
  obtain ⟨p1, v1, r1, s1, hp1, hr1⟩ := Dec.optRead3_any a1 _ (cond := (·.ASFE1)) (p := zeros 3) (set := fun (e : SrAdSensorsData) v => { e with ANS1 := v })
    (get := (·.ANS1)) (e := e) h1 rfl (fun _ => rfl) hr
  obtain ⟨p2, v2, r2, s2, hp2, hr2⟩ := Dec.optRead3_any a2 _ (cond := (·.ASFE2)) (p := p1) (set := fun (e : SrAdSensorsData) v => { e with ANS2 := v })
    (get := (·.ANS2)) (e := { e with ANS1 := v1 }) h2 hp1 (fun _ => rfl) hr1
  obtain ⟨p3, v3, r3, s3, hp3, hr3⟩ := Dec.optRead3_any a3 _ (cond := (·.ASFE3)) (p := p2) (set := fun (e : SrAdSensorsData) v => { e with ANS3 := v })
    (get := (·.ANS3)) (e := { e with ANS1 := v1, ANS2 := v2 }) h3 hp2 (fun _ => rfl) hr2
  obtain ⟨p4, v4, r4, s4, hp4, hr4⟩ := Dec.optRead3_any a4 _ (cond := (·.ASFE4)) (p := p3) (set := fun (e : SrAdSensorsData) v => { e with ANS4 := v })
    (get := (·.ANS4)) (e := { e with ANS1 := v1, ANS2 := v2, ANS3 := v3 }) h4 hp3 (fun _ => rfl) hr3
  obtain ⟨p5, v5, r5, s5, hp5, hr5⟩ := Dec.optRead3_any a5 _ (cond := (·.ASFE5)) (p := p4) (set := fun (e : SrAdSensorsData) v => { e with ANS5 := v })
    (get := (·.ANS5)) (e := { e with ANS1 := v1, ANS2 := v2, ANS3 := v3, ANS4 := v4 }) h5 hp4 (fun _ => rfl) hr4
  obtain ⟨p6, v6, r6, s6, hp6, hr6⟩ := Dec.optRead3_any a6 _ (cond := (·.ASFE6)) (p := p5) (set := fun (e : SrAdSensorsData) v => { e with ANS6 := v })
    (get := (·.ANS6)) (e := { e with ANS1 := v1, ANS2 := v2, ANS3 := v3, ANS4 := v4, ANS5 := v5 }) h6 hp5 (fun _ => rfl) hr5
  obtain ⟨p7, v7, r7, s7, hp7, hr7⟩ := Dec.optRead3_any a7 _ (cond := (·.ASFE7)) (p := p6) (set := fun (e : SrAdSensorsData) v => { e with ANS7 := v })
    (get := (·.ANS7)) (e := { e with ANS1 := v1, ANS2 := v2, ANS3 := v3, ANS4 := v4, ANS5 := v5, ANS6 := v6 }) h7 hp6 (fun _ => rfl) hr6
  obtain ⟨p8, v8, r8, s8, hp8, hr8⟩ := Dec.optRead3_any a8 _ (cond := (·.ASFE8)) (p := p7) (set := fun (e : SrAdSensorsData) v => { e with ANS8 := v })
    (get := (·.ANS8)) (e := { e with ANS1 := v1, ANS2 := v2, ANS3 := v3, ANS4 := v4, ANS5 := v5, ANS6 := v6, ANS7 := v7 }) h8 hp7 (fun _ => rfl) hr7
  refine ⟨v1, v2, v3, v4, v5, v6, v7, v8, ?_⟩
  rw [Dec.bind_ok s1]
  rw [Dec.bind_ok s2]
  rw [Dec.bind_ok s3]
  rw [Dec.bind_ok s4]
  rw [Dec.bind_ok s5]
  rw [Dec.bind_ok s6]
  rw [Dec.bind_ok s7]
  rw [Dec.bind_ok s8]
  have : r8 = [] := by simpa using hr8
  rw [this]; rfl

/-- exact behaviour of the digital half and of all flags, for every combination of the sixteen flags. -/
theorem adsensors_behaviour (e : SrAdSensorsData) (hf : e.FlagsOk) :
    ∃ b, e.encode = .ok b ∧ ∃ v1 v2 v3 v4 v5 v6 v7 v8, SrAdSensorsData.decode {} b = .ok { e with
      ADIO1 := if e.DIOE1 = [49] then e.ADIO1 else 0
      ADIO2 := if e.DIOE2 = [49] then e.ADIO2 else 0
      ADIO3 := if e.DIOE3 = [49] then e.ADIO3 else 0
      ADIO4 := if e.DIOE4 = [49] then e.ADIO4 else 0
      ADIO5 := if e.DIOE5 = [49] then e.ADIO5 else 0
      ADIO6 := if e.DIOE6 = [49] then e.ADIO6 else 0
      ADIO7 := if e.DIOE7 = [49] then e.ADIO7 else 0
      ADIO8 := if e.DIOE8 = [49] then e.ADIO8 else 0
      ASFE1 := e.ASFE8
      ASFE2 := e.ASFE7
      ASFE3 := e.ASFE6
      ASFE4 := e.ASFE5
      ASFE5 := e.ASFE4
      ASFE6 := e.ASFE3
      ASFE7 := e.ASFE2
      ASFE8 := e.ASFE1
      ANS1 := v1
      ANS2 := v2
      ANS3 := v3
      ANS4 := v4
      ANS5 := v5
      ANS6 := v6
      ANS7 := v7
      ANS8 := v8 } := by
  obtain ⟨⟨h1, h2, h3, h4, h5, h6, h7, h8⟩, g1, g2, g3, g4, g5, g6, g7, g8⟩ := hf
  obtain ⟨d1, d2, d3, d4, d5, d6, d7, d8, dout, a1, a2, a3, a4, a5, a6, a7, a8, x1, x2, x3, x4, x5, x6, x7, x8,
    y1, y2, y3, y4, y5, y6, y7, y8⟩ := e
  simp only at h1 h2 h3 h4 h5 h6 h7 h8 g1 g2 g3 g4 g5 g6 g7 g8 ⊢
  obtain ⟨d1, rfl⟩ := isBit_iff.mp h1
  obtain ⟨a1, rfl⟩ := isBit_iff.mp g1
  obtain ⟨d2, rfl⟩ := isBit_iff.mp h2
  obtain ⟨a2, rfl⟩ := isBit_iff.mp g2
  obtain ⟨d3, rfl⟩ := isBit_iff.mp h3
  obtain ⟨a3, rfl⟩ := isBit_iff.mp g3
  obtain ⟨d4, rfl⟩ := isBit_iff.mp h4
  obtain ⟨a4, rfl⟩ := isBit_iff.mp g4
  obtain ⟨d5, rfl⟩ := isBit_iff.mp h5
  obtain ⟨a5, rfl⟩ := isBit_iff.mp g5
  obtain ⟨d6, rfl⟩ := isBit_iff.mp h6
  obtain ⟨a6, rfl⟩ := isBit_iff.mp g6
  obtain ⟨d7, rfl⟩ := isBit_iff.mp h7
  obtain ⟨a7, rfl⟩ := isBit_iff.mp g7
  obtain ⟨d8, rfl⟩ := isBit_iff.mp h8
  obtain ⟨a8, rfl⟩ := isBit_iff.mp g8
  have hf1 : parseFlags (bitS d8 ++ bitS d7 ++ bitS d6 ++ bitS d5 ++ bitS d4 ++ bitS d3 ++ bitS d2 ++ bitS d1)
    = .ok (flagByte d8 d7 d6 d5 d4 d3 d2 d1) := parse_bits _ _ _ _ _ _ _ _
  have hf2 : parseFlags (bitS a1 ++ bitS a2 ++ bitS a3 ++ bitS a4 ++ bitS a5 ++ bitS a6 ++ bitS a7 ++ bitS a8)
    = .ok (flagByte a1 a2 a3 a4 a5 a6 a7 a8) := parse_bits _ _ _ _ _ _ _ _
  refine ⟨_, by simp only [SrAdSensorsData.encode, hf1, hf2, Go.ok_bind]; rfl, ?_⟩
  simp only [SrAdSensorsData.decode, encOpt24_bitS, encOptByte_bitS, bitS_eq49, List.append_assoc, List.cons_append,
    List.nil_append]
  have hlen : ∀ (b : Bool) (v : UInt32), (if b = true then (le32 v).take 3 else []).length = 3 * b.toNat := by
    intro b v; cases b <;> simp
  generalize hR : ((if a1 = true then _ else _) ++ _ : Bytes) = R
  have hRl : R.length = 3 * (a8.toNat + (a7.toNat + (a6.toNat + (a5.toNat + (a4.toNat + (a3.toNat +
      (a2.toNat + (a1.toNat + 0)))))))) := by
    rw [← hR]; simp only [List.length_append, hlen]; omega
  have fin : ∃ v1 v2 v3 v4 v5 v6 v7 v8, SrAdSensorsData.decodeM {} (flagByte d8 d7 d6 d5 d4 d3 d2 d1 :: dout ::
      flagByte a1 a2 a3 a4 a5 a6 a7 a8 :: ((if d1 = true then [x1] else []) ++ ((if d2 = true then [x2] else []) ++
      ((if d3 = true then [x3] else []) ++ ((if d4 = true then [x4] else []) ++ ((if d5 = true then [x5] else []) ++
      ((if d6 = true then [x6] else []) ++ ((if d7 = true then [x7] else []) ++ ((if d8 = true then [x8] else []) ++ R)))))))))
      = .ok () (⟨bitS d1, bitS d2, bitS d3, bitS d4, bitS d5, bitS d6, bitS d7, bitS d8, dout,
        bitS a8, bitS a7, bitS a6, bitS a5, bitS a4, bitS a3, bitS a2, bitS a1,
        if d1 = true then x1 else 0, if d2 = true then x2 else 0, if d3 = true then x3 else 0, if d4 = true then x4 else 0,
        if d5 = true then x5 else 0, if d6 = true then x6 else 0, if d7 = true then x7 else 0, if d8 = true then x8 else 0,
        v1, v2, v3, v4, v5, v6, v7, v8⟩ : SrAdSensorsData) [] := by
    obtain ⟨v1, v2, v3, v4, v5, v6, v7, v8, hv⟩ := SrAdSensorsData.analog_any
      (⟨bitS d1, bitS d2, bitS d3, bitS d4, bitS d5, bitS d6, bitS d7, bitS d8, dout,
        bitS a8, bitS a7, bitS a6, bitS a5, bitS a4, bitS a3, bitS a2, bitS a1,
        if d1 = true then x1 else 0, if d2 = true then x2 else 0, if d3 = true then x3 else 0, if d4 = true then x4 else 0,
        if d5 = true then x5 else 0, if d6 = true then x6 else 0, if d7 = true then x7 else 0, if d8 = true then x8 else 0,
        0, 0, 0, 0, 0, 0, 0, 0⟩ : SrAdSensorsData) R a8 a7 a6 a5 a4 a3 a2 a1 rfl rfl rfl rfl rfl rfl rfl rfl hRl
    refine ⟨v1, v2, v3, v4, v5, v6, v7, v8, ?_⟩
    unfold SrAdSensorsData.decodeM
    refine Dec.step (Dec.readByte_cons _ _ _) ?_
    rw [fmt_flagByte]
    refine Dec.step (Dec.upd_apply _ _ _) ?_; dsimp only [sl, List.drop, List.take]
    refine Dec.step (Dec.readByteTo_cons _ _ _ _) ?_
    refine Dec.step (Dec.readByte_cons _ _ _) ?_
    rw [fmt_flagByte]
    refine Dec.step (Dec.upd_apply _ _ _) ?_; dsimp only [sl, List.drop, List.take]
    refine Dec.step (Dec.optByte_step (·.ADIO1) d1 x1) ?_; dsimp only
    refine Dec.step (Dec.optByte_step (·.ADIO2) d2 x2) ?_; dsimp only
    refine Dec.step (Dec.optByte_step (·.ADIO3) d3 x3) ?_; dsimp only
    refine Dec.step (Dec.optByte_step (·.ADIO4) d4 x4) ?_; dsimp only
    refine Dec.step (Dec.optByte_step (·.ADIO5) d5 x5) ?_; dsimp only
    refine Dec.step (Dec.optByte_step (·.ADIO6) d6 x6) ?_; dsimp only
    refine Dec.step (Dec.optByte_step (·.ADIO7) d7 x7) ?_; dsimp only
    refine Dec.step (Dec.optByte_step (·.ADIO8) d8 x8) ?_; dsimp only
    exact hv
  obtain ⟨v1, v2, v3, v4, v5, v6, v7, v8, h⟩ := fin
  exact ⟨v1, v2, v3, v4, v5, v6, v7, v8, Dec.run_of_ok h⟩

/-- C27, the part that holds: when the analog flags are symmetric the whole subrecord round-trips. -/
theorem adsensors_roundtrip_partial (e : SrAdSensorsData) (hf : e.FlagsOk) (hs : e.AnalogFlagsSymmetric)
    (hv : ∀ v ∈ [e.ANS1, e.ANS2, e.ANS3, e.ANS4, e.ANS5, e.ANS6, e.ANS7, e.ANS8], v.toNat < 16777216) :
    ∃ b, e.encode = .ok b ∧ SrAdSensorsData.decode {} b = .ok { e with
      ADIO1 := if e.DIOE1 = [49] then e.ADIO1 else 0
      ADIO2 := if e.DIOE2 = [49] then e.ADIO2 else 0
      ADIO3 := if e.DIOE3 = [49] then e.ADIO3 else 0
      ADIO4 := if e.DIOE4 = [49] then e.ADIO4 else 0
      ADIO5 := if e.DIOE5 = [49] then e.ADIO5 else 0
      ADIO6 := if e.DIOE6 = [49] then e.ADIO6 else 0
      ADIO7 := if e.DIOE7 = [49] then e.ADIO7 else 0
      ADIO8 := if e.DIOE8 = [49] then e.ADIO8 else 0
      ANS1 := if e.ASFE1 = [49] then e.ANS1 else 0
      ANS2 := if e.ASFE2 = [49] then e.ANS2 else 0
      ANS3 := if e.ASFE3 = [49] then e.ANS3 else 0
      ANS4 := if e.ASFE4 = [49] then e.ANS4 else 0
      ANS5 := if e.ASFE5 = [49] then e.ANS5 else 0
      ANS6 := if e.ASFE6 = [49] then e.ANS6 else 0
      ANS7 := if e.ASFE7 = [49] then e.ANS7 else 0
      ANS8 := if e.ASFE8 = [49] then e.ANS8 else 0 } := by
  obtain ⟨⟨h1, h2, h3, h4, h5, h6, h7, h8⟩, g1, g2, g3, g4, g5, g6, g7, g8⟩ := hf
  obtain ⟨d1, d2, d3, d4, d5, d6, d7, d8, dout, a1, a2, a3, a4, a5, a6, a7, a8, x1, x2, x3, x4, x5, x6, x7, x8,
    y1, y2, y3, y4, y5, y6, y7, y8⟩ := e
  simp only at h1 h2 h3 h4 h5 h6 h7 h8 g1 g2 g3 g4 g5 g6 g7 g8 hv ⊢
  obtain ⟨d1, rfl⟩ := isBit_iff.mp h1
  obtain ⟨a1, rfl⟩ := isBit_iff.mp g1
  obtain ⟨d2, rfl⟩ := isBit_iff.mp h2
  obtain ⟨a2, rfl⟩ := isBit_iff.mp g2
  obtain ⟨d3, rfl⟩ := isBit_iff.mp h3
  obtain ⟨a3, rfl⟩ := isBit_iff.mp g3
  obtain ⟨d4, rfl⟩ := isBit_iff.mp h4
  obtain ⟨a4, rfl⟩ := isBit_iff.mp g4
  obtain ⟨d5, rfl⟩ := isBit_iff.mp h5
  obtain ⟨a5, rfl⟩ := isBit_iff.mp g5
  obtain ⟨d6, rfl⟩ := isBit_iff.mp h6
  obtain ⟨a6, rfl⟩ := isBit_iff.mp g6
  obtain ⟨d7, rfl⟩ := isBit_iff.mp h7
  obtain ⟨a7, rfl⟩ := isBit_iff.mp g7
  obtain ⟨d8, rfl⟩ := isBit_iff.mp h8
  obtain ⟨a8, rfl⟩ := isBit_iff.mp g8
  have hf1 : parseFlags (bitS d8 ++ bitS d7 ++ bitS d6 ++ bitS d5 ++ bitS d4 ++ bitS d3 ++ bitS d2 ++ bitS d1)
    = .ok (flagByte d8 d7 d6 d5 d4 d3 d2 d1) := parse_bits _ _ _ _ _ _ _ _
  have hf2 : parseFlags (bitS a1 ++ bitS a2 ++ bitS a3 ++ bitS a4 ++ bitS a5 ++ bitS a6 ++ bitS a7 ++ bitS a8)
    = .ok (flagByte a1 a2 a3 a4 a5 a6 a7 a8) := parse_bits _ _ _ _ _ _ _ _
  obtain ⟨q1, q2, q3, q4⟩ := hs
  simp only at q1 q2 q3 q4
  obtain rfl := bitS_inj q1
  obtain rfl := bitS_inj q2
  obtain rfl := bitS_inj q3
  obtain rfl := bitS_inj q4
  simp only [List.mem_cons, List.not_mem_nil, or_false, forall_eq_or_imp, forall_eq] at hv
  obtain ⟨v1, v2, v3, v4, v5, v6, v7, v8⟩ := hv
  refine ⟨_, by simp only [SrAdSensorsData.encode, hf1, hf2, Go.ok_bind]; rfl, ?_⟩
  simp only [SrAdSensorsData.decode, encOpt24_bitS, encOptByte_bitS, bitS_eq49, List.append_assoc, List.cons_append,
    List.nil_append]
  apply Dec.run_of_ok (u := ()) (r := [])
  unfold SrAdSensorsData.decodeM
  refine Dec.step (Dec.readByte_cons _ _ _) ?_
  rw [fmt_flagByte]
  refine Dec.step (Dec.upd_apply _ _ _) ?_; dsimp only [sl, List.drop, List.take]
  refine Dec.step (Dec.readByteTo_cons _ _ _ _) ?_
  refine Dec.step (Dec.readByte_cons _ _ _) ?_
  rw [fmt_flagByte]
  refine Dec.step (Dec.upd_apply _ _ _) ?_; dsimp only [sl, List.drop, List.take]
  refine Dec.step (Dec.optByte_step (·.ADIO1) d1 x1) ?_; dsimp only
  refine Dec.step (Dec.optByte_step (·.ADIO2) d2 x2) ?_; dsimp only
  refine Dec.step (Dec.optByte_step (·.ADIO3) d3 x3) ?_; dsimp only
  refine Dec.step (Dec.optByte_step (·.ADIO4) d4 x4) ?_; dsimp only
  refine Dec.step (Dec.optByte_step (·.ADIO5) d5 x5) ?_; dsimp only
  refine Dec.step (Dec.optByte_step (·.ADIO6) d6 x6) ?_; dsimp only
  refine Dec.step (Dec.optByte_step (·.ADIO7) d7 x7) ?_; dsimp only
  refine Dec.step (Dec.optByte_step (·.ADIO8) d8 x8) ?_; dsimp only
  refine Dec.step (Dec.optRead_step (·.ANS1) a1 ((le32 y1).take 3)) ?_; dsimp only
  refine Dec.step (Dec.optRead_step (·.ANS2) a2 ((le32 y2).take 3)) ?_; dsimp only
  refine Dec.step (Dec.optRead_step (·.ANS3) a3 ((le32 y3).take 3)) ?_; dsimp only
  refine Dec.step (Dec.optRead_step (·.ANS4) a4 ((le32 y4).take 3)) ?_; dsimp only
  refine Dec.step (Dec.optRead_step (·.ANS5) a4 ((le32 y5).take 3)) ?_; dsimp only
  refine Dec.step (Dec.optRead_step (·.ANS6) a3 ((le32 y6).take 3)) ?_; dsimp only
  refine Dec.step (Dec.optRead_step (·.ANS7) a2 ((le32 y7).take 3)) ?_; dsimp only
  rw [← List.append_nil (if a1 = true then (le32 y8).take 3 else _)]
  refine Dec.step (Dec.optRead_step (·.ANS8) a1 ((le32 y8).take 3)) ?_; dsimp only
  simp [bitS, u24_take3, low24_of_lt, *]

/-- the symmetry hypothesis is necessary: whenever the analog flags are not symmetric the decoded
flags differ from the encoded ones. -/
theorem adsensors_symmetric_necessary (e : SrAdSensorsData) (hf : e.FlagsOk) (b : Bytes) (e' : SrAdSensorsData)
    (he : e.encode = .ok b) (hd : SrAdSensorsData.decode {} b = .ok e') :
    (e'.ASFE1, e'.ASFE2, e'.ASFE3, e'.ASFE4, e'.ASFE5, e'.ASFE6, e'.ASFE7, e'.ASFE8) =
      (e.ASFE8, e.ASFE7, e.ASFE6, e.ASFE5, e.ASFE4, e.ASFE3, e.ASFE2, e.ASFE1) ∧
    (e'.DIOE1, e'.DIOE2, e'.DIOE3, e'.DIOE4, e'.DIOE5, e'.DIOE6, e'.DIOE7, e'.DIOE8) =
      (e.DIOE1, e.DIOE2, e.DIOE3, e.DIOE4, e.DIOE5, e.DIOE6, e.DIOE7, e.DIOE8) ∧ e'.DOUT = e.DOUT := by
  obtain ⟨b', hb, v1, v2, v3, v4, v5, v6, v7, v8, h⟩ := adsensors_behaviour e hf
  obtain rfl : b' = b := by simpa [he] using hb.symm
  rw [h] at hd
  injection hd with hd
  subst hd
  simp

/-- C27 is false of the code: a subrecord with only analog sensor 1 (value 7) is decoded as one
with only analog sensor 8 (value 7). -/
theorem adsensors_wrong :
    ∃ e b e', SrAdSensorsData.FlagsOk e ∧ e.encode = .ok b ∧ SrAdSensorsData.decode {} b = .ok e' ∧
      e.ASFE1 = [49] ∧ e.ANS1 = 7 ∧ e'.ASFE1 = [48] ∧ e'.ANS1 = 0 ∧ e'.ASFE8 = [49] ∧ e'.ANS8 = 7 := by
  refine ⟨⟨[48], [48], [48], [48], [48], [48], [48], [48], 0, [49], [48], [48], [48], [48], [48], [48], [48],
    0, 0, 0, 0, 0, 0, 0, 0, 7, 0, 0, 0, 0, 0, 0, 0⟩, [0, 0, 128, 7, 0, 0], _, ?_, by decide, rfl, ?_⟩
  · simp [SrAdSensorsData.FlagsOk, IsBit]
  · decide

/-- concrete subrecord meeting the hypotheses of `adsensors_roundtrip_partial` (test). -/
example : let e : SrAdSensorsData := ⟨[49], [48], [49], [48], [48], [48], [48], [49], 3,
    [49], [48], [48], [49], [49], [48], [48], [49], 1, 0, 2, 0, 0, 0, 0, 9, 7, 0, 0, 16777215, 12, 0, 0, 80000⟩
    e.FlagsOk ∧ e.AnalogFlagsSymmetric ∧
    (∀ v ∈ [e.ANS1, e.ANS2, e.ANS3, e.ANS4, e.ANS5, e.ANS6, e.ANS7, e.ANS8], v.toNat < 16777216) := by
  refine ⟨by simp [SrAdSensorsData.FlagsOk, IsBit], by simp [SrAdSensorsData.AnalogFlagsSymmetric], by decide⟩

end Egts
