import Verif.Spec.Flags
import Verif.Props.Package
import Verif.Props.Pos
/- Flags that are not flags: what Encode does with arbitrary texts as flags (C107). -/
set_option autoImplicit false
namespace Egts

theorem binValue_lt (s : Bytes) : binValue s < 2 ^ s.length := by
  induction s with
  | nil => simp [binValue]
  | cons c cs ih => simp only [binValue, List.length_cons, Nat.pow_succ]; split <;> omega

/-- the loop of ParseUint on binary digits -/
theorem parseLoop_digits (m : Nat) : ∀ (s : Bytes) (n : Nat), (∀ c ∈ s, c = 48 ∨ c = 49) →
    n ≤ m → parseLoop m s n = if n * 2 ^ s.length + binValue s ≤ m then (n * 2 ^ s.length + binValue s, none) else (m, some .parseRange) := by
  intro s
  induction s with
  | nil => intro n _ hm; simp [parseLoop, binValue, hm]
  | cons c cs ih =>
    intro n hs hm
    have hc := hs c (by simp)
    unfold parseLoop
    simp only [hc, if_true]
    have key : n * 2 ^ (c :: cs).length + binValue (c :: cs) =
        (2 * n + (if c = 49 then 1 else 0)) * 2 ^ cs.length + binValue cs := by
      simp only [binValue, List.length_cons, Nat.pow_succ, Nat.add_mul]
      split <;> simp <;> ring
    rw [key]
    generalize 2 * n + (if c = 49 then 1 else 0) = v
    split
    · rename_i h
      rw [if_neg]
      have : 1 ≤ 2 ^ cs.length := Nat.one_le_two_pow
      nlinarith
    · rename_i h
      rw [ih _ (fun x hx => hs x (by simp [hx])) (by omega)]

theorem parseLoop_bad (m : Nat) : ∀ (s : Bytes) (n : Nat), ¬ (∀ c ∈ s, c = 48 ∨ c = 49) → ∃ v e, parseLoop m s n = (v, some e) := by
  intro s
  induction s with
  | nil => intro n h; simp at h
  | cons c cs ih =>
    intro n hs
    unfold parseLoop
    split
    · rename_i hc
      dsimp only
      generalize 2 * n + (if c = 49 then 1 else 0) = v
      split
      · exact ⟨_, _, rfl⟩
      · apply ih
        intro h
        apply hs
        intro x hx
        rcases List.mem_cons.1 hx with rfl | hx
        · exact hc
        · exact h x hx
    · exact ⟨_, _, rfl⟩

theorem flatten_digits {fs : List Bytes} : (∀ f ∈ fs, ∀ c ∈ f, c = 48 ∨ c = 49) ↔ ∀ c ∈ fs.flatten, c = 48 ∨ c = 49 := by
  constructor
  · intro h c hc
    obtain ⟨f, hf, hcf⟩ := List.mem_flatten.1 hc
    exact h f hf c hcf
  · intro h f hf c hc
    exact h c (List.mem_flatten.2 ⟨f, hf, hc⟩)

/-- ParseUint accepts exactly the texts that spell a byte -/
theorem parseFlags_iff (fs : List Bytes) (f : UInt8) :
    parseFlags fs.flatten = .ok f ↔ FlagText fs ∧ f.toNat = binValue fs.flatten := by
  unfold parseFlags parseUint2 FlagText
  rw [flatten_digits]
  by_cases h0 : fs.flatten = []
  · simp [h0]
  by_cases hd : ∀ c ∈ fs.flatten, c = 48 ∨ c = 49
  · rw [if_neg h0, parseLoop_digits _ _ _ hd (by omega)]
    simp only [Nat.zero_mul, Nat.zero_add]
    by_cases hv : binValue fs.flatten ≤ 255
    · rw [if_pos (by omega)]
      simp only [Go.ok.injEq]
      rw [← UInt8.toNat_inj]
      simp only [UInt8.toNat_ofNat']
      rw [Nat.mod_eq_of_lt (by omega)]
      constructor
      · intro h; exact ⟨⟨h0, hd, hv⟩, h.symm⟩
      · intro h; exact h.2.symm
    · rw [if_neg (by omega)]
      simp only [reduceCtorEq, false_iff]
      intro h; exact hv h.1.2.2
  · obtain ⟨v, e, h⟩ := parseLoop_bad (2 ^ 8 - 1) fs.flatten 0 hd
    rw [if_neg h0, h]
    simp only [reduceCtorEq, false_iff]
    intro h; exact hd h.1.2.1

theorem parseFlags_total (fs : List Bytes) : (∃ f, parseFlags fs.flatten = .ok f) ↔ FlagText fs := by
  constructor
  · rintro ⟨f, h⟩; exact ((parseFlags_iff fs f).1 h).1
  · intro h
    refine ⟨UInt8.ofNat (binValue fs.flatten), (parseFlags_iff fs _).2 ⟨h, ?_⟩⟩
    have := h.2.2
    simp only [UInt8.toNat_ofNat']
    exact Nat.mod_eq_of_lt (by omega)

theorem digits_bits (s : Bytes) (hs : ∀ c ∈ s, c = 48 ∨ c = 49) : s = bitsOf s.length (binValue s) := by
  induction s with
  | nil => rfl
  | cons c cs ih =>
    have h1 := ih fun x hx => hs x (by simp [hx])
    have hlt := binValue_lt cs
    unfold bitsOf at h1 ⊢
    rw [List.length_cons, List.range_succ_eq_map, List.map_cons, List.map_map]
    congr 1
    · simp only [binValue, Nat.add_sub_cancel, Nat.sub_zero]
      rcases hs c (by simp) with rfl | rfl
      · simp [Nat.testBit_lt_two_pow hlt]
      · simp [Nat.testBit_two_pow_add_eq, Nat.testBit_lt_two_pow hlt]
    · conv_lhs => rw [h1]
      apply List.map_congr_left
      intro k hk
      have hk' : k < cs.length := List.mem_range.1 hk
      have e : cs.length + 1 - 1 - (k + 1) = cs.length - 1 - k := by omega
      have hb : (binValue (c :: cs)).testBit (cs.length + 1 - 1 - (k + 1)) = (binValue cs).testBit (cs.length - 1 - k) := by
        rw [e]
        simp only [binValue]
        rcases hs c (by simp) with rfl | rfl
        · simp
        · rw [if_pos rfl, Nat.testBit_two_pow_add_gt (by omega)]
      simp only [Function.comp, hb]

theorem writes_of_parse {r : Go Bytes} {i : Nat} {fs : List Bytes}
    (h : ∀ out, r = .ok out → ∃ f, parseFlags fs.flatten = .ok f ∧ out[i]? = some f) : FlagsWritten r i fs where
  refused := by
    intro hn out he
    obtain ⟨f, hf, _⟩ := h out he
    exact hn ((parseFlags_iff fs f).1 hf).1
  value := by
    intro out he
    obtain ⟨f, hf, hi⟩ := h out he
    exact ⟨f, hi, ((parseFlags_iff fs f).1 hf).2⟩
  exact := by
    intro out he hl
    obtain ⟨f, hf, hi⟩ := h out he
    refine ⟨f, hi, ?_⟩
    have := (parseFlags_iff fs f).1 hf
    rw [this.2, ← hl]
    exact digits_bits _ (flatten_digits.1 this.1.2.1)

theorem Go.bind_eq_ok {α β : Type} {m : Go α} {f : α → Go β} {b : β} (h : (m >>= f) = .ok b) :
    ∃ a, m = .ok a ∧ f a = .ok b := by
  cases m with
  | ok a => exact ⟨a, rfl, h⟩
  | err e => cases h
  | panic => cases h

/-- Encode of a position writes iff the flags spell a byte -/
theorem flags_pos [Platform] (e : SrPosData) :
    ((∃ out, e.encode = .ok out) ↔ FlagText [e.ALTE, e.LOHS, e.LAHS, e.MV, e.BB, e.CS, e.FIX, e.VLD]) ∧
    FlagsWritten e.encode 12 [e.ALTE, e.LOHS, e.LAHS, e.MV, e.BB, e.CS, e.FIX, e.VLD] := by
  have ht : [e.ALTE, e.LOHS, e.LAHS, e.MV, e.BB, e.CS, e.FIX, e.VLD].flatten =
      e.ALTE ++ e.LOHS ++ e.LAHS ++ e.MV ++ e.BB ++ e.CS ++ e.FIX ++ e.VLD := by simp
  constructor
  · rw [← parseFlags_total, ht]
    constructor
    · rintro ⟨out, h⟩
      obtain ⟨f, hf, -⟩ := Go.bind_eq_ok h
      exact ⟨f, hf⟩
    · rintro ⟨f, hf⟩
      unfold SrPosData.encode
      rw [hf]
      exact ⟨_, rfl⟩
  · apply writes_of_parse
    rw [ht]
    intro out h
    obtain ⟨f, hf, ho⟩ := Go.bind_eq_ok h
    refine ⟨f, hf, ?_⟩
    injection ho with ho
    rw [← ho]
    rfl

/-- Encode of an extended position -/
theorem flags_extpos (e : SrExtPosData) :
    ((∃ out, e.encode = .ok out) ↔ FlagText [[48, 48, 48], e.NavigationSystemFieldExists, e.SatellitesFieldExists,
      e.PdopFieldExists, e.HdopFieldExists, e.VdopFieldExists]) ∧
    FlagsWritten e.encode 0 [[48, 48, 48], e.NavigationSystemFieldExists, e.SatellitesFieldExists,
      e.PdopFieldExists, e.HdopFieldExists, e.VdopFieldExists] := by
  have ht : [[48, 48, 48], e.NavigationSystemFieldExists, e.SatellitesFieldExists,
      e.PdopFieldExists, e.HdopFieldExists, e.VdopFieldExists].flatten =
      [48, 48, 48] ++ e.NavigationSystemFieldExists ++ e.SatellitesFieldExists
    ++ e.PdopFieldExists ++ e.HdopFieldExists ++ e.VdopFieldExists := by simp
  constructor
  · rw [← parseFlags_total, ht]
    constructor
    · rintro ⟨out, h⟩
      obtain ⟨f, hf, -⟩ := Go.bind_eq_ok h
      exact ⟨f, hf⟩
    · rintro ⟨f, hf⟩
      unfold SrExtPosData.encode
      rw [hf]
      exact ⟨_, rfl⟩
  · apply writes_of_parse
    rw [ht]
    intro out h
    obtain ⟨f, hf, ho⟩ := Go.bind_eq_ok h
    refine ⟨f, hf, ?_⟩
    injection ho with ho
    rw [← ho]
    rfl

/-- Encode of a state -/
theorem flags_state (e : SrStateData) :
    ((∃ out, e.encode = .ok out) ↔ FlagText [[48, 48, 48, 48, 48], e.NMS, e.IBU, e.BBU]) ∧
    FlagsWritten e.encode 4 [[48, 48, 48, 48, 48], e.NMS, e.IBU, e.BBU] := by
  have ht : [[48, 48, 48, 48, 48], e.NMS, e.IBU, e.BBU].flatten = [48, 48, 48, 48, 48] ++ e.NMS ++ e.IBU ++ e.BBU := by simp
  constructor
  · rw [← parseFlags_total, ht]
    constructor
    · rintro ⟨out, h⟩
      obtain ⟨f, hf, -⟩ := Go.bind_eq_ok h
      exact ⟨f, hf⟩
    · rintro ⟨f, hf⟩
      unfold SrStateData.encode
      rw [hf]
      exact ⟨_, rfl⟩
  · apply writes_of_parse
    rw [ht]
    intro out h
    obtain ⟨f, hf, ho⟩ := Go.bind_eq_ok h
    refine ⟨f, hf, ?_⟩
    injection ho with ho
    rw [← ho]
    rfl

/-- Encode of a liquid level, for the sensor numbers 0..7 of the protocol -/
theorem flags_liquid (e : SrLiquidLevelSensor) (hn : e.LiquidLevelSensorNumber.toNat < 8) :
    ((∃ out, e.encode = .ok out) ↔ FlagText [[48], e.LiquidLevelSensorErrorFlag, e.LiquidLevelSensorValueUnit,
      e.RawDataFlag, bitsOf 3 e.LiquidLevelSensorNumber.toNat]) ∧
    FlagsWritten e.encode 0 [[48], e.LiquidLevelSensorErrorFlag, e.LiquidLevelSensorValueUnit,
      e.RawDataFlag, bitsOf 3 e.LiquidLevelSensorNumber.toNat] := by
  have hb : ∀ n : Fin 8, fmtBin 3 n.val = bitsOf 3 n.val := by decide +kernel
  have ht : [[48], e.LiquidLevelSensorErrorFlag, e.LiquidLevelSensorValueUnit,
      e.RawDataFlag, bitsOf 3 e.LiquidLevelSensorNumber.toNat].flatten = [48] ++ e.LiquidLevelSensorErrorFlag ++ e.LiquidLevelSensorValueUnit
    ++ e.RawDataFlag ++ fmtBin 3 e.LiquidLevelSensorNumber.toNat := by
    have := hb ⟨_, hn⟩
    dsimp only at this
    rw [this]
    simp
  constructor
  · rw [← parseFlags_total, ht]
    constructor
    · rintro ⟨out, h⟩
      obtain ⟨f, hf, -⟩ := Go.bind_eq_ok h
      exact ⟨f, hf⟩
    · rintro ⟨f, hf⟩
      unfold SrLiquidLevelSensor.encode
      rw [hf]
      exact ⟨_, rfl⟩
  · apply writes_of_parse
    rw [ht]
    intro out h
    obtain ⟨f, hf, ho⟩ := Go.bind_eq_ok h
    refine ⟨f, hf, ?_⟩
    injection ho with ho
    rw [← ho]
    rfl

/-- Encode of sensors: two bytes of flags (the analog ones are written first to last, C27) -/
theorem flags_adsensors (e : SrAdSensorsData) :
    ((∃ out, e.encode = .ok out) ↔ FlagText [e.DIOE8, e.DIOE7, e.DIOE6, e.DIOE5, e.DIOE4, e.DIOE3, e.DIOE2, e.DIOE1] ∧
      FlagText [e.ASFE1, e.ASFE2, e.ASFE3, e.ASFE4, e.ASFE5, e.ASFE6, e.ASFE7, e.ASFE8]) ∧
    FlagsWritten e.encode 0 [e.DIOE8, e.DIOE7, e.DIOE6, e.DIOE5, e.DIOE4, e.DIOE3, e.DIOE2, e.DIOE1] ∧
    FlagsWritten e.encode 2 [e.ASFE1, e.ASFE2, e.ASFE3, e.ASFE4, e.ASFE5, e.ASFE6, e.ASFE7, e.ASFE8] := by
  have ht : [e.DIOE8, e.DIOE7, e.DIOE6, e.DIOE5, e.DIOE4, e.DIOE3, e.DIOE2, e.DIOE1].flatten =
      e.DIOE8 ++ e.DIOE7 ++ e.DIOE6 ++ e.DIOE5 ++ e.DIOE4 ++ e.DIOE3 ++ e.DIOE2 ++ e.DIOE1 := by simp
  have ht2 : [e.ASFE1, e.ASFE2, e.ASFE3, e.ASFE4, e.ASFE5, e.ASFE6, e.ASFE7, e.ASFE8].flatten =
      e.ASFE1 ++ e.ASFE2 ++ e.ASFE3 ++ e.ASFE4 ++ e.ASFE5 ++ e.ASFE6 ++ e.ASFE7 ++ e.ASFE8 := by simp
  refine ⟨?_, ?_, ?_⟩
  · rw [← parseFlags_total, ← parseFlags_total, ht, ht2]
    constructor
    · rintro ⟨out, h⟩
      obtain ⟨f, hf, h⟩ := Go.bind_eq_ok h
      obtain ⟨g, hg, h⟩ := Go.bind_eq_ok h
      exact ⟨⟨f, hf⟩, ⟨g, hg⟩⟩
    · rintro ⟨⟨f, hf⟩, ⟨g, hg⟩⟩
      unfold SrAdSensorsData.encode
      rw [hf, hg]
      exact ⟨_, rfl⟩
  · apply writes_of_parse
    rw [ht]
    intro out h
    obtain ⟨f, hf, h⟩ := Go.bind_eq_ok h
    obtain ⟨g, hg, ho⟩ := Go.bind_eq_ok h
    injection ho with ho
    refine ⟨f, hf, ?_⟩
    simp [← ho]
  · apply writes_of_parse
    rw [ht2]
    intro out h
    obtain ⟨f, hf, h⟩ := Go.bind_eq_ok h
    obtain ⟨g, hg, ho⟩ := Go.bind_eq_ok h
    injection ho with ho
    refine ⟨g, hg, ?_⟩
    simp [← ho]

/-- Encode of counters -/
theorem flags_counters (e : SrCountersData) :
    ((∃ out, e.encode = .ok out) ↔ FlagText [e.CFE8, e.CFE7, e.CFE6, e.CFE5, e.CFE4, e.CFE3, e.CFE2, e.CFE1]) ∧
    FlagsWritten e.encode 0 [e.CFE8, e.CFE7, e.CFE6, e.CFE5, e.CFE4, e.CFE3, e.CFE2, e.CFE1] := by
  have ht : [e.CFE8, e.CFE7, e.CFE6, e.CFE5, e.CFE4, e.CFE3, e.CFE2, e.CFE1].flatten =
      e.CFE8 ++ e.CFE7 ++ e.CFE6 ++ e.CFE5 ++ e.CFE4 ++ e.CFE3 ++ e.CFE2 ++ e.CFE1 := by simp
  constructor
  · rw [← parseFlags_total, ht]
    constructor
    · rintro ⟨out, h⟩
      obtain ⟨f, hf, -⟩ := Go.bind_eq_ok h
      exact ⟨f, hf⟩
    · rintro ⟨f, hf⟩
      unfold SrCountersData.encode
      rw [hf]
      exact ⟨_, rfl⟩
  · apply writes_of_parse
    rw [ht]
    intro out h
    obtain ⟨f, hf, ho⟩ := Go.bind_eq_ok h
    refine ⟨f, hf, ?_⟩
    injection ho with ho
    rw [← ho]
    rfl

/-- Encode of a record: its flags and its subrecords decide -/
theorem flags_record [Platform] (e : ServiceDataRecord) :
    ((∃ out, ServiceDataSet.encode [e] = .ok out) ↔ FlagText [e.SourceServiceOnDevice, e.RecipientServiceOnDevice, e.Group,
      e.RecordProcessingPriority, e.TimeFieldExists, e.EventIDFieldExists, e.ObjectIDFieldExists] ∧
      ∃ rd, RecordDataSet.encode e.RecordDataSet = .ok rd) ∧
    FlagsWritten (ServiceDataSet.encode [e]) 4 [e.SourceServiceOnDevice, e.RecipientServiceOnDevice, e.Group,
      e.RecordProcessingPriority, e.TimeFieldExists, e.EventIDFieldExists, e.ObjectIDFieldExists] := by
  have ht : [e.SourceServiceOnDevice, e.RecipientServiceOnDevice, e.Group,
      e.RecordProcessingPriority, e.TimeFieldExists, e.EventIDFieldExists, e.ObjectIDFieldExists].flatten =
      e.SourceServiceOnDevice ++ e.RecipientServiceOnDevice ++ e.Group
    ++ e.RecordProcessingPriority ++ e.TimeFieldExists ++ e.EventIDFieldExists
    ++ e.ObjectIDFieldExists := by simp
  have h1 : ServiceDataSet.encode [e] = (ServiceDataRecord.encode e >>= fun b => Go.ok (b ++ [])) := rfl
  rw [h1]
  constructor
  · rw [← parseFlags_total, ht]
    constructor
    · rintro ⟨out, h⟩
      obtain ⟨b, h, -⟩ := Go.bind_eq_ok h
      obtain ⟨rd, hr, h⟩ := Go.bind_eq_ok h
      obtain ⟨f, hf, -⟩ := Go.bind_eq_ok h
      exact ⟨⟨f, hf⟩, rd, hr⟩
    · rintro ⟨⟨f, hf⟩, rd, hr⟩
      unfold ServiceDataRecord.encode
      rw [hr]
      simp only [Go.ok_bind]
      rw [hf]
      exact ⟨_, rfl⟩
  · apply writes_of_parse
    rw [ht]
    intro out h
    obtain ⟨b, h, hb⟩ := Go.bind_eq_ok h
    obtain ⟨rd, hr, h⟩ := Go.bind_eq_ok h
    obtain ⟨f, hf, ho⟩ := Go.bind_eq_ok h
    refine ⟨f, hf, ?_⟩
    injection ho with ho
    injection hb with hb
    rw [← hb, ← ho]
    rfl

/-- Encode of a package: its flags and its body decide -/
theorem flags_package [Platform] (p : Package) :
    ((∃ out, p.encode = .ok out) ↔ FlagText [p.Prefix, p.Route, p.EncryptionAlg, p.Compression, p.Priority] ∧
      (∀ b, p.ServicesFrameData = some b → ∃ d, b.encode = .ok d)) ∧
    FlagsWritten (p.encode >>= fun r => .ok r.1) 2 [p.Prefix, p.Route, p.EncryptionAlg, p.Compression, p.Priority] := by
  have ht : [p.Prefix, p.Route, p.EncryptionAlg, p.Compression, p.Priority].flatten =
      p.Prefix ++ p.Route ++ p.EncryptionAlg ++ p.Compression ++ p.Priority := by simp
  constructor
  · rw [← parseFlags_total, ht]
    constructor
    · rintro ⟨out, h⟩
      obtain ⟨f, hf, h⟩ := Go.bind_eq_ok h
      obtain ⟨d, hd, h⟩ := Go.bind_eq_ok h
      refine ⟨⟨f, hf⟩, fun b hb => ⟨d, ?_⟩⟩
      simp only [hb] at hd
      exact hd
    · rintro ⟨⟨f, hf⟩, hb⟩
      unfold Package.encode
      rw [hf]
      simp only [Go.ok_bind]
      cases hs : p.ServicesFrameData with
      | none => simp only [Go.ok_bind]; split <;> exact ⟨_, rfl⟩
      | some b =>
        obtain ⟨d, hd⟩ := hb b hs
        simp only [hd, Go.ok_bind]; split <;> exact ⟨_, rfl⟩
  · apply writes_of_parse
    rw [ht]
    intro out h
    obtain ⟨r, h, hr⟩ := Go.bind_eq_ok h
    obtain ⟨f, hf, h⟩ := Go.bind_eq_ok h
    obtain ⟨d, hd, h⟩ := Go.bind_eq_ok h
    refine ⟨f, hf, ?_⟩
    injection hr with hr
    rw [← hr]
    revert h
    dsimp only
    split <;> (intro h; injection h with h; rw [← h]; rfl)

/-- Full claim false: the terminal's identification is written whatever its flags are -/
theorem flags_identity_anything (e : SrTermIdentity) : ∃ out, e.encode = .ok out := ⟨_, rfl⟩

/-- … and flags that are not binary digits are written as "no optional fields" -/
theorem flags_identity_zero (e : SrTermIdentity)
    (h : ∃ c ∈ e.MNE ++ e.BSE ++ e.NIDE ++ e.SSRA ++ e.LNGCE ++ e.IMSIE ++ e.IMEIE ++ e.HDIDE, c ≠ 48 ∧ c ≠ 49)
    (hl : (e.MNE ++ e.BSE ++ e.NIDE ++ e.SSRA ++ e.LNGCE ++ e.IMSIE ++ e.IMEIE ++ e.HDIDE).length ≤ 8) :
    ∃ out, e.encode = .ok out ∧ out[4]? = some 0 := by
  have key : ∀ (s : Bytes) (n : Nat), n * 2 ^ s.length + (2 ^ s.length - 1) ≤ 255 → (∃ c ∈ s, c ≠ 48 ∧ c ≠ 49) →
      (parseLoop (2 ^ 8 - 1) s n).1 = 0 := by
    intro s
    induction s with
    | nil => intro n _ h; simp at h
    | cons c cs ih =>
      intro n hn h
      unfold parseLoop
      split
      · rename_i hc
        have hv : (if c = 49 then 1 else 0) ≤ 1 := by split <;> omega
        dsimp only
        generalize (if c = 49 then 1 else 0) = v at hv ⊢
        have hp : 1 ≤ 2 ^ cs.length := Nat.one_le_two_pow
        have e1 : 2 ^ (c :: cs).length = 2 * 2 ^ cs.length := by rw [List.length_cons, Nat.pow_succ]; ring
        rw [e1] at hn
        have h2 : (2 * n + v) * 2 ^ cs.length + (2 ^ cs.length - 1) ≤ 255 := by
          have : (2 * n + v) * 2 ^ cs.length ≤ n * (2 * 2 ^ cs.length) + 2 ^ cs.length := by nlinarith
          omega
        rw [if_neg (by
          have : (2 * n + v) * 1 ≤ (2 * n + v) * 2 ^ cs.length := Nat.mul_le_mul_left _ hp
          omega)]
        apply ih _ h2
        obtain ⟨x, hx, hx'⟩ := h
        rcases List.mem_cons.1 hx with rfl | hx
        · rcases hc with rfl | rfl <;> simp at hx'
        · exact ⟨x, hx, hx'⟩
      · rfl
  refine ⟨_, rfl, ?_⟩
  generalize hs : e.MNE ++ e.BSE ++ e.NIDE ++ e.SSRA ++ e.LNGCE ++ e.IMSIE ++ e.IMEIE ++ e.HDIDE = s at h hl
  have h0 : (parseUint2 s 8).1 = 0 := by
    unfold parseUint2
    split
    · rfl
    · apply key _ _ _ h
      have : 2 ^ s.length ≤ 2 ^ 8 := Nat.pow_le_pow_right (by omega) hl
      omega
  rw [h0]
  rfl

/-- Full claim false: digits may slip from one flag to the next; the encoder sees only all of them together -/
theorem flags_pos_shifted [Platform] (e : SrPosData) :
    ({ e with LOHS := e.LOHS ++ e.LAHS, LAHS := [] } : SrPosData).encode = e.encode := by
  simp only [SrPosData.encode, SrPosData.speedWord, List.append_assoc, List.append_nil]

/-- Full claim false: a position whose flag ALTE is written as two digits is encoded into bytes Decode refuses -/
theorem flags_pos_own_output_refused [Platform] (e : SrPosData) (h : e.ALTE = [49, 49]) (h' : e.LOHS = [])
    (hf : ∀ f ∈ [e.LAHS, e.MV, e.BB, e.CS, e.FIX, e.VLD], f = [48] ∨ f = [49]) :
    ∃ out, e.encode = .ok out ∧ ∀ e', SrPosData.decode {} out ≠ .ok e' := by
  have one : ∀ f ∈ [e.LAHS, e.MV, e.BB, e.CS, e.FIX, e.VLD], ∃ b, f = bitS b := by
    intro f hm
    rcases hf f hm with rfl | rfl
    · exact ⟨false, rfl⟩
    · exact ⟨true, rfl⟩
  obtain ⟨b5, h5⟩ := one _ (by simp : e.LAHS ∈ _)
  obtain ⟨b4, h4⟩ := one _ (by simp : e.MV ∈ _)
  obtain ⟨b3, h3⟩ := one _ (by simp : e.BB ∈ _)
  obtain ⟨b2, h2⟩ := one _ (by simp : e.CS ∈ _)
  obtain ⟨b1, h1⟩ := one _ (by simp : e.FIX ∈ _)
  obtain ⟨b0, h0⟩ := one _ (by simp : e.VLD ∈ _)
  have hp := parse_bits true true b5 b4 b3 b2 b1 b0
  have he : e.ALTE ++ e.LOHS ++ e.LAHS ++ e.MV ++ e.BB ++ e.CS ++ e.FIX ++ e.VLD =
      [dig true, dig true, dig b5, dig b4, dig b3, dig b2, dig b1, dig b0] := by
    rw [h, h', h5, h4, h3, h2, h1, h0]; rfl
  unfold SrPosData.encode
  rw [he, hp]
  refine ⟨_, rfl, ?_⟩
  intro e' hd
  rw [pos_decode_iff] at hd
  obtain ⟨⟨hl, ha⟩, -⟩ := hd
  have hlen : ∀ (x y z : UInt32) (f : UInt8) (w : UInt16) (d : UInt8) (o : UInt32) (p q : UInt8),
    (le32 x ++ le32 y ++ le32 z ++ [f] ++ le16 w ++ [d] ++ (le32 o).take 3 ++ [p, q] ++ (if e.ALTE == [49] then (le32 e.Altitude).take 3 else [])).length = 21 := by
    intro x y z f w d o p q
    rw [h]; rfl
  rw [hlen] at ha
  have : Frame.hasAlt (le32 (rawOfNavTime e.NavigationTime) ++ le32 (rawOfLat e.Latitude) ++ le32 (rawOfLon e.Longitude) ++
    [flagByte true true b5 b4 b3 b2 b1 b0] ++ le16 e.speedWord ++ [e.Direction &&& ~~~(e.DirectionHighestBit <<< 7)] ++
    (le32 e.Odometer).take 3 ++ [e.DigitalInputs, e.Source] ++ (if e.ALTE == [49] then (le32 e.Altitude).take 3 else [])) = true := by
    show ((flagByte true true b5 b4 b3 b2 b1 b0).toNat.testBit 7) = true
    have k : ∀ b5 b4 b3 b2 b1 b0 : Bool, (flagByte true true b5 b4 b3 b2 b1 b0).toNat.testBit 7 = true := by decide
    exact k _ _ _ _ _ _
  have := ha this
  omega

/-- a position, a package and a record whose flags were never set are refused -/
theorem flags_unset_refused [Platform] : (∀ out, SrPosData.encode {} ≠ .ok out) ∧ (∀ out, Package.encode {} ≠ .ok out) ∧
    ∀ out, ServiceDataSet.encode [{}] ≠ .ok out := by
  have h0 : ∀ fs : List Bytes, fs.flatten = [] → ¬ FlagText fs := fun fs h hf => hf.1 h
  refine ⟨(flags_pos {}).2.refused (h0 _ rfl), ?_, (flags_record {}).2.refused (h0 _ rfl)⟩
  intro out h
  exact h0 _ rfl ((flags_package {}).1.1 ⟨out, h⟩).1

/- the flags of a package, as Decode returns them, are such flags -/
example : FlagText [[48, 48], [49], [48, 48], [48], [49, 49]] := by
  refine ⟨by decide, by decide, by decide⟩
/- texts that are not: letters, nothing, more than 8 bits -/
example : ¬ FlagText [[48, 48], [50]] := fun h => absurd (h.2.1 [50] (by simp) 50 (by simp)) (by decide)
example : ¬ FlagText [[49], [48, 48, 48, 48, 48, 48, 48, 48]] := fun h => absurd h.2.2 (by decide)
example : bitsOf 8 35 = [48, 48, 49, 48, 48, 48, 49, 49] := by decide
/- the counterexamples exist -/
example : ∃ e : SrTermIdentity, ∃ c ∈ e.MNE ++ e.BSE ++ e.NIDE ++ e.SSRA ++ e.LNGCE ++ e.IMSIE ++ e.IMEIE ++ e.HDIDE, c ≠ 48 ∧ c ≠ 49 :=
  ⟨{ IMEIE := [121, 101, 115] }, 121, by decide, by decide⟩

end Egts
