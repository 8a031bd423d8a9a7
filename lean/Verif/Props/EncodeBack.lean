import Verif.Props.Encodable
import Verif.Lemmas.Serve
import Verif.Props.DecodeAll
set_option autoImplicit false
/- C121: everything that Decode accepts can be encoded. -/
namespace Egts
open Frame

/-- after `m`, `I` holds -/
def Dec.Sets {σ α : Type} (I : σ → Prop) (m : Dec σ α) : Prop := ∀ s r a s' r', m s r = .ok a s' r' → I s'
/-- `m` does not destroy `I` -/
def Dec.Keeps {σ α : Type} (I : σ → Prop) (m : Dec σ α) : Prop := ∀ s r a s' r', I s → m s r = .ok a s' r' → I s'

section
variable {σ α β : Type} {I : σ → Prop}

theorem Dec.bind_of_ok {m : Dec σ α} {f : α → Dec σ β} {s s' : σ} {r r' : Bytes} {b : β} (h : (m >>= f) s r = .ok b s' r') :
    ∃ a s1 r1, m s r = .ok a s1 r1 ∧ f a s1 r1 = .ok b s' r' := by
  rw [Dec.bind_apply] at h
  revert h
  cases hm : m s r with
  | ok a s1 r1 => intro h; exact ⟨a, s1, r1, rfl, h⟩
  | err e s1 => intro h; cases h
  | panic => intro h; cases h
  | diverge => intro h; cases h

theorem Dec.Sets.later {m : Dec σ α} {f : α → Dec σ β} (h : ∀ a, Dec.Sets I (f a)) : Dec.Sets I (m >>= f) := by
  intro s r b s' r' hr
  obtain ⟨a, s1, r1, -, h2⟩ := Dec.bind_of_ok hr
  exact h a _ _ _ _ _ h2

theorem Dec.Sets.now {m : Dec σ α} {f : α → Dec σ β} (hm : Dec.Sets I m) (hf : ∀ a, Dec.Keeps I (f a)) : Dec.Sets I (m >>= f) := by
  intro s r b s' r' hr
  obtain ⟨a, s1, r1, h1, h2⟩ := Dec.bind_of_ok hr
  exact hf a _ _ _ _ _ (hm _ _ _ _ _ h1) h2

theorem Dec.Keeps.bind {m : Dec σ α} {f : α → Dec σ β} (hm : Dec.Keeps I m) (hf : ∀ a, Dec.Keeps I (f a)) : Dec.Keeps I (m >>= f) := by
  intro s r b s' r' hs hr
  obtain ⟨a, s1, r1, h1, h2⟩ := Dec.bind_of_ok hr
  exact hf a _ _ _ _ _ (hm _ _ _ _ _ hs h1) h2

theorem Dec.Sets.upd {f : σ → σ} (h : ∀ s, I (f s)) : Dec.Sets I (Dec.upd f) := by
  intro s r a s' r' hr; cases hr; exact h s

theorem Dec.Keeps.upd {f : σ → σ} (h : ∀ s, I s → I (f s)) : Dec.Keeps I (Dec.upd f) := by
  intro s r a s' r' hs hr; cases hr; exact h s hs

theorem Dec.Keeps.pure (a : α) : Dec.Keeps I (Pure.pure a : Dec σ α) := by
  intro s r a s' r' hs hr; cases hr; exact hs

theorem Dec.Keeps.get : Dec.Keeps I (Dec.get : Dec σ σ) := by
  intro s r a s' r' hs hr; cases hr; exact hs

theorem Dec.Keeps.readByte : Dec.Keeps I (Dec.readByte : Dec σ UInt8) := by
  intro s r a s' r' hs hr
  cases r <;> cases hr; exact hs

theorem Dec.Keeps.read (p : Bytes) : Dec.Keeps I (Dec.read p : Dec σ Bytes) := by
  intro s r a s' r' hs hr
  cases r <;> cases hr; exact hs

theorem Dec.Keeps.fail (e : Err) : Dec.Keeps I (Dec.fail e : Dec σ α) := by
  intro s r a s' r' hs hr; cases hr

theorem Dec.Keeps.readByteTo {set : σ → UInt8 → σ} (h : ∀ s b, I s → I (set s b)) : Dec.Keeps I (Dec.readByteTo set) := by
  intro s r a s' r' hs hr
  cases r <;> cases hr; exact h _ _ hs

theorem Dec.Keeps.when {c : Bool} {m : Dec σ Unit} (h : Dec.Keeps I m) : Dec.Keeps I (Dec.when c m) := by
  cases c
  · exact Dec.Keeps.pure ()
  · exact h

theorem Dec.Keeps.optByte {cond : σ → Bytes} {set : σ → UInt8 → σ} (h : ∀ s b, I s → I (set s b)) : Dec.Keeps I (Dec.optByte cond set) :=
  Dec.Keeps.bind Dec.Keeps.get fun _ => Dec.Keeps.when (Dec.Keeps.readByteTo h)

theorem Dec.Keeps.optRead {τ : Type} {cond : σ → Bytes} {p : Bytes} {conv : Bytes → τ} {set : σ → τ → σ} (h : ∀ s b, I s → I (set s b)) :
    Dec.Keeps I (Dec.optRead cond p conv set) := by
  refine Dec.Keeps.bind Dec.Keeps.get fun e => ?_
  by_cases hc : (cond e == [49]) = true
  · rw [if_pos hc]
    exact Dec.Keeps.bind (Dec.Keeps.read p) fun t => Dec.Keeps.bind (Dec.Keeps.upd fun s hs => h s _ hs) fun _ => Dec.Keeps.pure _
  · rw [if_neg hc]; exact Dec.Keeps.pure _

theorem Dec.Keeps.parse {n : Nat} {o : Option Err} : Dec.Keeps I (match (n, o) with
    | (n, none) => (Pure.pure n : Dec σ Nat)
    | (_, some e) => Dec.fail e) := by
  cases o
  · exact Dec.Keeps.pure _
  · exact Dec.Keeps.fail _

theorem Dec.Sets.run {m : Dec σ Unit} (h : Dec.Sets I m) {s s' : σ} {b : Bytes} (hr : m.run s b = .ok s') : I s' := by
  unfold Dec.run at hr
  revert hr
  cases hm : m s b with
  | ok a s1 r1 => intro hr; cases hr; exact h _ _ _ _ _ hm
  | err e s1 => intro hr; cases hr
  | panic => intro hr; cases hr
  | diverge => intro hr; cases hr
end

/-- the digits of a byte spell it -/
theorem spells (fs : List Bytes) (n : UInt8) (h : fs.flatten = fmtBin 8 n.toNat) : FlagText fs := by
  rw [← parseFlags_total, h]
  have : ∀ k : Fin 256, ∃ f, parseFlags (fmtBin 8 k.val) = .ok f := by
    have : ∀ k : Fin 256, parseFlags (fmtBin 8 k.val) = .ok (UInt8.ofNat k.val) := by decide +kernel
    exact fun k => ⟨_, this k⟩
  exact this ⟨_, n.toNat_lt⟩

/-- pieces of a text of 8 digits -/
theorem eight (n : UInt8) : ∃ a b c d e f g h, fmtBin 8 n.toNat = [a, b, c, d, e, f, g, h] := by
  have : ∀ k : Fin 256, (fmtBin 8 k.val).length = 8 := by decide +kernel
  have hl := this ⟨_, n.toNat_lt⟩
  dsimp only at hl
  match fmtBin 8 n.toNat, hl with
  | [a, b, c, d, e, f, g, h], _ => exact ⟨a, b, c, d, e, f, g, h, rfl⟩

theorem pos_decoded {s e : SrPosData} {b : Bytes} (h : SrPosData.decode s b = .ok e) :
    FlagText [e.ALTE, e.LOHS, e.LAHS, e.MV, e.BB, e.CS, e.FIX, e.VLD] := by
  refine Dec.Sets.run (I := fun e : SrPosData => FlagText [e.ALTE, e.LOHS, e.LAHS, e.MV, e.BB, e.CS, e.FIX, e.VLD]) ?_ h
  unfold SrPosData.decodeM
  refine .later fun _ => .later fun _ => .later fun _ => .later fun _ => .later fun _ => .later fun _ => .later fun fl => ?_
  refine .now (.upd fun e => ?_) fun _ => ?_
  · obtain ⟨a, b, c, d, e, f, g, h, he⟩ := eight fl
    refine spells _ fl ?_
    simp only [he]; rfl
  refine .bind (.read _) fun _ => .bind (.upd fun _ h => h) fun _ => .bind .parse fun _ => .bind (.upd fun _ h => h) fun _ => ?_
  refine .bind (.readByteTo fun _ _ h => h) fun _ => .bind (.upd fun _ h => h) fun _ => .bind (.read _) fun _ => .bind (.upd fun _ h => h) fun _ => ?_
  refine .bind (.readByteTo fun _ _ h => h) fun _ => .bind (.readByteTo fun _ _ h => h) fun _ => .bind .get fun _ => ?_
  exact .when (.bind (.read _) fun _ => .upd fun _ h => h)

theorem state_decoded {s e : SrStateData} {b : Bytes} (h : SrStateData.decode s b = .ok e) :
    FlagText [[48, 48, 48, 48, 48], e.NMS, e.IBU, e.BBU] := by
  refine Dec.Sets.run (I := fun e : SrStateData => FlagText [[48, 48, 48, 48, 48], e.NMS, e.IBU, e.BBU]) ?_ h
  unfold SrStateData.decodeM
  refine .later fun _ => .later fun _ => .later fun _ => .later fun _ => .later fun fl => .upd fun e => ?_
  refine spells _ (fl &&& 7) ?_
  have : ∀ k : Fin 256, [[48, 48, 48, 48, 48], sl (fmtBin 8 k.val) 5 6, sl (fmtBin 8 k.val) 6 7, sl (fmtBin 8 k.val) 7 8].flatten =
      fmtBin 8 (UInt8.ofNat k.val &&& 7).toNat := by decide +kernel
  have h := this ⟨_, fl.toNat_lt⟩
  dsimp only at h
  rw [UInt8.ofNat_toNat] at h
  exact h

theorem ext_decoded {s e : SrExtPosData} {b : Bytes} (h : SrExtPosData.decode s b = .ok e) :
    FlagText [[48, 48, 48], e.NavigationSystemFieldExists, e.SatellitesFieldExists, e.PdopFieldExists, e.HdopFieldExists,
      e.VdopFieldExists] := by
  refine Dec.Sets.run (I := fun e : SrExtPosData => FlagText [[48, 48, 48], e.NavigationSystemFieldExists, e.SatellitesFieldExists,
    e.PdopFieldExists, e.HdopFieldExists, e.VdopFieldExists]) ?_ h
  unfold SrExtPosData.decodeM
  refine .later fun fl => .now (.upd fun e => ?_) fun _ => ?_
  · refine spells _ (fl &&& 31) ?_
    have : ∀ k : Fin 256, [[48, 48, 48], sl (fmtBin 8 k.val) 3 4, sl (fmtBin 8 k.val) 4 5, sl (fmtBin 8 k.val) 5 6, sl (fmtBin 8 k.val) 6 7,
        sl (fmtBin 8 k.val) 7 8].flatten = fmtBin 8 (UInt8.ofNat k.val &&& 31).toNat := by decide +kernel
    have h := this ⟨_, fl.toNat_lt⟩
    dsimp only at h
    rw [UInt8.ofNat_toNat] at h
    exact h
  refine .bind (.optRead fun _ _ h => h) fun _ => .bind (.optRead fun _ _ h => h) fun _ => .bind (.optRead fun _ _ h => h) fun _ => ?_
  exact .bind (.optByte fun _ _ h => h) fun _ => .bind (.optRead fun _ _ h => h) fun _ => .pure _

theorem liquid_decoded {s e : SrLiquidLevelSensor} {b : Bytes} (h : SrLiquidLevelSensor.decode s b = .ok e) :
    FlagText [[48], e.LiquidLevelSensorErrorFlag, e.LiquidLevelSensorValueUnit, e.RawDataFlag, numberText e.LiquidLevelSensorNumber.toNat] := by
  refine Dec.Sets.run (I := fun e : SrLiquidLevelSensor => FlagText [[48], e.LiquidLevelSensorErrorFlag, e.LiquidLevelSensorValueUnit,
    e.RawDataFlag, numberText e.LiquidLevelSensorNumber.toNat]) ?_ h
  unfold SrLiquidLevelSensor.decodeM
  refine .later fun fl => ?_
  have hn : parseUint2 ((fmtBin 8 fl.toNat).drop 5) 8 = (fl.toNat % 8, none) := by
    have : ∀ n : Fin 256, parseUint2 ((fmtBin 8 n.val).drop 5) 8 = (n.val % 8, none) := by decide +kernel
    exact this ⟨_, fl.toNat_lt⟩
  simp only [hn]
  intro s0 r0 a s' r' hr
  obtain ⟨_, s1, r1, h1, hr⟩ := Dec.bind_of_ok hr
  obtain ⟨_, s2, r2, h2, hr⟩ := Dec.bind_of_ok hr
  obtain ⟨_, s3, r3, h3, hr⟩ := Dec.bind_of_ok hr
  cases h1; cases h2; cases h3
  refine (?_ : Dec.Keeps (fun e : SrLiquidLevelSensor => FlagText [[48], e.LiquidLevelSensorErrorFlag, e.LiquidLevelSensorValueUnit,
    e.RawDataFlag, numberText e.LiquidLevelSensorNumber.toNat]) _) _ _ _ _ _ ?_ hr
  · exact .bind (.read _) fun _ => .bind (.upd fun _ h => h) fun _ => .bind (.read _) fun _ => .upd fun _ h => h
  refine spells _ (fl &&& 127) ?_
  have : ∀ k : Fin 256, [[48], sl (fmtBin 8 k.val) 1 2, sl (fmtBin 8 k.val) 2 4, sl (fmtBin 8 k.val) 4 5,
      numberText (UInt8.ofNat (k.val % 8)).toNat].flatten = fmtBin 8 (UInt8.ofNat k.val &&& 127).toNat := by decide +kernel
  have h := this ⟨_, fl.toNat_lt⟩
  dsimp only at h
  rw [UInt8.ofNat_toNat] at h
  exact h

theorem counters_decoded {s e : SrCountersData} {b : Bytes} (h : SrCountersData.decode s b = .ok e) :
    FlagText [e.CFE8, e.CFE7, e.CFE6, e.CFE5, e.CFE4, e.CFE3, e.CFE2, e.CFE1] := by
  refine Dec.Sets.run (I := fun e : SrCountersData => FlagText [e.CFE8, e.CFE7, e.CFE6, e.CFE5, e.CFE4, e.CFE3, e.CFE2, e.CFE1]) ?_ h
  unfold SrCountersData.decodeM
  refine .later fun fl => .now (.upd fun e => ?_) fun _ => ?_
  · obtain ⟨a, b, c, d, e, f, g, h, he⟩ := eight fl
    refine spells _ fl ?_
    simp only [he]; rfl
  refine .bind (.optRead fun _ _ h => h) fun _ => .bind (.optRead fun _ _ h => h) fun _ => .bind (.optRead fun _ _ h => h) fun _ => ?_
  refine .bind (.optRead fun _ _ h => h) fun _ => .bind (.optRead fun _ _ h => h) fun _ => .bind (.optRead fun _ _ h => h) fun _ => ?_
  exact .bind (.optRead fun _ _ h => h) fun _ => .bind (.optRead fun _ _ h => h) fun _ => .pure _

theorem ad_decoded {s e : SrAdSensorsData} {b : Bytes} (h : SrAdSensorsData.decode s b = .ok e) :
    FlagText [e.DIOE8, e.DIOE7, e.DIOE6, e.DIOE5, e.DIOE4, e.DIOE3, e.DIOE2, e.DIOE1] ∧
      FlagText [e.ASFE1, e.ASFE2, e.ASFE3, e.ASFE4, e.ASFE5, e.ASFE6, e.ASFE7, e.ASFE8] := by
  constructor
  · refine Dec.Sets.run (I := fun e : SrAdSensorsData => FlagText [e.DIOE8, e.DIOE7, e.DIOE6, e.DIOE5, e.DIOE4, e.DIOE3, e.DIOE2, e.DIOE1]) ?_ h
    unfold SrAdSensorsData.decodeM
    refine .later fun fl => .now (.upd fun e => ?_) fun _ => ?_
    · obtain ⟨a, b, c, d, e, f, g, h, he⟩ := eight fl
      refine spells _ fl ?_
      simp only [he]; rfl
    refine .bind (.readByteTo fun _ _ h => h) fun _ => .bind .readByte fun _ => .bind (.upd fun _ h => h) fun _ => ?_
    refine .bind (.optByte fun _ _ h => h) fun _ => .bind (.optByte fun _ _ h => h) fun _ => .bind (.optByte fun _ _ h => h) fun _ => ?_
    refine .bind (.optByte fun _ _ h => h) fun _ => .bind (.optByte fun _ _ h => h) fun _ => .bind (.optByte fun _ _ h => h) fun _ => ?_
    refine .bind (.optByte fun _ _ h => h) fun _ => .bind (.optByte fun _ _ h => h) fun _ => ?_
    refine .bind (.optRead fun _ _ h => h) fun _ => .bind (.optRead fun _ _ h => h) fun _ => .bind (.optRead fun _ _ h => h) fun _ => ?_
    refine .bind (.optRead fun _ _ h => h) fun _ => .bind (.optRead fun _ _ h => h) fun _ => .bind (.optRead fun _ _ h => h) fun _ => ?_
    exact .bind (.optRead fun _ _ h => h) fun _ => .bind (.optRead fun _ _ h => h) fun _ => .pure _
  · refine Dec.Sets.run (I := fun e : SrAdSensorsData => FlagText [e.ASFE1, e.ASFE2, e.ASFE3, e.ASFE4, e.ASFE5, e.ASFE6, e.ASFE7, e.ASFE8]) ?_ h
    unfold SrAdSensorsData.decodeM
    refine .later fun _ => .later fun _ => .later fun _ => .later fun fl => .now (.upd fun e => ?_) fun _ => ?_
    · have : ∀ k : Fin 256, ∃ n : Fin 256, [sl (fmtBin 8 k.val) 7 8, sl (fmtBin 8 k.val) 6 7, sl (fmtBin 8 k.val) 5 6, sl (fmtBin 8 k.val) 4 5,
          sl (fmtBin 8 k.val) 3 4, sl (fmtBin 8 k.val) 2 3, sl (fmtBin 8 k.val) 1 2, sl (fmtBin 8 k.val) 0 1].flatten = fmtBin 8 n.val := by
        have : ∀ k : Fin 256, [sl (fmtBin 8 k.val) 7 8, sl (fmtBin 8 k.val) 6 7, sl (fmtBin 8 k.val) 5 6, sl (fmtBin 8 k.val) 4 5,
          sl (fmtBin 8 k.val) 3 4, sl (fmtBin 8 k.val) 2 3, sl (fmtBin 8 k.val) 1 2, sl (fmtBin 8 k.val) 0 1].flatten =
            fmtBin 8 (binValue (fmtBin 8 k.val).reverse % 256) := by decide +kernel
        exact fun k => ⟨⟨_, Nat.mod_lt _ (by omega)⟩, this k⟩
      obtain ⟨n, h⟩ := this ⟨_, fl.toNat_lt⟩
      refine spells _ (UInt8.ofNat n.val) ?_
      rw [show (UInt8.ofNat n.val).toNat = n.val by rw [UInt8.toNat_ofNat']; exact Nat.mod_eq_of_lt n.isLt]
      exact h
    refine .bind (.optByte fun _ _ h => h) fun _ => .bind (.optByte fun _ _ h => h) fun _ => .bind (.optByte fun _ _ h => h) fun _ => ?_
    refine .bind (.optByte fun _ _ h => h) fun _ => .bind (.optByte fun _ _ h => h) fun _ => .bind (.optByte fun _ _ h => h) fun _ => ?_
    refine .bind (.optByte fun _ _ h => h) fun _ => .bind (.optByte fun _ _ h => h) fun _ => ?_
    refine .bind (.optRead fun _ _ h => h) fun _ => .bind (.optRead fun _ _ h => h) fun _ => .bind (.optRead fun _ _ h => h) fun _ => ?_
    refine .bind (.optRead fun _ _ h => h) fun _ => .bind (.optRead fun _ _ h => h) fun _ => .bind (.optRead fun _ _ h => h) fun _ => ?_
    exact .bind (.optRead fun _ _ h => h) fun _ => .bind (.optRead fun _ _ h => h) fun _ => .pure _

variable [P : Platform]

/-- content that was decoded can be written -/
theorem content_encodable (hP : ∀ c m, P.pbUnmarshal c = some m → ∃ b, P.pbMarshal m = some b) {t : UInt8} {srl : UInt16} {c : Bytes}
    {d : SubData} (h : Content t srl c d) : d.Encodable ∧ (t = 0 → ∀ x, d ≠ .dispatcher x) := by
  cases d with
  | pos e => exact ⟨pos_decoded h.2, fun _ x hx => by cases hx⟩
  | ext e => exact ⟨ext_decoded h.2, fun _ x hx => by cases hx⟩
  | ad e => exact ⟨ad_decoded h.2, fun _ x hx => by cases hx⟩
  | state e => exact ⟨state_decoded h.2, fun _ x hx => by cases hx⟩
  | liquid e => exact ⟨liquid_decoded h.2, fun _ x hx => by cases hx⟩
  | counters e => exact ⟨counters_decoded h.2, fun _ x hx => by cases hx⟩
  | storage m => exact ⟨hP _ _ h.2, fun _ x hx => by cases hx⟩
  | dispatcher e =>
    refine ⟨trivial, fun h0 => ?_⟩
    have := h.1
    rw [h0] at this
    exact absurd this (by decide)
  | term e => exact ⟨trivial, fun _ x hx => by cases hx⟩
  | response e => exact ⟨trivial, fun _ x hx => by cases hx⟩
  | result e => exact ⟨trivial, fun _ x hx => by cases hx⟩
  | absCntr e => exact ⟨trivial, fun _ x hx => by cases hx⟩
  | auth e => exact ⟨trivial, fun _ x hx => by cases hx⟩
  | absAn e => exact ⟨trivial, fun _ x hx => by cases hx⟩

theorem subs_encodable (hP : ∀ c m, P.pbUnmarshal c = some m → ∃ b, P.pbMarshal m = some b) {b : Bytes} {l : List RecordData} (h : Subs b l) :
    ∀ rd ∈ l, rd.Encodable := by
  induction h with
  | nil => simp
  | cut h =>
    intro rd hrd
    rw [List.mem_singleton] at hrd
    subst hrd
    rcases h with ⟨c, d, -, -, h1, h2⟩ | ⟨d, -, -, h1, h2⟩
    · exact ⟨d, h1, content_encodable hP h2⟩
    · exact ⟨d, h1, content_encodable hP h2⟩
  | cons h _ ih =>
    intro rd hrd
    rcases List.mem_cons.mp hrd with rfl | hrd
    · obtain ⟨c, d, -, -, h1, h2⟩ := h
      exact ⟨d, h1, content_encodable hP h2⟩
    · exact ih rd hrd

theorem header_encodable {hdr : Bytes} {r : ServiceDataRecord} (h : RecordHeader hdr r) : FlagText [r.SourceServiceOnDevice,
    r.RecipientServiceOnDevice, r.Group, r.RecordProcessingPriority, r.TimeFieldExists, r.EventIDFieldExists, r.ObjectIDFieldExists] := by
  obtain ⟨fl, -, h7, h6, h5, h4, h2, h1, h0, -⟩ := h
  rw [h7, h6, h5, h4, h2, h1, h0]
  refine spells _ fl ?_
  have : ∀ k : Fin 256, [bitText (UInt8.ofNat k.val) 7, bitText (UInt8.ofNat k.val) 6, bitText (UInt8.ofNat k.val) 5,
      bitText (UInt8.ofNat k.val) 4 ++ bitText (UInt8.ofNat k.val) 3, bitText (UInt8.ofNat k.val) 2, bitText (UInt8.ofNat k.val) 1,
      bitText (UInt8.ofNat k.val) 0].flatten = fmtBin 8 k.val := by decide +kernel
  have h := this ⟨_, fl.toNat_lt⟩
  dsimp only at h
  rw [UInt8.ofNat_toNat] at h
  exact h

theorem records_encodable (hP : ∀ c m, P.pbUnmarshal c = some m → ∃ b, P.pbMarshal m = some b) {b : Bytes} {l : List ServiceDataRecord}
    (h : Records b l) : ∀ r ∈ l, r.Encodable := by
  induction h with
  | nil => simp
  | cons hh _ hs _ ih =>
    intro r hr
    rcases List.mem_cons.mp hr with rfl | hr
    · exact ⟨subs_encodable hP hs, header_encodable hh⟩
    · exact ih r hr
  | bare hh _ he =>
    intro r hr
    rw [List.mem_singleton] at hr
    subst hr
    exact ⟨by rw [he]; simp, header_encodable hh⟩
  | cut hh _ _ hs =>
    intro r hr
    rw [List.mem_singleton] at hr
    subst hr
    exact ⟨subs_encodable hP hs, header_encodable hh⟩

/-- C121: everything that Decode accepts can be encoded again, whatever the receiver was before; `hP`: messages that the protobuf library has
read it can write. -/
theorem decoded_encodable (hP : ∀ c m, P.pbUnmarshal c = some m → ∃ b, P.pbMarshal m = some b) (p q : Package) (c spare : Bytes)
    (h : Package.decode p c spare = .ret 0 none q) : ∃ out q', q.encode = .ok (out, q') := by
  rw [encode_ok_iff]
  by_cases hc : headerSize c ≤ c.length
  · rw [decode_verdict p c spare hc] at h
    obtain ⟨b, w, hvd, rfl⟩ := apply_ret h
    obtain ⟨-, hd, body, b', -, -, -, -, hb, rfl, -⟩ := verdict_accept hvd
    constructor
    · refine spells _ (byteAt c 2) ?_
      show [bitText (byteAt c 2) 7 ++ bitText (byteAt c 2) 6, bitText (byteAt c 2) 5, bitText (byteAt c 2) 4 ++ bitText (byteAt c 2) 3,
        bitText (byteAt c 2) 2, bitText (byteAt c 2) 1 ++ bitText (byteAt c 2) 0].flatten = _
      have : ∀ k : Fin 256, [bitText (UInt8.ofNat k.val) 7 ++ bitText (UInt8.ofNat k.val) 6, bitText (UInt8.ofNat k.val) 5,
          bitText (UInt8.ofNat k.val) 4 ++ bitText (UInt8.ofNat k.val) 3, bitText (UInt8.ofNat k.val) 2,
          bitText (UInt8.ofNat k.val) 1 ++ bitText (UInt8.ofNat k.val) 0].flatten = fmtBin 8 k.val := by decide +kernel
      have h := this ⟨_, (byteAt c 2).toNat_lt⟩
      dsimp only at h
      rw [UInt8.ofNat_toNat] at h
      exact h
    · have hbo : BodyOf (byteAt c 9) (decodedBody c) b' :=
        ((decode_accept_iff p c spare b').mp ⟨_, by rw [decode_verdict p c spare hc]; exact h, rfl⟩).2.2.1
      cases b' with
      | appdata s => exact records_encodable hP hbo.2
      | response r =>
        obtain ⟨id, res, sdr⟩ := r
        obtain ⟨-, b2, -, ⟨-, h2⟩ | ⟨-, l, h2, h3⟩⟩ := hbo
        · dsimp only at h2
          subst h2
          intro r hr
          cases hr
        · dsimp only at h2
          subst h2
          exact records_encodable hP h3
  · obtain ⟨q', hq⟩ := decode_short p c spare (by omega)
    rw [hq] at h; cases h

omit P in
/-- C121, with the protobuf library filled in -/
theorem decoded_encodable_proto (o : F64 → UInt32) : letI := protobufPlatform o
    ∀ (p q : Package) (c spare : Bytes), Package.decode p c spare = .ret 0 none q → ∃ out q', q.encode = .ok (out, q') := by
  let _ := protobufPlatform o
  intro p q c spare h
  refine decoded_encodable ?_ p q c spare h
  intro c m hm
  refine ⟨PB.putMsg StorageRecord.schema m.toMsg, ?_⟩
  show StorageRecord.marshal m = _
  unfold StorageRecord.marshal
  rw [if_pos ((StorageRecord.initialized_iff m).mpr (StorageRecord.unmarshal_required hm))]

/-- a data package with one record -/
def packageOf (subs : List RecordData) : Package where
  Prefix := [48, 48]
  Route := [48]
  EncryptionAlg := [48, 48]
  Compression := [48]
  Priority := [48, 48]
  PacketType := 1
  ServicesFrameData := some (.appdata [{
    SourceServiceOnDevice := [48], RecipientServiceOnDevice := [48], Group := [48], RecordProcessingPriority := [48, 48]
    TimeFieldExists := [48], EventIDFieldExists := [48], ObjectIDFieldExists := [48], RecordDataSet := subs }])

omit P in
theorem zero_header : FlagText [[48, 48], [48], [48, 48], [48], [48, 48]] := ⟨by decide, by decide, by decide⟩
omit P in
theorem zero_record : FlagText [[48], [48], [48], [48, 48], [48], [48], [48]] := ⟨by decide, by decide, by decide⟩

theorem packageOf_encodable (subs : List RecordData) : (packageOf subs).Encodable ↔ ∀ rd ∈ subs, rd.Encodable := by
  constructor
  · intro h rd hrd
    exact (h.2 _ (List.mem_singleton_self _)).1 rd hrd
  · intro h
    refine ⟨zero_header, fun r hr => ?_⟩
    cases List.mem_singleton.mp hr
    exact ⟨h, zero_record⟩

/-- Full claim false: Encode panics when a subrecord has a type code (here that of a position) and no content. -/
theorem encode_nil_panics : (packageOf [⟨16, 0, none⟩]).encode = .panic := by
  rw [encode_panic_iff]
  refine ⟨((packageOf_encodable []).mpr (by simp)).1, [], _, [], rfl, by simp, [], _, [], rfl, by simp, ?_, rfl⟩
  show (16 : UInt8) ≠ 0
  decide

/-- a position is written; with a dispatcher identity behind it whose type code is missing, Encode returns an error -/
theorem encode_example (e : SrPosData) (he : FlagText [e.ALTE, e.LOHS, e.LAHS, e.MV, e.BB, e.CS, e.FIX, e.VLD]) (d : SrDispatcherIdentity) :
    (∃ out q, (packageOf [⟨0, 0, some (.pos e)⟩]).encode = .ok (out, q)) ∧
    (∃ er, (packageOf [⟨0, 0, some (.pos e)⟩, ⟨0, 0, some (.dispatcher d)⟩]).encode = .err er) := by
  constructor
  · rw [encode_ok_iff, packageOf_encodable]
    intro rd hrd
    cases List.mem_singleton.mp hrd
    exact ⟨_, rfl, he, fun _ x hx => by cases hx⟩
  · rcases encode_returns_partial (packageOf [⟨0, 0, some (.pos e)⟩, ⟨0, 0, some (.dispatcher d)⟩]) (by
      intro r hr rd hrd
      cases List.mem_singleton.mp hr
      simp at hrd
      rcases hrd with rfl | rfl <;> simp) with ⟨h, -⟩ | ⟨-, h⟩
    · exfalso
      obtain ⟨d', h1, -, h2⟩ := (packageOf_encodable _).mp h ⟨0, 0, some (.dispatcher d)⟩ (by simp)
      cases h1
      exact h2 rfl _ rfl
    · exact h

end Egts
