import Verif.Spec.Rejected
import Verif.Props.Readable
set_option autoImplicit false
/- Errors of the decoders of the subrecords and of the header of a record. -/
namespace Egts
open Frame

/-- every error says that the input ended -/
def Out.EofOnly {σ : Type} (o : Out σ) : Prop := ∀ e s, o = .err e s → e = .eof

namespace Dec
variable {σ τ α β : Type}

structure EofOnly (m : Dec σ α) : Prop where
  at' : ∀ s r e s', m s r = .err e s' → e = .eof

theorem eof_bind {m : Dec σ α} {f : α → Dec σ β} (hm : EofOnly m) (hf : ∀ a, EofOnly (f a)) : EofOnly (m >>= f) := by
  refine ⟨fun s r e s' h => ?_⟩
  rw [bind_apply] at h
  cases h1 : m s r with
  | ok a s1 r1 => rw [h1] at h; exact (hf a).at' _ _ _ _ h
  | err e1 s1 => rw [h1] at h; cases h; exact hm.at' _ _ _ _ h1
  | panic => rw [h1] at h; cases h
  | diverge => rw [h1] at h; cases h

theorem eof_pure (a : α) : EofOnly (pure a : Dec σ α) := ⟨fun _ _ _ _ h => by cases h⟩
theorem eof_readByte : EofOnly (readByte : Dec σ UInt8) := ⟨fun s r e s' h => by
  cases r <;> simp at h; exact h.1.symm⟩
theorem eof_readByteTo (f : σ → UInt8 → σ) : EofOnly (readByteTo f) := ⟨fun s r e s' h => by
  cases r <;> simp at h; exact h.1.symm⟩
theorem eof_read (p : Bytes) : EofOnly (read p : Dec σ Bytes) := ⟨fun s r e s' h => by
  cases r <;> simp at h; exact h.1.symm⟩
theorem eof_unread : EofOnly (unread : Dec σ Bytes) := ⟨fun _ _ _ _ h => by cases h⟩
theorem eof_next (n : Nat) : EofOnly (next n : Dec σ Bytes) := ⟨fun _ _ _ _ h => by cases h⟩
theorem eof_upd (f : σ → σ) : EofOnly (upd f) := ⟨fun _ _ _ _ h => by cases h⟩
theorem eof_get : EofOnly (get : Dec σ σ) := ⟨fun _ _ _ _ h => by cases h⟩
theorem eof_ite {c : Prop} [Decidable c] {m m' : Dec σ α} (h : EofOnly m) (h' : EofOnly m') : EofOnly (if c then m else m') := by split <;> assumption
theorem eof_when {c : Bool} {m : Dec σ Unit} (h : EofOnly m) : EofOnly (when c m) := by
  unfold when; exact eof_ite h (eof_pure _)
theorem eof_optByte (cond : σ → Bytes) (set : σ → UInt8 → σ) : EofOnly (optByte cond set) :=
  eof_bind eof_get fun _ => eof_when (eof_readByteTo _)
theorem eof_optRead (cond : σ → Bytes) (p : Bytes) (conv : Bytes → τ) (set : σ → τ → σ) : EofOnly (optRead cond p conv set) :=
  eof_bind eof_get fun _ => eof_ite (eof_bind (eof_read _) fun _ => eof_bind (eof_upd _) fun _ => eof_pure _) (eof_pure _)
theorem eof_readNul : EofOnly (readNul : Dec σ Bytes) := ⟨fun s r e s' h => by
  unfold readNul at h
  split at h
  · cases h
  · cases h; rfl⟩
theorem eof_parse (p : Nat × Option Err) : p.2 = none → EofOnly ((match p with
    | (n, none) => pure n
    | (_, some e) => fail e : Dec σ Nat)) := by
  intro hp
  rcases p with ⟨n, _ | e⟩
  · exact eof_pure _
  · cases hp

theorem EofOnly.run {m : Dec σ Unit} (h : EofOnly m) (s : σ) (b : Bytes) : (m.run s b).EofOnly := by
  intro e s' he
  unfold Egts.Dec.run at he
  cases h1 : m s b with
  | ok a s1 r1 => rw [h1] at he; cases he
  | err e1 s1 => rw [h1] at he; cases he; exact h.at' _ _ _ _ h1
  | panic => rw [h1] at he; cases he
  | diverge => rw [h1] at he; cases he

end Dec

/-- closes `Dec.EofOnly` goals of straight-line decoders -/
macro "dec_eof" : tactic => `(tactic| repeat' (first | (with_reducible first
  | exact Dec.eof_readByte | exact Dec.eof_readByteTo _ | exact Dec.eof_read _ | exact Dec.eof_unread
  | exact Dec.eof_next _ | exact Dec.eof_upd _ | exact Dec.eof_get | exact Dec.eof_pure _
  | exact Dec.eof_optByte _ _ | exact Dec.eof_optRead _ _ _ _ | exact Dec.eof_readNul
  | apply Dec.eof_when | apply Dec.eof_bind | intro _)))

theorem SrPosData.decode_eof (b) : (SrPosData.decode {} b).EofOnly := by
  apply Dec.EofOnly.run; unfold SrPosData.decodeM; dec_eof
  exact Dec.eof_parse _ (by rw [parse_low14 _ (UInt16.toNat_lt _)])
theorem SrExtPosData.decode_eof (b) : (SrExtPosData.decode {} b).EofOnly := by
  apply Dec.EofOnly.run; unfold SrExtPosData.decodeM; dec_eof
theorem SrAdSensorsData.decode_eof (b) : (SrAdSensorsData.decode {} b).EofOnly := by
  apply Dec.EofOnly.run; unfold SrAdSensorsData.decodeM; dec_eof
theorem SrCountersData.decode_eof (b) : (SrCountersData.decode {} b).EofOnly := by
  apply Dec.EofOnly.run; unfold SrCountersData.decodeM; dec_eof
theorem SrStateData.decode_eof (b) : (SrStateData.decode {} b).EofOnly := by
  apply Dec.EofOnly.run; unfold SrStateData.decodeM; dec_eof
theorem SrLiquidLevelSensor.decode_eof (b) : (SrLiquidLevelSensor.decode {} b).EofOnly := by
  apply Dec.EofOnly.run; unfold SrLiquidLevelSensor.decodeM; dec_eof
  rename_i fl _
  refine Dec.eof_parse _ ?_
  have : ∀ k : Fin 256, (parseUint2 ((fmtBin 8 k.val).drop 5) 8).2 = none := by decide +kernel
  exact this ⟨fl.toNat, fl.toNat_lt⟩
theorem SrAbsCntrData.decode_eof (b) : (SrAbsCntrData.decode {} b).EofOnly := by
  apply Dec.EofOnly.run; unfold SrAbsCntrData.decodeM; dec_eof
theorem SrResultCode.decode_eof (b) : (SrResultCode.decode {} b).EofOnly := by
  apply Dec.EofOnly.run; dec_eof
theorem SrAuthInfo.decode_eof (b) : (SrAuthInfo.decode {} b).EofOnly := by
  apply Dec.EofOnly.run; unfold SrAuthInfo.decodeM; dec_eof
theorem SrDispatcherIdentity.decode_eof (b) : (SrDispatcherIdentity.decode {} b).EofOnly := by
  apply Dec.EofOnly.run; unfold SrDispatcherIdentity.decodeM; dec_eof
theorem SrTermIdentity.decode_eof (b) : (SrTermIdentity.decode {} b).EofOnly := by
  apply Dec.EofOnly.run; unfold SrTermIdentity.decodeM; dec_eof

theorem out_map_err {α β : Type} {o : Out α} {f : α → β} {e : Err} : (∃ d, o.map f = .err e d) ↔ ∃ d, o = .err e d := by
  cases o <;> simp [Out.map]

/-- a total decoder whose errors are all `eof` -/
theorem err_iff {α : Type} {o : Out α} {e : Err} (hs : o.Safe) (he : o.EofOnly) : (∃ d, o = .err e d) ↔ e = .eof ∧ ¬ ∃ a, o = .ok a := by
  cases o with
  | ok a => simp
  | err e1 s1 =>
    have := he e1 s1 rfl
    subst this
    simp [eq_comm]
  | panic => exact hs.elim
  | diverge => exact hs.elim

variable [P : Platform]

theorem ends_iff {α : Type} {t : UInt8} {srl : UInt16} {c : Bytes} {e : Err} {o : Out α} {g : α → SubData} {R : Prop}
    (ht : t ∈ [1, 5, 7, 9, 16, 17, 18, 19, 21, 25, 27]) (hd : decodeSub nestedDecode t srl c = o.map g) (hs : o.Safe) (he : o.EofOnly)
    (hp : (∃ a, o = .ok a) ↔ R) (hR : Frame.Plain Telematic t srl.toNat c ↔ R) :
    (∃ d, decodeSub nestedDecode t srl c = .err e d) ↔ ∃ f, errOf f = e ∧ PlainFault Telematic t srl.toNat c f := by
  rw [hd, out_map_err, err_iff hs he, hp, ← hR]
  have h0 : t ≠ 0 ∧ t ≠ 15 ∧ t ≠ 20 ∧ t ≠ 24 ∧ t ∈ handledTypes := by
    simp only [List.mem_cons, List.not_mem_nil, or_false] at ht
    rcases ht with rfl | rfl | rfl | rfl | rfl | rfl | rfl | rfl | rfl | rfl | rfl <;> decide
  obtain ⟨h0, h15, h20, h24, hk⟩ := h0
  constructor
  · rintro ⟨rfl, h⟩
    exact ⟨.ends, rfl, .inr (.inr ⟨ht, h⟩)⟩
  · rintro ⟨f, rfl, h⟩
    cases f with
    | ends =>
      rcases h with ⟨h, -⟩ | ⟨h, -⟩ | ⟨-, h⟩
      · exact absurd h h0
      · exact absurd h h20
      · exact ⟨rfl, h⟩
    | size => exact absurd h.1 h24
    | unknown t' n' c' => exact absurd hk h.1
    | accel n' c' => exact absurd h.1 h20
    | telematic => exact absurd h.1 h15

theorem response_err (srl : UInt16) (c : Bytes) (e : Err) : (∃ d, decodeSub nestedDecode 0 srl c = .err e d) ↔
    c.length < 3 ∧ e = .eof ∨ 3 ≤ c.length ∧ ∃ s, ServiceDataSet.decode [] (c.drop 3) = .err e s := by
  have hd : decodeSub nestedDecode 0 srl c = (SrResponse.decode {} c).map .response := by simp [decodeSub, SrResponse.decode]
  rw [hd, out_map_err]
  match c with
  | [] => simp [SrResponse.decode, SrResponse.decodeM, Dec.run, Dec.bind_apply, eq_comm]
  | [a] => simp [SrResponse.decode, SrResponse.decodeM, Dec.run, Dec.bind_apply, zeros, eq_comm]
  | [a, b] => simp [SrResponse.decode, SrResponse.decodeM, Dec.run, Dec.bind_apply, zeros, eq_comm]
  | a :: b :: x :: r =>
    simp only [SrResponse.decode, SrResponse.decodeM, Dec.run, Dec.bind_apply, Dec.read_cons, Dec.upd_apply]
    have : List.drop (zeros 2).length (a :: b :: x :: r) = x :: r := rfl
    rw [this]
    simp only [Dec.readByteTo_cons, Dec.unread_apply, nestedDecode_eq]
    have : List.drop 3 (a :: b :: x :: r) = r := rfl
    rw [this]
    have h3 : ¬ (a :: b :: x :: r).length < 3 := by simp
    have h4 : 3 ≤ (a :: b :: x :: r).length := by simp
    cases ServiceDataSet.decode [] r <;> simp [Dec.call]

theorem content_err (t : UInt8) (srl : UInt16) (c : Bytes) (e : Err) : (∃ d, decodeSub nestedDecode t srl c = .err e d) ↔
    (∃ f, errOf f = e ∧ PlainFault Telematic t srl.toNat c f) ∨ t = 0 ∧ 3 ≤ c.length ∧ ∃ s, ServiceDataSet.decode [] (c.drop 3) = .err e s := by
  by_cases h0 : t = 0
  · subst h0
    rw [response_err]
    simp only [true_and]
    refine or_congr ?_ Iff.rfl
    constructor
    · rintro ⟨h, rfl⟩; exact ⟨.ends, rfl, .inl ⟨rfl, h⟩⟩
    · rintro ⟨f, rfl, h⟩
      cases f with
      | ends =>
        rcases h with ⟨-, h⟩ | ⟨h, -⟩ | ⟨h, -⟩
        · exact ⟨h, rfl⟩
        · exact absurd h (by decide)
        · exact absurd h (by decide)
      | size => exact absurd h.1 (by decide)
      | unknown t' n' c' => exact absurd (by decide) h.1
      | accel n' c' => exact absurd h.1 (by decide)
      | telematic => exact absurd h.1 (by decide)
  simp only [h0, false_and, or_false]
  by_cases h1 : t = 1
  · subst h1; exact ends_iff (by decide) rfl (SrTermIdentity.decode_safe _ _) (SrTermIdentity.decode_eof _) (term_succ c) (by simp [Frame.Plain])
  by_cases h5 : t = 5
  · subst h5; exact ends_iff (by decide) rfl (SrDispatcherIdentity.decode_safe _ _) (SrDispatcherIdentity.decode_eof _) (dispatcher_succ c) (by simp [Frame.Plain])
  by_cases h7 : t = 7
  · subst h7; exact ends_iff (by decide) rfl (SrAuthInfo.decode_safe _ _) (SrAuthInfo.decode_eof _) (auth_succ c) (by simp [Frame.Plain])
  by_cases h9 : t = 9
  · subst h9; exact ends_iff (by decide) rfl (SrResultCode.decode_safe _ _) (SrResultCode.decode_eof _) (result_succ c) (by simp [Frame.Plain])
  by_cases h16 : t = 16
  · subst h16; exact ends_iff (by decide) rfl (SrPosData.decode_safe _ _) (SrPosData.decode_eof _) (pos_succ c) (by simp [Frame.Plain])
  by_cases h17 : t = 17
  · subst h17; exact ends_iff (by decide) rfl (SrExtPosData.decode_safe _ _) (SrExtPosData.decode_eof _) (ext_succ c) (by simp [Frame.Plain])
  by_cases h18 : t = 18
  · subst h18; exact ends_iff (by decide) rfl (SrAdSensorsData.decode_safe _ _) (SrAdSensorsData.decode_eof _) (ad_succ c) (by simp [Frame.Plain])
  by_cases h19 : t = 19
  · subst h19; exact ends_iff (by decide) rfl (SrCountersData.decode_safe _ _) (SrCountersData.decode_eof _) (counters_succ c) (by simp [Frame.Plain])
  by_cases h21 : t = 21
  · subst h21; exact ends_iff (by decide) rfl (SrStateData.decode_safe _ _) (SrStateData.decode_eof _) (state_succ c) (by simp [Frame.Plain])
  by_cases h25 : t = 25
  · subst h25; exact ends_iff (by decide) rfl (SrAbsCntrData.decode_safe _ _) (SrAbsCntrData.decode_eof _) (abscntr_succ c) (by simp [Frame.Plain])
  by_cases h27 : t = 27
  · subst h27; exact ends_iff (by decide) rfl (SrLiquidLevelSensor.decode_safe _ _) (SrLiquidLevelSensor.decode_eof _) (liquid_succ c) (by simp [Frame.Plain])
  have hsrl : UInt16.ofNat srl.toNat = srl := UInt16.ofNat_toNat
  by_cases h20 : t = 20
  · subst h20
    have h5' : srl = 5 ↔ srl.toNat = 5 := by rw [← UInt16.toNat_inj]; rfl
    by_cases hn : srl = 5
    · have hd : decodeSub nestedDecode 20 srl c = (SrStateData.decode {} c).map .state := by simp [decodeSub, hn]
      rw [hd, out_map_err, err_iff (SrStateData.decode_safe _ _) (SrStateData.decode_eof _), state_succ]
      have hn' := h5'.1 hn
      constructor
      · rintro ⟨rfl, h⟩; exact ⟨.ends, rfl, .inr (.inl ⟨rfl, hn', by omega⟩)⟩
      · rintro ⟨f, rfl, h⟩
        cases f with
        | ends =>
          rcases h with ⟨h, -⟩ | ⟨-, -, h⟩ | ⟨h, -⟩
          · exact absurd h (by decide)
          · exact ⟨rfl, by omega⟩
          · exact absurd h (by decide)
        | size => exact absurd h.1 (by decide)
        | unknown t' n' c' => exact absurd (by decide) h.1
        | accel n' c' => exact absurd hn' h.2.1
        | telematic => exact absurd h.1 (by decide)
    · have hd : decodeSub nestedDecode 20 srl c = .err (.accelNotImplemented srl c) (.state {}) := by simp [decodeSub, hn]
      have hn' : srl.toNat ≠ 5 := fun h => hn (h5'.2 h)
      rw [hd]
      constructor
      · rintro ⟨d, h⟩; cases h; exact ⟨.accel srl.toNat c, by simp [errOf, hsrl], rfl, hn', rfl, rfl⟩
      · rintro ⟨f, rfl, h⟩
        cases f with
        | ends =>
          rcases h with ⟨h, -⟩ | ⟨-, h, -⟩ | ⟨h, -⟩
          · exact absurd h (by decide)
          · exact absurd h hn'
          · exact absurd h (by decide)
        | size => exact absurd h.1 (by decide)
        | unknown t' n' c' => exact absurd (by decide) h.1
        | accel n' c' =>
          obtain ⟨-, -, rfl, rfl⟩ := h
          exact ⟨.state {}, by simp [errOf, hsrl]⟩
        | telematic => exact absurd h.1 (by decide)
  by_cases h15 : t = 15
  · subst h15
    have hd : decodeSub nestedDecode 15 srl c = (storageDecode c).map .storage := rfl
    rw [hd, out_map_err]
    constructor
    · rintro ⟨d, h⟩
      unfold storageDecode at h
      split at h
      · cases h
      · rename_i hu
        cases h
        exact ⟨.telematic, rfl, rfl, by rintro ⟨m, hm⟩; rw [hu] at hm; cases hm⟩
    · rintro ⟨f, rfl, h⟩
      cases f with
      | ends =>
        rcases h with ⟨h, -⟩ | ⟨h, -⟩ | ⟨h, -⟩ <;> exact absurd h (by decide)
      | size => exact absurd h.1 (by decide)
      | unknown t' n' c' => exact absurd (by decide) h.1
      | accel n' c' => exact absurd h.1 (by decide)
      | telematic =>
        refine ⟨P.pbEmpty, ?_⟩
        unfold storageDecode
        cases hu : P.pbUnmarshal c with
        | none => rfl
        | some m => exact absurd ⟨m, hu⟩ h.2
  by_cases h24 : t = 24
  · subst h24
    have hd : decodeSub nestedDecode 24 srl c = (SrAbsAnSensData.decode {} c).map .absAn := rfl
    rw [hd, out_map_err]
    have key : (∃ d, SrAbsAnSensData.decode {} c = .err e d) ↔ c.length < 4 ∧ e = .badSize := by
      unfold SrAbsAnSensData.decode
      match c with
      | [] | [_] | [_, _] | [_, _, _] => simp [eq_comm]
      | _ :: _ :: _ :: _ :: r => rw [if_neg (by simp)]; simp
    rw [key]
    constructor
    · rintro ⟨h, rfl⟩; exact ⟨.size, rfl, rfl, h⟩
    · rintro ⟨f, rfl, h⟩
      cases f with
      | ends => rcases h with ⟨h, -⟩ | ⟨h, -⟩ | ⟨h, -⟩ <;> exact absurd h (by decide)
      | size => exact ⟨h.2, rfl⟩
      | unknown t' n' c' => exact absurd (by decide) h.1
      | accel n' c' => exact absurd h.1 (by decide)
      | telematic => exact absurd h.1 (by decide)
  have hk : t ∉ handledTypes := by simp [handledTypes, *]
  have hd : decodeSub nestedDecode t srl c = .err (.unknownSubrecord t srl c) (.state {}) := by simp [decodeSub, *]
  rw [hd]
  constructor
  · rintro ⟨d, h⟩; cases h; exact ⟨.unknown t srl.toNat c, by simp [errOf, hsrl], hk, rfl, rfl, rfl⟩
  · rintro ⟨f, rfl, h⟩
    cases f with
    | ends =>
      rcases h with ⟨h, -⟩ | ⟨h, -⟩ | ⟨h, -⟩
      · exact absurd h h0
      · exact absurd h h20
      · simp [*] at h
    | size => exact absurd h.1 h24
    | unknown t' n' c' =>
      obtain ⟨-, rfl, rfl, rfl⟩ := h
      exact ⟨.state {}, by simp [errOf, hsrl]⟩
    | accel n' c' => exact absurd h.1 h20
    | telematic => exact absurd h.1 h15

/-! ### the header of a record -/

/-- what `sdrDecodeM` does before the data -/
def sdrHeadM : Dec ServiceDataRecord Unit := do
  let t ← Dec.read (zeros 2)
  Dec.upd fun e => { e with RecordLength := u16 t }
  let t ← Dec.read t
  Dec.upd fun e => { e with RecordNumber := u16 t }
  let flags ← Dec.readByte
  let fb := fmtBin 8 flags.toNat
  Dec.upd fun e => { e with
    SourceServiceOnDevice := sl fb 0 1, RecipientServiceOnDevice := sl fb 1 2,
    Group := sl fb 2 3, RecordProcessingPriority := sl fb 3 5, TimeFieldExists := sl fb 5 6,
    EventIDFieldExists := sl fb 6 7, ObjectIDFieldExists := sl fb 7 8 }
  let _ ← Dec.optRead (·.ObjectIDFieldExists) (zeros 4) u32 fun e v => { e with ObjectIdentifier := v }
  let _ ← Dec.optRead (·.EventIDFieldExists) (zeros 4) u32 fun e v => { e with EventIdentifier := v }
  let _ ← Dec.optRead (·.TimeFieldExists) (zeros 4) u32 fun e v => { e with Time := v }
  Dec.readByteTo fun e b => { e with SourceServiceType := b }
  Dec.readByteTo fun e b => { e with RecipientServiceType := b }

/-- what `sdrDecodeM` does after the header -/
def sdrDataM (nested : Bytes → Out ServiceDataSet) : Dec ServiceDataRecord Unit := do
  let r ← Dec.unread
  Dec.when (decide (r.length ≠ 0)) do
    let e ← Dec.get
    let b ← Dec.read (zeros e.RecordLength.toNat)
    let rds ← Dec.call (rdsDecode nested [] b)
    Dec.upd fun e => { e with RecordDataSet := rds }

theorem sdr_split (nested : Bytes → Out ServiceDataSet) : sdrDecodeM nested = sdrHeadM >>= fun _ => sdrDataM nested := by
  unfold sdrDecodeM sdrHeadM sdrDataM
  simp only [Dec.bind_assoc']

theorem sdrHeadM_eof : Dec.EofOnly sdrHeadM := by unfold sdrHeadM; dec_eof
theorem sdrHeadM_safe : Dec.Safe sdrHeadM := by unfold sdrHeadM; dec_safe

omit P in
theorem succ_lastByte {σ : Type} {set : σ → UInt8 → σ} {s : σ} {b : Bytes} {o : Nat} :
    (Dec.readByteTo set).Succ s (b.drop o) ↔ o < b.length ∧ True := by
  unfold Dec.Succ
  by_cases h : o < b.length
  · exact iff_of_true ⟨_, _, readByteTo_at set s b o h⟩ ⟨h, trivial⟩
  · rw [List.drop_eq_nil_of_le (by omega)]
    exact iff_of_false (by rintro ⟨_, _, h⟩; cases h) (fun h' => h h'.1)

theorem head_succ {b : Bytes} (h : sdrHeadM.Succ {} b) : optOff (byteAt b 4) 7 [(0, 4), (1, 4), (2, 4)] ≤ b.length := by
  unfold sdrHeadM at h
  obtain ⟨f0, f1, f2, f3, f4, f5, f6, f7⟩ := fmt_text1 (byteAt b 4)
  have key := (succ_read (σ := ServiceDataRecord) (b := b) (o := 0) (s := {}) (p := zeros 2) (n := 2)
    (f := _) (R := 2 < b.length ∧ 4 < b.length ∧ Begin b (byteAt b 4) 5 [(0, 4), (1, 4), (2, 4)] ∧
      optOff (byteAt b 4) 5 [(0, 4), (1, 4), (2, 4)] < b.length ∧ optOff (byteAt b 4) 5 [(0, 4), (1, 4), (2, 4)] + 1 < b.length ∧ True) rfl
    fun a ha => ?_).1 (by rw [List.drop_zero]; exact h)
  · obtain ⟨-, -, -, -, -, h, -⟩ := key
    simp only [optOff, List.foldl_cons, List.foldl_nil] at h ⊢
    omega
  rw [succ_upd]
  refine succ_read (n := 2) ha fun a _ => ?_
  rw [succ_upd]
  refine succ_readByte fun _ => ?_
  generalize byteAt b 4 = fl at *
  rw [succ_upd]
  let I : ServiceDataRecord → Prop := fun e => e.ObjectIDFieldExists = bitText fl 0 ∧ e.EventIDFieldExists = bitText fl 1 ∧ e.TimeFieldExists = bitText fl 2
  refine succ_optRead I fl 0 4 ⟨f7, f6, f5⟩ rfl (fun _ h => h.1) (fun _ _ h => h) fun p s hp hs => ?_
  refine succ_optRead I fl 1 4 hs rfl (fun _ h => h.2.1) (fun _ _ h => h) fun p s hp hs => ?_
  refine succ_optRead I fl 2 4 hs rfl (fun _ h => h.2.2) (fun _ _ h => h) fun p s hp hs => ?_
  refine Iff.trans ?_ (iff_of_eq (true_and _)).symm
  refine succ_readByteTo fun _ => ?_
  exact succ_lastByte

end Egts
