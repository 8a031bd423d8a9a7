import Verif.Spec.Encodable
import Verif.Props.Flags
import Verif.Props.Body
import Verif.Props.StorageRecord
set_option autoImplicit false
/- C121: which packages Encode writes, which it refuses, and when it panics. Everything that Decode accepts can be encoded. -/
namespace Egts
open Frame
variable [P : Platform]

omit P in
theorem numberText_eq (n : UInt8) : fmtBin 3 n.toNat = numberText n.toNat := by
  have : ∀ k : Fin 256, fmtBin 3 k.val = numberText k.val := by decide +kernel
  exact this ⟨_, n.toNat_lt⟩

omit P in
theorem parseFlags_total' {s : Bytes} (fs : List Bytes) (hs : s = fs.flatten) : (∃ f, parseFlags s = .ok f) ↔ FlagText fs := by
  rw [hs]; exact parseFlags_total fs

omit P in
theorem liquid_encodes (e : SrLiquidLevelSensor) : (∃ out, e.encode = .ok out) ↔ FlagText [[48], e.LiquidLevelSensorErrorFlag,
    e.LiquidLevelSensorValueUnit, e.RawDataFlag, numberText e.LiquidLevelSensorNumber.toNat] := by
  rw [← parseFlags_total' (s := [48] ++ e.LiquidLevelSensorErrorFlag ++ e.LiquidLevelSensorValueUnit
    ++ e.RawDataFlag ++ fmtBin 3 e.LiquidLevelSensorNumber.toNat) _ (by rw [numberText_eq]; simp)]
  constructor
  · rintro ⟨out, h⟩
    obtain ⟨f, hf, -⟩ := Go.bind_eq_ok h
    exact ⟨f, hf⟩
  · rintro ⟨f, hf⟩
    unfold SrLiquidLevelSensor.encode
    rw [hf]
    exact ⟨_, rfl⟩

/-- content is written iff it can be written -/
theorem sub_encodes_iff (d : SubData) : (∃ b, d.encode = .ok b) ↔ d.Encodable := by
  cases d with
  | pos e => exact (flags_pos e).1
  | ext e => exact (flags_extpos e).1
  | ad e => exact (flags_adsensors e).1
  | state e => exact (flags_state e).1
  | liquid e => exact liquid_encodes e
  | counters e => exact (flags_counters e).1
  | storage m =>
    show (∃ b, storageEncode m = .ok b) ↔ ∃ b, P.pbMarshal m = some b
    unfold storageEncode
    cases P.pbMarshal m <;> simp
  | term e => exact iff_of_true ⟨_, rfl⟩ trivial
  | response e => exact iff_of_true ⟨_, rfl⟩ trivial
  | result e => exact iff_of_true ⟨_, rfl⟩ trivial
  | absCntr e => exact iff_of_true ⟨_, rfl⟩ trivial
  | auth e => exact iff_of_true ⟨_, rfl⟩ trivial
  | absAn e => exact iff_of_true ⟨_, rfl⟩ trivial
  | dispatcher e => exact iff_of_true ⟨_, rfl⟩ trivial

omit P in
theorem parseFlags_no_panic (s : Bytes) : parseFlags s ≠ .panic := by
  unfold parseFlags
  split <;> simp

omit P in
theorem Go.bind_panic {α β : Type} {m : Go α} {f : α → Go β} (hm : m ≠ .panic) (hf : ∀ a, m = .ok a → f a ≠ .panic) : (m >>= f) ≠ .panic := by
  cases m with
  | ok a => exact hf a rfl
  | err e => intro h; cases h
  | panic => exact absurd rfl hm

/-- writing content never panics -/
theorem sub_no_panic (d : SubData) : d.encode ≠ .panic := by
  have one : ∀ (s : Bytes) (g : UInt8 → Bytes), (parseFlags s >>= fun f => Go.ok (g f)) ≠ .panic :=
    fun s g => Go.bind_panic (parseFlags_no_panic s) fun a _ h => by cases h
  cases d with
  | pos e => exact one _ _
  | ext e => exact one _ _
  | ad e => exact Go.bind_panic (parseFlags_no_panic _) fun a _ => one _ _
  | state e => exact one _ _
  | liquid e => exact one _ _
  | counters e => exact one _ _
  | storage m =>
    show storageEncode m ≠ .panic
    unfold storageEncode
    cases P.pbMarshal m <;> simp
  | term e => intro h; cases h
  | response e => intro h; cases h
  | result e => intro h; cases h
  | absCntr e => intro h; cases h
  | auth e => intro h; cases h
  | absAn e => intro h; cases h
  | dispatcher e => intro h; cases h

theorem length_no_panic (d : SubData) : ∃ n, d.length = .ok n := by
  have : ∀ r : Go Bytes, r ≠ .panic → ∃ n, lengthOf r = .ok n := by
    intro r hr
    cases r with
    | ok b => exact ⟨_, rfl⟩
    | err e => exact ⟨_, rfl⟩
    | panic => exact absurd rfl hr
  have h := this _ (sub_no_panic d)
  cases d with
  | absAn e => exact ⟨_, rfl⟩
  | _ => exact h

theorem infer_none_iff (d : SubData) : inferType (some d) = none ↔ ∃ x, d = .dispatcher x := by
  cases d <;> simp [inferType]

/-- what happens to one subrecord -/
theorem rd_encode_cases (rd : RecordData) :
    ((∃ b, rd.encode = .ok b) ↔ rd.Encodable) ∧ (rd.encode = .panic ↔ rd.Missing) := by
  obtain ⟨t, srl, sd⟩ := rd
  have hlen : ∀ d : SubData, ∃ n, (if srl = 0 then d.length else .ok srl : Go UInt16) = .ok n := by
    intro d
    by_cases h : srl = 0
    · rw [if_pos h]; exact length_no_panic d
    · rw [if_neg h]; exact ⟨_, rfl⟩
  cases sd with
  | none =>
    by_cases ht : t = 0
    · subst ht
      have : RecordData.encode ⟨0, srl, none⟩ = .err .unknownData := rfl
      rw [this]
      exact ⟨iff_of_false (by rintro ⟨b, h⟩; cases h) (by rintro ⟨d, h, -⟩; cases h),
        iff_of_false (by simp) (fun h => h.1 rfl)⟩
    · have : RecordData.encode ⟨t, srl, none⟩ = .panic := by
        unfold RecordData.encode
        simp only [ht, if_false]
        rfl
      rw [this]
      exact ⟨iff_of_false (by rintro ⟨b, h⟩; cases h) (by rintro ⟨d, h, -⟩; cases h), iff_of_true rfl ⟨ht, rfl⟩⟩
  | some d =>
    have hm : ¬ RecordData.Missing ⟨t, srl, some d⟩ := by rintro ⟨-, h⟩; cases h
    have key : ∀ t' : UInt8, (∃ b, (do
        let srl ← (if srl = 0 then d.length else .ok srl : Go UInt16)
        let b ← d.encode
        pure ([t'] ++ le16 srl ++ b) : Go Bytes) = .ok b) ↔ d.Encodable := by
      intro t'
      obtain ⟨n, hn⟩ := hlen d
      rw [hn, ← sub_encodes_iff]
      show (∃ b, (d.encode >>= fun b => Go.ok ([t'] ++ le16 n ++ b)) = .ok b) ↔ _
      constructor
      · rintro ⟨b, h⟩
        obtain ⟨c, hc, -⟩ := Go.bind_eq_ok h
        exact ⟨c, hc⟩
      · rintro ⟨c, hc⟩; rw [hc]; exact ⟨_, rfl⟩
    have key2 : ∀ t' : UInt8, (do
        let srl ← (if srl = 0 then d.length else .ok srl : Go UInt16)
        let b ← d.encode
        pure ([t'] ++ le16 srl ++ b) : Go Bytes) ≠ .panic := by
      intro t'
      obtain ⟨n, hn⟩ := hlen d
      rw [hn, Go.ok_bind]
      exact Go.bind_panic (sub_no_panic d) fun a _ h => by cases h
    by_cases ht : t = 0
    · subst ht
      cases hi : inferType (some d) with
      | none =>
        have he : RecordData.encode ⟨0, srl, some d⟩ = .err .unknownData := by
          unfold RecordData.encode
          simp only [if_true, hi]
          rfl
        rw [he]
        refine ⟨iff_of_false (by rintro ⟨b, h⟩; cases h) ?_, iff_of_false (by simp) hm⟩
        rintro ⟨d', h1, -, h2⟩
        cases h1
        obtain ⟨x, hx⟩ := (infer_none_iff d).mp hi
        exact h2 rfl x hx
      | some t' =>
        have he : RecordData.encode ⟨0, srl, some d⟩ = (do
            let srl ← (if srl = 0 then d.length else .ok srl : Go UInt16)
            let b ← d.encode
            pure ([t'] ++ le16 srl ++ b) : Go Bytes) := by
          unfold RecordData.encode
          simp only [if_true, hi]
          rfl
        rw [he]
        refine ⟨(key t').trans ⟨fun h => ⟨d, rfl, h, fun _ x hx => ?_⟩, ?_⟩, iff_of_false (key2 t') hm⟩
        · have := (infer_none_iff d).mpr ⟨x, hx⟩
          rw [hi] at this; cases this
        · rintro ⟨d', h1, h2, -⟩; cases h1; exact h2
    · have he : RecordData.encode ⟨t, srl, some d⟩ = (do
            let srl ← (if srl = 0 then d.length else .ok srl : Go UInt16)
            let b ← d.encode
            pure ([t] ++ le16 srl ++ b) : Go Bytes) := by
        unfold RecordData.encode
        simp only [ht, if_false]
        rfl
      rw [he]
      refine ⟨(key t).trans ⟨fun h => ⟨d, rfl, h, fun h => absurd h ht⟩, ?_⟩, iff_of_false (key2 t) hm⟩
      rintro ⟨d', h1, h2, -⟩; cases h1; exact h2

omit P in
theorem encodeAll_ok_iff {α : Type} {f : α → Go Bytes} {ok : α → Prop} (hf : ∀ a, (∃ b, f a = .ok b) ↔ ok a) (l : List α) :
    (∃ b, encodeAll f l = .ok b) ↔ ∀ a ∈ l, ok a := by
  induction l with
  | nil => simp [encodeAll]
  | cons a l ih =>
    rw [List.forall_mem_cons, ← hf a, ← ih]
    constructor
    · rintro ⟨b, h⟩
      obtain ⟨c, hc, h⟩ := Go.bind_eq_ok h
      obtain ⟨d, hd, h⟩ := Go.bind_eq_ok h
      exact ⟨⟨c, hc⟩, ⟨d, hd⟩⟩
    · rintro ⟨⟨c, hc⟩, ⟨d, hd⟩⟩
      refine ⟨c ++ d, ?_⟩
      show (f a >>= _) = _
      rw [hc]
      show (encodeAll f l >>= _) = _
      rw [hd]
      rfl

omit P in
theorem encodeAll_panic_iff {α : Type} {f : α → Go Bytes} {ok bad : α → Prop} (hf : ∀ a, (∃ b, f a = .ok b) ↔ ok a)
    (hb : ∀ a, f a = .panic ↔ bad a) (l : List α) :
    encodeAll f l = .panic ↔ ∃ before a after, l = before ++ a :: after ∧ (∀ x ∈ before, ok x) ∧ bad a := by
  induction l with
  | nil => simp [encodeAll]
  | cons x l ih =>
    show (f x >>= fun b => encodeAll f l >>= fun bs => Go.ok (b ++ bs)) = .panic ↔ _
    cases hx : f x with
    | panic => exact iff_of_true rfl ⟨[], x, l, rfl, by simp, (hb x).mp hx⟩
    | err e =>
      refine iff_of_false (by intro h; cases h) ?_
      rintro ⟨before, a, after, h1, h2, h3⟩
      cases before with
      | nil =>
        cases h1
        rw [← hb, hx] at h3; cases h3
      | cons y ys =>
        cases h1
        obtain ⟨b, h⟩ := (hf x).mpr (h2 x (by simp))
        rw [hx] at h; cases h
    | ok b =>
      have e : ((Go.ok b : Go Bytes) >>= fun b => encodeAll f l >>= fun bs => Go.ok (b ++ bs)) = .panic ↔ encodeAll f l = .panic := by
        show (encodeAll f l >>= fun bs => Go.ok (b ++ bs)) = .panic ↔ _
        cases encodeAll f l <;> simp
      rw [e, ih]
      constructor
      · rintro ⟨before, a, after, rfl, h2, h3⟩
        exact ⟨x :: before, a, after, rfl, List.forall_mem_cons.mpr ⟨(hf x).mp ⟨b, hx⟩, h2⟩, h3⟩
      · rintro ⟨before, a, after, h1, h2, h3⟩
        cases before with
        | nil =>
          cases h1
          rw [← hb, hx] at h3; cases h3
        | cons y ys =>
          cases h1
          exact ⟨ys, a, after, rfl, fun z hz => h2 z (by simp [hz]), h3⟩

/-- a record in which the first subrecord that cannot be written has no content -/
def ServiceDataRecord.MissingFirst (r : ServiceDataRecord) : Prop :=
  ∃ subs rd rest, r.RecordDataSet = subs ++ rd :: rest ∧ (∀ x ∈ subs, x.Encodable) ∧ rd.Missing

theorem record_encode_cases (r : ServiceDataRecord) :
    ((∃ b, r.encode = .ok b) ↔ r.Encodable) ∧ (r.encode = .panic ↔ r.MissingFirst) := by
  have h1 := encodeAll_ok_iff (fun a => (rd_encode_cases a).1) r.RecordDataSet
  have h2 := encodeAll_panic_iff (fun a => (rd_encode_cases a).1) (fun a => (rd_encode_cases a).2) r.RecordDataSet
  have hp := parseFlags_total' (s := r.SourceServiceOnDevice ++ r.RecipientServiceOnDevice ++ r.Group
    ++ r.RecordProcessingPriority ++ r.TimeFieldExists ++ r.EventIDFieldExists
    ++ r.ObjectIDFieldExists) [r.SourceServiceOnDevice, r.RecipientServiceOnDevice, r.Group,
    r.RecordProcessingPriority, r.TimeFieldExists, r.EventIDFieldExists, r.ObjectIDFieldExists] (by simp)
  constructor
  · unfold ServiceDataRecord.Encodable
    rw [← h1, ← hp]
    constructor
    · rintro ⟨b, h⟩
      obtain ⟨c, hc, h⟩ := Go.bind_eq_ok h
      obtain ⟨f, hf, h⟩ := Go.bind_eq_ok h
      exact ⟨⟨c, hc⟩, ⟨f, hf⟩⟩
    · rintro ⟨⟨c, hc⟩, ⟨f, hf⟩⟩
      unfold ServiceDataRecord.encode RecordDataSet.encode
      rw [hc, Go.ok_bind, hf]
      exact ⟨_, rfl⟩
  · refine Iff.trans ?_ h2
    constructor
    · intro h
      by_contra hn
      exact Go.bind_panic hn (fun a _ => Go.bind_panic (parseFlags_no_panic _) fun _ _ h => by cases h) h
    · intro h
      unfold ServiceDataRecord.encode RecordDataSet.encode
      rw [h]
      rfl

theorem body_encode_cases (p : Package) :
    ((∀ b, p.ServicesFrameData = some b → ∃ d, b.encode = .ok d) ↔ ∀ r ∈ p.records, r.Encodable) ∧
    ((∃ b, p.ServicesFrameData = some b ∧ b.encode = .panic) ↔
      ∃ before r after, p.records = before ++ r :: after ∧ (∀ x ∈ before, x.Encodable) ∧ r.MissingFirst) := by
  have h1 := encodeAll_ok_iff (fun a => (record_encode_cases a).1)
  have h2 := encodeAll_panic_iff (fun a => (record_encode_cases a).1) (fun a => (record_encode_cases a).2)
  unfold Package.records
  cases hp : p.ServicesFrameData with
  | none => exact ⟨iff_of_true (by intro b h; cases h) (by simp), iff_of_false (by rintro ⟨b, h, -⟩; cases h) (by simp)⟩
  | some b =>
    have e1 : (∀ b', some b = some b' → ∃ d, b'.encode = .ok d) ↔ ∃ d, b.encode = .ok d :=
      ⟨fun h => h b rfl, fun h b' hb => by cases hb; exact h⟩
    have e2 : (∃ b', some b = some b' ∧ b'.encode = .panic) ↔ b.encode = .panic :=
      ⟨by rintro ⟨b', h, h'⟩; cases h; exact h', fun h => ⟨b, rfl, h⟩⟩
    rw [e1, e2]
    cases b with
    | appdata s => exact ⟨h1 s, h2 s⟩
    | response r =>
      obtain ⟨id, res, sdr⟩ := r
      cases sdr with
      | none => exact ⟨iff_of_true ⟨_, rfl⟩ (by simp), iff_of_false (by intro h; cases h) (by simp)⟩
      | some s =>
        show ((∃ d, (encodeAll ServiceDataRecord.encode s >>= fun s => Go.ok (le16 id ++ [res] ++ s)) = .ok d) ↔ _) ∧
          ((encodeAll ServiceDataRecord.encode s >>= fun s => Go.ok (le16 id ++ [res] ++ s)) = .panic ↔ _)
        refine (fun h => ⟨h.1.trans (h1 s), h.2.trans (h2 s)⟩ :
          (_ ↔ ∃ b, encodeAll ServiceDataRecord.encode s = .ok b) ∧ (_ ↔ encodeAll ServiceDataRecord.encode s = .panic) → _) ?_
        cases encodeAll ServiceDataRecord.encode s with
        | ok b => exact ⟨iff_of_true ⟨_, rfl⟩ ⟨_, rfl⟩, iff_of_false (by intro h; cases h) (by intro h; cases h)⟩
        | err e => exact ⟨iff_of_false (by rintro ⟨_, h⟩; cases h) (by rintro ⟨_, h⟩; cases h), iff_of_false (by intro h; cases h) (by intro h; cases h)⟩
        | panic => exact ⟨iff_of_false (by rintro ⟨_, h⟩; cases h) (by rintro ⟨_, h⟩; cases h), iff_of_true rfl rfl⟩

/-- C121: Encode writes a package iff it can be written. -/
theorem encode_ok_iff (p : Package) : (∃ out q, p.encode = .ok (out, q)) ↔ p.Encodable := by
  have h := (flags_package p).1
  rw [(body_encode_cases p).1] at h
  exact ⟨by rintro ⟨out, q, h'⟩; exact h.mp ⟨_, h'⟩, fun h' => by obtain ⟨⟨out, q⟩, e⟩ := h.mpr h'; exact ⟨out, q, e⟩⟩

/-- C121: Encode panics iff the first thing that cannot be written is a subrecord with a type code but without content. -/
theorem encode_panic_iff (p : Package) : p.encode = .panic ↔ p.MissingFirst := by
  have ht : [p.Prefix, p.Route, p.EncryptionAlg, p.Compression, p.Priority].flatten =
      p.Prefix ++ p.Route ++ p.EncryptionAlg ++ p.Compression ++ p.Priority := by simp
  unfold Package.MissingFirst
  rw [show (∃ before r after, p.records = before ++ r :: after ∧ (∀ x ∈ before, x.Encodable) ∧
    ∃ subs rd rest, r.RecordDataSet = subs ++ rd :: rest ∧ (∀ x ∈ subs, x.Encodable) ∧ rd.Missing) ↔ _ from (body_encode_cases p).2.symm]
  unfold Package.HeaderFlags
  rw [← parseFlags_total, ht]
  unfold Package.encode
  cases hf : parseFlags (p.Prefix ++ p.Route ++ p.EncryptionAlg ++ p.Compression ++ p.Priority) with
  | panic => exact absurd hf (parseFlags_no_panic _)
  | err e => exact iff_of_false (by intro h; cases h) (by rintro ⟨⟨f, h⟩, -⟩; cases h)
  | ok f =>
    rw [Go.ok_bind]
    cases hb : p.ServicesFrameData with
    | none =>
      refine iff_of_false ?_ (by rintro ⟨-, b, h, -⟩; cases h)
      dsimp only
      rw [Go.ok_bind]
      split <;> (intro h; cases h)
    | some b =>
      dsimp only
      cases he : b.encode with
      | panic => exact iff_of_true rfl ⟨⟨f, rfl⟩, b, rfl, he⟩
      | err e => exact iff_of_false (by intro h; cases h) (by rintro ⟨-, b', h, h'⟩; cases h; rw [he] at h'; cases h')
      | ok o =>
        refine iff_of_false ?_ (by rintro ⟨-, b', h, h'⟩; cases h; rw [he] at h'; cases h')
        rw [Go.ok_bind]
        split <;> (intro h; cases h)

/-- C121: if every subrecord has content, Encode returns: bytes if the package can be written, an error otherwise. -/
theorem encode_returns_partial (p : Package) (h : ∀ r ∈ p.records, ∀ rd ∈ r.RecordDataSet, rd.SubrecordData ≠ none) :
    (p.Encodable ∧ ∃ out q, p.encode = .ok (out, q)) ∨ (¬ p.Encodable ∧ ∃ e, p.encode = .err e) := by
  by_cases he : p.Encodable
  · exact .inl ⟨he, (encode_ok_iff p).mpr he⟩
  · refine .inr ⟨he, ?_⟩
    cases hp : p.encode with
    | ok r => exact absurd ((encode_ok_iff p).mp ⟨r.1, r.2, hp⟩) he
    | err e => exact ⟨e, rfl⟩
    | panic =>
      obtain ⟨-, before, r, after, h1, -, subs, rd, rest, h2, -, h3⟩ := (encode_panic_iff p).mp hp
      exact absurd h3.2 (h r (by rw [h1]; simp) rd (by rw [h2]; simp))

end Egts
