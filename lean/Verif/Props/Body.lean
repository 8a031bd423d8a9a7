import Verif.Spec.Body
import Verif.Props.Records
import Verif.Lemmas.Origin
import Verif.Lemmas.Pos
set_option autoImplicit false
/- C71, C72: which bodies the decoder accepts and what it finds in them. -/
namespace Egts
open Frame
variable [P : Platform]

/-! ### contents -/

omit P in
theorem out_map_iff {α β : Type} {o : Out α} {f : α → β} {b : β} : o.map f = .ok b ↔ ∃ a, o = .ok a ∧ f a = b := by
  cases o <;> simp [Out.map]

theorem storageDecode_iff {c : Bytes} {m : P.PBMsg} : storageDecode c = .ok m ↔ P.pbUnmarshal c = some m := by
  unfold storageDecode
  cases P.pbUnmarshal c <;> simp

/-- the type switch of the decoder is the table of `Content` -/
theorem decodeSub_iff (t : UInt8) (srl : UInt16) (c : Bytes) (d : SubData) :
    decodeSub nestedDecode t srl c = .ok d ↔ Content t srl c d := by
  constructor
  · intro h
    unfold decodeSub at h
    by_cases h16 : t = 16
    · rw [if_pos h16] at h
      obtain ⟨a, h1, rfl⟩ := out_map_iff.mp h; exact ⟨h16, h1⟩
    rw [if_neg h16] at h
    by_cases h1 : t = 1
    · rw [if_pos h1] at h
      obtain ⟨a, h2, rfl⟩ := out_map_iff.mp h; exact ⟨h1, h2⟩
    rw [if_neg h1] at h
    by_cases h0 : t = 0
    · rw [if_pos h0] at h
      obtain ⟨a, h2, rfl⟩ := out_map_iff.mp h; exact ⟨h0, h2⟩
    rw [if_neg h0] at h
    by_cases h9 : t = 9
    · rw [if_pos h9] at h
      obtain ⟨a, h2, rfl⟩ := out_map_iff.mp h; exact ⟨h9, h2⟩
    rw [if_neg h9] at h
    by_cases h17 : t = 17
    · rw [if_pos h17] at h
      obtain ⟨a, h2, rfl⟩ := out_map_iff.mp h; exact ⟨h17, h2⟩
    rw [if_neg h17] at h
    by_cases h18 : t = 18
    · rw [if_pos h18] at h
      obtain ⟨a, h2, rfl⟩ := out_map_iff.mp h; exact ⟨h18, h2⟩
    rw [if_neg h18] at h
    by_cases h20 : t = 20
    · rw [if_pos h20] at h
      by_cases h5 : srl = 5
      · rw [if_pos h5] at h
        obtain ⟨a, h2, rfl⟩ := out_map_iff.mp h; exact ⟨.inl ⟨h20, h5⟩, h2⟩
      · rw [if_neg h5] at h; cases h
    rw [if_neg h20] at h
    by_cases h21 : t = 21
    · rw [if_pos h21] at h
      obtain ⟨a, h2, rfl⟩ := out_map_iff.mp h; exact ⟨.inr h21, h2⟩
    rw [if_neg h21] at h
    by_cases h27 : t = 27
    · rw [if_pos h27] at h
      obtain ⟨a, h2, rfl⟩ := out_map_iff.mp h; exact ⟨h27, h2⟩
    rw [if_neg h27] at h
    by_cases h25 : t = 25
    · rw [if_pos h25] at h
      obtain ⟨a, h2, rfl⟩ := out_map_iff.mp h; exact ⟨h25, h2⟩
    rw [if_neg h25] at h
    by_cases h7 : t = 7
    · rw [if_pos h7] at h
      obtain ⟨a, h2, rfl⟩ := out_map_iff.mp h; exact ⟨h7, h2⟩
    rw [if_neg h7] at h
    by_cases h19 : t = 19
    · rw [if_pos h19] at h
      obtain ⟨a, h2, rfl⟩ := out_map_iff.mp h; exact ⟨h19, h2⟩
    rw [if_neg h19] at h
    by_cases h15 : t = 15
    · rw [if_pos h15] at h
      obtain ⟨a, h2, rfl⟩ := out_map_iff.mp h; exact ⟨h15, storageDecode_iff.mp h2⟩
    rw [if_neg h15] at h
    by_cases h24 : t = 24
    · rw [if_pos h24] at h
      obtain ⟨a, h2, rfl⟩ := out_map_iff.mp h; exact ⟨h24, h2⟩
    rw [if_neg h24] at h
    by_cases h5 : t = 5
    · rw [if_pos h5] at h
      obtain ⟨a, h2, rfl⟩ := out_map_iff.mp h; exact ⟨h5, h2⟩
    rw [if_neg h5] at h
    cases h
  · intro h
    cases d with
    | pos d => obtain ⟨rfl, h⟩ := h; simp [decodeSub, h, Out.map]
    | term d => obtain ⟨rfl, h⟩ := h; simp [decodeSub, h, Out.map]
    | response d =>
      obtain ⟨rfl, h⟩ := h
      unfold SrResponse.decode at h
      simp [decodeSub, h, Out.map]
    | result d => obtain ⟨rfl, h⟩ := h; simp [decodeSub, h, Out.map]
    | ext d => obtain ⟨rfl, h⟩ := h; simp [decodeSub, h, Out.map]
    | ad d => obtain ⟨rfl, h⟩ := h; simp [decodeSub, h, Out.map]
    | state d => obtain ⟨⟨rfl, rfl⟩ | rfl, h⟩ := h <;> simp [decodeSub, h, Out.map]
    | liquid d => obtain ⟨rfl, h⟩ := h; simp [decodeSub, h, Out.map]
    | absCntr d => obtain ⟨rfl, h⟩ := h; simp [decodeSub, h, Out.map]
    | auth d => obtain ⟨rfl, h⟩ := h; simp [decodeSub, h, Out.map]
    | counters d => obtain ⟨rfl, h⟩ := h; simp [decodeSub, h, Out.map]
    | storage d => obtain ⟨rfl, h⟩ := h; simp [decodeSub, storageDecode_iff.mpr h, Out.map]
    | absAn d => obtain ⟨rfl, h⟩ := h; simp [decodeSub, h, Out.map]
    | dispatcher d => obtain ⟨rfl, h⟩ := h; simp [decodeSub, h, Out.map]

/-! ### subrecords -/

omit P in
theorem leBytes_u16 (x y : UInt8) : leBytes 2 (u16 [x, y]).toNat = [x, y] := by
  rw [u16_toNat]
  simp only [leBytes]
  have hx := x.toNat_lt
  have hy := y.toNat_lt
  congr
  · apply UInt8.toNat_inj.mp; simp
  · apply UInt8.toNat_inj.mp; simp; omega

omit P in
theorem call_ok {σ τ : Type} {o : Out τ} {s s1 : σ} {r r1 : Bytes} {a : τ} (h : (Dec.call o : Dec σ τ) s r = .ok a s1 r1) :
    o = .ok a ∧ s1 = s ∧ r1 = r := by
  cases o <;> cases h
  exact ⟨rfl, rfl, rfl⟩

/-- one step of the subrecord loop -/
theorem rdsStep_iff (s s' : RecordDataSet) (b rest : Bytes) :
    rdsStep nestedDecode s b = .ok () s' rest ↔
      ∃ rd, s' = s ++ [rd] ∧ (CompleteSub b rd rest ∨ CutSub b rd ∧ rest = []) := by
  constructor
  · intro h
    unfold rdsStep at h
    obtain ⟨t, s1, r1, h1, g1⟩ := Dec.bind_inv h
    obtain ⟨rfl, rfl⟩ := Dec.readByte_inv h1
    obtain ⟨l, s2, r2, h2, g2⟩ := Dec.bind_inv g1
    obtain ⟨c, s3, r3, h3, g3⟩ := Dec.bind_inv g2
    cases h3
    obtain ⟨d, s4, r4, h4, g4⟩ := Dec.bind_inv g3
    obtain ⟨hd, rfl, rfl⟩ := call_ok h4
    cases g4
    rw [decodeSub_iff] at hd
    match r1, h2 with
    | [], h2 => cases h2
    | [x], h2 =>
      cases h2
      refine ⟨_, rfl, .inr ⟨.inr ⟨d, ?_, ?_, rfl, ?_⟩, ?_⟩⟩
      · show [t, x] = [t] ++ leBytes 1 (u16 [x, 0]).toNat
        rw [u16_toNat]
        have hx := x.toNat_lt
        simp [leBytes]
      · show (u16 [x, 0]).toNat < 256
        rw [u16_toNat]
        have hx := x.toNat_lt
        simp only [UInt8.toNat_zero]
        omega
      · simpa using hd
      · simp
    | x :: y :: r, h2 =>
      cases h2
      have hl : List.take (zeros 2).length (x :: y :: r) ++ List.drop (r.length + 1 + 1) (zeros 2) = [x, y] := by
        simp [zeros]
      have hr : List.drop (zeros 2).length (x :: y :: r) = r := by simp [zeros]
      have hl' : (List.take (zeros 2).length (x :: y :: r) ++ List.drop (x :: y :: r).length (zeros 2)) = [x, y] := by
        simp [zeros]
      rw [hl', hr] at hd
      refine ⟨_, rfl, ?_⟩
      rw [hl', hr]
      by_cases hc : (u16 [x, y]).toNat ≤ r.length
      · left
        refine ⟨_, d, ?_, ?_, rfl, hd⟩
        · rw [List.length_take, Nat.min_eq_left hc, leBytes_u16]
          simp
        · simp [hc]
      · right
        refine ⟨.inl ⟨_, d, ?_, ?_, rfl, hd⟩, ?_⟩
        · simp only
          rw [leBytes_u16, List.take_of_length_le (by omega)]
          simp
        · simp only [List.length_take]; omega
        · simp; omega
  · rintro ⟨rd, rfl, h⟩
    obtain ⟨t, srl, dd⟩ := rd
    unfold rdsStep
    rcases h with ⟨c, d, rfl, hl, hdd, hc⟩ | ⟨⟨c, d, rfl, hl, hdd, hc⟩ | ⟨d, rfl, hl, hdd, hc⟩, rfl⟩
    · simp only at hl hdd hc ⊢
      subst hdd
      rw [← decodeSub_iff] at hc
      have := rdsStep_one s t srl c rest hl.symm
      unfold rdsStep at this
      rw [hl, ← le16_eq]
      rw [this, hc]
    · simp only at hl hdd hc ⊢
      subst hdd
      rw [← decodeSub_iff] at hc
      rw [← le16_eq]
      simp only [List.cons_append, List.nil_append]
      refine Dec.step (Dec.readByte_cons _ _ _) ?_
      refine Dec.step (Dec.read_le16 _ _ _ srl rfl) ?_
      rw [u16_le16']
      refine Dec.step (Dec.next_apply _ _ _) ?_
      rw [List.take_of_length_le (by omega), hc, List.drop_eq_nil_of_le (by omega)]
      rfl
    · simp only at hl hdd hc ⊢
      subst hdd
      rw [← decodeSub_iff] at hc
      simp only [leBytes, List.cons_append, List.nil_append]
      refine Dec.step (Dec.readByte_cons _ _ _) ?_
      refine Dec.step (Dec.read_cons _ _ _ _) ?_
      have e1 : (List.take (zeros 2).length [UInt8.ofNat (srl.toNat % 256)] ++ List.drop (([] : Bytes).length + 1) (zeros 2)) =
          [UInt8.ofNat (srl.toNat % 256), 0] := rfl
      have e2 : List.drop (zeros 2).length [UInt8.ofNat (srl.toNat % 256)] = [] := rfl
      rw [e1, e2]
      have e3 : u16 [UInt8.ofNat (srl.toNat % 256), 0] = srl := by
        apply UInt16.toNat_inj.mp
        rw [u16_toNat]
        simp
        omega
      rw [e3]
      refine Dec.step (Dec.next_apply _ _ _) ?_
      rw [List.take_nil, List.drop_nil, hc]
      rfl

theorem completeSub_len {b rest : Bytes} {rd : RecordData} (h : CompleteSub b rd rest) : rest.length < b.length := by
  obtain ⟨c, d, rfl, -⟩ := h
  simp; omega

theorem cutSub_ne {b : Bytes} {rd : RecordData} (h : CutSub b rd) : b ≠ [] := by
  rcases h with ⟨c, d, rfl, -⟩ | ⟨d, rfl, -⟩ <;> simp

/-- the subrecord loop -/
theorem rds_loop_iff (n : Nat) : ∀ (b : Bytes), b.length ≤ n → ∀ (s s' : RecordDataSet) (r : Bytes),
    Dec.whileUnread (rdsStep nestedDecode) s b = .ok () s' r ↔ ∃ l, s' = s ++ l ∧ r = [] ∧ Subs b l := by
  induction n with
  | zero =>
    intro b hb s s' r
    obtain rfl : b = [] := List.length_eq_zero_iff.mp (by omega)
    rw [rds_loop_unfold, if_pos rfl]
    constructor
    · intro h; cases h; exact ⟨[], by simp, rfl, .nil⟩
    · rintro ⟨l, rfl, rfl, h⟩
      cases h with
      | nil => simp
      | cut h => exact absurd rfl (cutSub_ne h)
      | cons h _ => have := completeSub_len h; simp at this
  | succ n ih =>
    intro b hb s s' r
    rw [rds_loop_unfold]
    by_cases hbe : b = []
    · subst hbe
      exact (rds_loop_unfold s []) ▸ ih [] (by simp) s s' r
    rw [if_neg hbe]
    constructor
    · intro h
      obtain ⟨u, s1, r1, h1, h2⟩ := Dec.bind_inv h
      obtain ⟨rd, rfl, hh⟩ := (rdsStep_iff s s1 b r1).mp h1
      rcases hh with hh | ⟨hh, rfl⟩
      · have hlt := completeSub_len hh
        obtain ⟨l, rfl, rfl, hl⟩ := (ih r1 (by omega) _ _ _).mp h2
        exact ⟨rd :: l, by simp, rfl, .cons hh hl⟩
      · obtain ⟨l, rfl, rfl, hl⟩ := (ih [] (by simp) _ _ _).mp h2
        cases hl with
        | nil => exact ⟨[rd], by simp, rfl, .cut hh⟩
        | cut hx => exact absurd rfl (cutSub_ne hx)
        | cons hx _ => have := completeSub_len hx; simp at this
    · rintro ⟨l, rfl, rfl, h⟩
      cases h with
      | nil => exact absurd rfl hbe
      | @cut _ rd hc =>
        have h1 := (rdsStep_iff s (s ++ [rd]) b []).mpr ⟨rd, rfl, .inr ⟨hc, rfl⟩⟩
        refine Dec.step h1 ?_
        rw [rds_loop_unfold, if_pos rfl]
      | @cons _ rest rd l hc hs =>
        have hlt := completeSub_len hc
        have h1 := (rdsStep_iff s (s ++ [rd]) b rest).mpr ⟨rd, rfl, .inl hc⟩
        refine Dec.step h1 ?_
        exact (ih rest (by omega) _ _ _).mpr ⟨l, by simp, rfl, hs⟩

/-- RecordDataSet.Decode accepts exactly the sequences of subrecords of `Subs` -/
theorem rds_decode_iff (b : Bytes) (l : RecordDataSet) : rdsDecode nestedDecode [] b = .ok l ↔ Subs b l := by
  unfold rdsDecode Dec.run
  constructor
  · intro h
    revert h
    cases hw : Dec.whileUnread (rdsStep nestedDecode) [] b with
    | ok u s r =>
      intro h
      simp only [Out.ok.injEq] at h
      subst h
      obtain ⟨l, rfl, -, hl⟩ := (rds_loop_iff _ b (Nat.le_refl _) _ _ _).mp hw
      exact hl
    | err e s => intro h; cases h
    | panic => intro h; cases h
    | diverge => intro h; cases h
  · intro h
    rw [(rds_loop_iff _ b (Nat.le_refl _) [] l []).mpr ⟨l, rfl, rfl, h⟩]

/-! ### records -/

omit P in
theorem read_exact {σ : Type} {p a : Bytes} {s s1 : σ} {r r1 : Bytes} (h : Dec.read p s r = .ok a s1 r1) (hne : r1 ≠ []) :
    s1 = s ∧ r = a ++ r1 ∧ a.length = p.length := by
  obtain ⟨rfl, hl, h2, -⟩ := Dec.read_inv h
  have hlen := h2 hne
  rcases read_props p s1 r with ⟨-, hr⟩ | ⟨-, hr⟩
  · rw [hr] at h; cases h
  · rw [hr] at h
    cases h
    have : List.drop r.length p = [] := by
      apply List.drop_eq_nil_of_le; omega
    refine ⟨rfl, ?_, by simp; omega⟩
    rw [this, List.append_nil, List.take_append_drop]

omit P in
theorem leBytes_u32 (a : Bytes) (h : a.length = 4) : leBytes 4 (u32 a).toNat = a := by
  match a, h with
  | [x, y, z, w], _ =>
    rw [u32_toNat]
    have hx := x.toNat_lt
    have hy := y.toNat_lt
    have hz := z.toNat_lt
    have hw := w.toNat_lt
    simp only [leBytes]
    congr
    · apply UInt8.toNat_inj.mp; simp; omega
    · apply UInt8.toNat_inj.mp; simp; omega
    · apply UInt8.toNat_inj.mp; simp; omega
    · apply UInt8.toNat_inj.mp; simp; omega

omit P in
theorem leBytes_u16' (a : Bytes) (h : a.length = 2) : leBytes 2 (u16 a).toNat = a := by
  match a, h with
  | [x, y], _ => exact leBytes_u16 x y

omit P in
/-- an optional four-byte field that is followed by more input -/
theorem optRead_exact {σ : Type} {cond : σ → Bytes} {p a : Bytes} {set : σ → UInt32 → σ} {s s1 : σ} {r r1 : Bytes}
    (hp : p.length = 4) (fl : UInt8) (i : Nat) (hc : cond s = bitText fl i)
    (h : Dec.optRead cond p u32 set s r = .ok a s1 r1) (hne : r1 ≠ []) :
    if fl.toNat.testBit i then ∃ v : UInt32, s1 = set s v ∧ r = leBytes 4 v.toNat ++ r1 else s1 = s ∧ r = r1 := by
  unfold Dec.optRead at h
  obtain ⟨e, s2, r2, h2, k1⟩ := Dec.bind_inv h
  cases h2
  have hcc : (cond s == [49]) = fl.toNat.testBit i := by rw [hc, bitText_eq_one]
  rw [hcc] at k1
  cases hb : fl.toNat.testBit i with
  | false =>
    rw [hb] at k1
    cases k1
    simp
  | true =>
    rw [hb] at k1
    simp only [if_true] at k1
    obtain ⟨b, s3, r3, h3, k2⟩ := Dec.bind_inv k1
    obtain ⟨_, s4, r4, h4, k3⟩ := Dec.bind_inv k2
    cases h4; cases k3
    obtain ⟨rfl, rfl, hl⟩ := read_exact h3 hne
    simp only [if_true]
    exact ⟨u32 a, rfl, by rw [leBytes_u32 a (by omega)]⟩

/-- the record with the given fields -/
def recAt (rl rn : UInt16) (fl : UInt8) (oid evid tm : UInt32) (sst rst : UInt8) (l : List RecordData) : ServiceDataRecord := {
  RecordLength := rl, RecordNumber := rn, SourceServiceOnDevice := bitText fl 7
  RecipientServiceOnDevice := bitText fl 6, Group := bitText fl 5, RecordProcessingPriority := bitText fl 4 ++ bitText fl 3
  TimeFieldExists := bitText fl 2, EventIDFieldExists := bitText fl 1, ObjectIDFieldExists := bitText fl 0
  ObjectIdentifier := oid, EventIdentifier := evid, Time := tm, SourceServiceType := sst, RecipientServiceType := rst
  RecordDataSet := l }

/-- one record -/
def RecordOn (b : Bytes) (r : ServiceDataRecord) (rest : Bytes) : Prop :=
  (∃ hdr data, RecordHeader hdr r ∧ data.length = r.RecordLength.toNat ∧ Subs data r.RecordDataSet ∧ b = hdr ++ data ++ rest) ∨
  (rest = [] ∧ RecordHeader b r ∧ 0 < r.RecordLength.toNat ∧ r.RecordDataSet = []) ∨
  (rest = [] ∧ ∃ hdr data, RecordHeader hdr r ∧ data ≠ [] ∧ data.length < r.RecordLength.toNat ∧
    Subs (data ++ List.replicate (r.RecordLength.toNat - data.length) 0) r.RecordDataSet ∧ b = hdr ++ data)

theorem sdr_forward {e : ServiceDataRecord} {b rest : Bytes} (h : sdrDecodeM nestedDecode {} b = .ok () e rest) :
    RecordOn b e rest := by
  unfold sdrDecodeM at h
  obtain ⟨t, s1, r1, h1, g1⟩ := Dec.bind_inv h
  obtain ⟨_, s2, r2, h2, g2⟩ := Dec.bind_inv g1
  cases h2
  obtain ⟨t2, s3, r3, h3, g3⟩ := Dec.bind_inv g2
  obtain ⟨_, s4, r4, h4, g4⟩ := Dec.bind_inv g3
  cases h4
  obtain ⟨fl, s5, r5, h5, g5⟩ := Dec.bind_inv g4
  obtain ⟨rfl, rfl⟩ := Dec.readByte_inv h5
  obtain ⟨rfl, rfl, hl3⟩ := read_exact h3 (by simp)
  obtain ⟨rfl, rfl, hl1⟩ := read_exact h1 (by simp)
  obtain ⟨_, s6, r6, h6, g6⟩ := Dec.bind_inv g5
  cases h6
  obtain ⟨_, s7, r7, h7, g7⟩ := Dec.bind_inv g6
  obtain ⟨_, s8, r8, h8, g8⟩ := Dec.bind_inv g7
  obtain ⟨_, s9, r9, h9, g9⟩ := Dec.bind_inv g8
  obtain ⟨_, s10, r10, h10, g10⟩ := Dec.bind_inv g9
  obtain ⟨sst, rfl, rfl⟩ := Dec.readByteTo_inv h10
  obtain ⟨_, s11, r11, h11, g11⟩ := Dec.bind_inv g10
  obtain ⟨rst, rfl, rfl⟩ := Dec.readByteTo_inv h11
  obtain ⟨_, s12, r12, h12, g12⟩ := Dec.bind_inv g11
  cases h12
  obtain ⟨f0, f1, f2, f3, f4, f5, f6, f7⟩ := fmt_text1 fl
  obtain ⟨-, -, f34, -, -⟩ := fmt_text fl
  rw [f0, f1, f2, f34, f5, f6, f7] at h7
  have hne9 : (sst :: rst :: r11) ≠ [] := by simp
  have e1 : leBytes 2 (u16 t).toNat = t := leBytes_u16' t (by rw [hl1]; rfl)
  have e2 : leBytes 2 (u16 t2).toNat = t2 := leBytes_u16' t2 (by rw [hl3, hl1]; rfl)
  have hr8 : r8 ≠ [] := by
    intro h0; subst h0
    have := optRead_len h9
    simp at this
  have hr7 : r7 ≠ [] := by
    intro h0; subst h0
    have h0 := optRead_len h8
    have := List.length_pos_iff.mpr hr8
    rw [List.length_nil] at h0
    omega
  have o7 := optRead_exact (by rfl) fl 0 (by rfl) h7 hr7
  -- the three optional fields
  obtain ⟨oid, ho1, ho2, ho3⟩ : ∃ oid : UInt32, s7 = recAt (u16 t) (u16 t2) fl oid 0 0 0 0 [] ∧ r5 = (if fl.toNat.testBit 0 then leBytes 4 oid.toNat else []) ++ r7 ∧
      (fl.toNat.testBit 0 = false → oid = 0) := by
    cases hb : fl.toNat.testBit 0 with
    | false => rw [hb] at o7; exact ⟨0, o7.1, by simpa using o7.2, fun _ => rfl⟩
    | true =>
      rw [hb] at o7
      obtain ⟨v, hv1, hv2⟩ := o7
      exact ⟨v, hv1, by simpa using hv2, fun h => by cases h⟩
  subst ho1
  have o8 := optRead_exact (by rfl) fl 1 (by rfl) h8 hr8
  obtain ⟨evid, hp1, hp2, hp3⟩ : ∃ evid : UInt32, s8 = recAt (u16 t) (u16 t2) fl oid evid 0 0 0 [] ∧ r7 = (if fl.toNat.testBit 1 then leBytes 4 evid.toNat else []) ++ r8 ∧
      (fl.toNat.testBit 1 = false → evid = 0) := by
    cases hb : fl.toNat.testBit 1 with
    | false => rw [hb] at o8; exact ⟨0, o8.1, by simpa using o8.2, fun _ => rfl⟩
    | true =>
      rw [hb] at o8
      obtain ⟨v, hv1, hv2⟩ := o8
      exact ⟨v, hv1, by simpa using hv2, fun h => by cases h⟩
  subst hp1
  have o9 := optRead_exact (by rfl) fl 2 (by rfl) h9 hne9
  obtain ⟨tm, hq1, hq2, hq3⟩ : ∃ tm : UInt32, s9 = recAt (u16 t) (u16 t2) fl oid evid tm 0 0 [] ∧
      r8 = (if fl.toNat.testBit 2 then leBytes 4 tm.toNat else []) ++ (sst :: rst :: r11) ∧
      (fl.toNat.testBit 2 = false → tm = 0) := by
    cases hb : fl.toNat.testBit 2 with
    | false => rw [hb] at o9; exact ⟨0, o9.1, by simpa using o9.2, fun _ => rfl⟩
    | true =>
      rw [hb] at o9
      obtain ⟨v, hv1, hv2⟩ := o9
      exact ⟨v, hv1, by simpa using hv2, fun h => by cases h⟩
  subst hq1
  have hwire : t ++ (t2 ++ fl :: r5) = (leBytes 2 (u16 t).toNat ++ leBytes 2 (u16 t2).toNat ++ [fl] ++
      (if fl.toNat.testBit 0 then leBytes 4 oid.toNat else []) ++ (if fl.toNat.testBit 1 then leBytes 4 evid.toNat else []) ++
      (if fl.toNat.testBit 2 then leBytes 4 tm.toNat else []) ++ [sst, rst]) ++ r11 := by
    rw [e1, e2, ho2, hp2, hq2]
    simp
  rw [hwire]
  have hhdr : ∀ l, RecordHeader (leBytes 2 (u16 t).toNat ++ leBytes 2 (u16 t2).toNat ++ [fl] ++
      (if fl.toNat.testBit 0 then leBytes 4 oid.toNat else []) ++ (if fl.toNat.testBit 1 then leBytes 4 evid.toNat else []) ++
      (if fl.toNat.testBit 2 then leBytes 4 tm.toNat else []) ++ [sst, rst])
      (recAt (u16 t) (u16 t2) fl oid evid tm sst rst l) :=
    fun l => ⟨fl, rfl, rfl, rfl, rfl, rfl, rfl, rfl, rfl, ho3, hp3, hq3⟩
  generalize leBytes 2 (u16 t).toNat ++ leBytes 2 (u16 t2).toNat ++ [fl] ++
      (if fl.toNat.testBit 0 then leBytes 4 oid.toNat else []) ++ (if fl.toNat.testBit 1 then leBytes 4 evid.toNat else []) ++
      (if fl.toNat.testBit 2 then leBytes 4 tm.toNat else []) ++ [sst, rst] = hdr at hhdr
  revert g12
  cases hw : decide (r11.length ≠ 0) with
  | false =>
    intro g12
    obtain rfl : r11 = [] := by simpa using hw
    cases g12
    show RecordOn (hdr ++ []) (recAt (u16 t) (u16 t2) fl oid evid tm sst rst []) []
    by_cases hz : (u16 t).toNat = 0
    · exact .inl ⟨hdr, [], hhdr [], hz.symm, .nil, by simp⟩
    · refine .inr (.inl ⟨rfl, by simpa using hhdr [], ?_, rfl⟩)
      show 0 < (u16 t).toNat
      omega
  | true =>
    intro g12
    rw [Dec.when_true] at g12
    obtain ⟨e', s13, r13, h13, g13⟩ := Dec.bind_inv g12
    cases h13
    obtain ⟨d, s14, r14, h14, g14⟩ := Dec.bind_inv g13
    obtain ⟨l, s15, r15, h15, g15⟩ := Dec.bind_inv g14
    obtain ⟨hrds, rfl, rfl⟩ := call_ok h15
    cases g15
    rw [rds_decode_iff] at hrds
    have hne : r11 ≠ [] := by simpa using hw
    obtain ⟨x, r, rfl⟩ := List.exists_cons_of_ne_nil hne
    rw [Dec.read_cons] at h14
    cases h14
    have hz : (zeros (u16 t).toNat).length = (u16 t).toNat := by simp [zeros]
    change Subs (List.take (zeros (u16 t).toNat).length (x :: r) ++ List.drop (r.length + 1) (zeros (u16 t).toNat)) l at hrds
    show RecordOn (hdr ++ x :: r) (recAt (u16 t) (u16 t2) fl oid evid tm sst rst l) (List.drop (zeros (u16 t).toNat).length (x :: r))
    rw [hz] at hrds ⊢
    by_cases hle : (u16 t).toNat ≤ (x :: r).length
    · left
      refine ⟨hdr, (x :: r).take (u16 t).toNat, hhdr _, ?_, ?_, ?_⟩
      · show ((x :: r).take (u16 t).toNat).length = (u16 t).toNat
        rw [List.length_take, Nat.min_eq_left hle]
      · have : List.drop (r.length + 1) (zeros (u16 t).toNat) = [] := by
          apply List.drop_eq_nil_of_le; simp at hle; simp [zeros]; omega
        rw [this, List.append_nil] at hrds
        exact hrds
      · rw [List.append_assoc, List.take_append_drop]
    · right; right
      refine ⟨List.drop_eq_nil_of_le (by omega), hdr, x :: r, hhdr _, by simp, Nat.lt_of_not_le hle, ?_, rfl⟩
      rw [List.take_of_length_le (by omega)] at hrds
      have : List.drop (r.length + 1) (zeros (u16 t).toNat) = List.replicate ((u16 t).toNat - (x :: r).length) 0 := by
        simp [zeros]
      rw [this] at hrds
      exact hrds

omit P in
theorem bitText_bitS (fl : UInt8) (i : Nat) : bitText fl i = bitS (fl.toNat.testBit i) := by
  unfold bitText bitS dig
  cases fl.toNat.testBit i <;> rfl

/-- the header of a record, read from the start of any input -/
theorem sdr_header {hdr : Bytes} {e : ServiceDataRecord} (h : RecordHeader hdr e) (x : Bytes) (e' : ServiceDataRecord) (rest : Bytes)
    (hx : (Dec.when (decide (x.length ≠ 0)) (do
        let e ← Dec.get
        let b ← Dec.read (zeros e.RecordLength.toNat)
        let rds ← Dec.call (rdsDecode nestedDecode [] b)
        Dec.upd fun e => { e with RecordDataSet := rds }) : Dec ServiceDataRecord Unit)
      { e with RecordDataSet := [] } x = .ok () e' rest) : sdrDecodeM nestedDecode {} (hdr ++ x) = .ok () e' rest := by
  obtain ⟨fl, rfl, h7, h6, h5, h43, h2, h1, h0, ho, hev, htm⟩ := h
  obtain ⟨rl, rn, ssod, rsod, grp, rpp, tmf, evf, obf, oid, evid, time, sst, rst, l⟩ := e
  simp only at h7 h6 h5 h43 h2 h1 h0 ho hev htm hx ⊢
  subst h7 h6 h5 h43 h2 h1 h0
  obtain ⟨f0, f1, f2, f3, f4, f5, f6, f7⟩ := fmt_text1 fl
  obtain ⟨-, -, f34, -, -⟩ := fmt_text fl
  have eo : (if fl.toNat.testBit 0 then oid else 0) = oid := by
    cases hb : fl.toNat.testBit 0 with
    | false => rw [ho hb]; rfl
    | true => rfl
  have ee : (if fl.toNat.testBit 1 then evid else 0) = evid := by
    cases hb : fl.toNat.testBit 1 with
    | false => rw [hev hb]; rfl
    | true => rfl
  have et : (if fl.toNat.testBit 2 then time else 0) = time := by
    cases hb : fl.toNat.testBit 2 with
    | false => rw [htm hb]; rfl
    | true => rfl
  unfold sdrDecodeM
  rw [← le16_eq, ← le16_eq, ← le32_eq, ← le32_eq, ← le32_eq]
  simp only [List.append_assoc, List.cons_append, List.nil_append]
  refine Dec.step (Dec.read_le16 _ _ _ rl rfl) ?_
  refine Dec.step (Dec.upd_apply _ _ _) ?_; try dsimp only
  refine Dec.step (Dec.read_le16 _ _ _ rn rfl) ?_
  refine Dec.step (Dec.upd_apply _ _ _) ?_; try dsimp only
  refine Dec.step (Dec.readByte_cons _ _ _) ?_
  rw [f0, f1, f2, f34, f5, f6, f7]
  refine Dec.step (Dec.upd_apply _ _ _) ?_; try dsimp only
  refine Dec.step (Dec.optRead_step (·.ObjectIdentifier) (fl.toNat.testBit 0) (le32 oid) (hc := bitText_bitS fl 0)) ?_; try dsimp only
  refine Dec.step (Dec.optRead_step (·.EventIdentifier) (fl.toNat.testBit 1) (le32 evid) (hc := bitText_bitS fl 1)) ?_; try dsimp only
  refine Dec.step (Dec.optRead_step (·.Time) (fl.toNat.testBit 2) (le32 time) (hc := bitText_bitS fl 2)) ?_; try dsimp only
  refine Dec.step (Dec.readByteTo_cons _ _ _ _) ?_; try dsimp only
  refine Dec.step (Dec.readByteTo_cons _ _ _ _) ?_; try dsimp only
  refine Dec.step (Dec.unread_apply _ _) ?_; try dsimp only
  rw [u16_le16', u16_le16', u32_le32', u32_le32', u32_le32', eo, ee, et]
  exact hx

theorem sdr_backward {e : ServiceDataRecord} {b rest : Bytes} (h : RecordOn b e rest) :
    sdrDecodeM nestedDecode {} b = .ok () e rest := by
  rcases h with ⟨hdr, data, hh, hl, hs, rfl⟩ | ⟨rfl, hh, hl, hs⟩ | ⟨rfl, hdr, data, hh, hne, hl, hs, rfl⟩
  · rw [List.append_assoc]
    refine sdr_header hh _ _ _ ?_
    by_cases hne : data ++ rest = []
    · obtain ⟨rfl, rfl⟩ := List.append_eq_nil_iff.mp hne
      have : e.RecordDataSet = [] := by
        generalize e.RecordDataSet = l at hs
        cases hs with
        | nil => rfl
        | cut hx => exact absurd rfl (cutSub_ne hx)
        | cons hx _ => have := completeSub_len hx; simp at this
      simp [← this]
    · have hlen : decide (List.length (data ++ rest) ≠ 0) = true := by
        rw [decide_eq_true_eq]; exact fun h => hne (List.length_eq_zero_iff.mp h)
      rw [hlen, Dec.when_true]
      refine Dec.step (Dec.get_apply _ _) ?_; try dsimp only
      refine Dec.step (read_any _ _ data rest hl hne) ?_; try dsimp only
      rw [(rds_decode_iff _ _).mpr hs]
      rfl
  · have := sdr_header hh [] e [] (by simp [← hs])
    simpa using this
  · refine sdr_header hh _ _ _ ?_
    have hlen : decide (List.length data ≠ 0) = true := by
      rw [decide_eq_true_eq]; exact fun h => hne (List.length_eq_zero_iff.mp h)
    rw [hlen, Dec.when_true]
    refine Dec.step (Dec.get_apply _ _) ?_; try dsimp only
    obtain ⟨x, r, rfl⟩ := List.exists_cons_of_ne_nil hne
    refine Dec.step (Dec.read_cons _ _ _ _) ?_
    have e1 : List.take (zeros e.RecordLength.toNat).length (x :: r) = x :: r := by
      apply List.take_of_length_le; simp [zeros] at hl ⊢; omega
    have e2 : List.drop (r.length + 1) (zeros e.RecordLength.toNat) =
        List.replicate (e.RecordLength.toNat - (x :: r).length) 0 := by simp [zeros]
    have e3 : List.drop (zeros e.RecordLength.toNat).length (x :: r) = [] := by
      apply List.drop_eq_nil_of_le; simp [zeros] at hl ⊢; omega
    rw [e1, e2, e3, (rds_decode_iff _ _).mpr hs]
    rfl

theorem sdsStep_iff (s s' : ServiceDataSet) (b rest : Bytes) :
    sdsStep nestedDecode s b = .ok () s' rest ↔ ∃ e, s' = s ++ [e] ∧ RecordOn b e rest := by
  unfold sdsStep
  constructor
  · intro h
    revert h
    cases hd : sdrDecodeM nestedDecode {} b with
    | ok u e r => intro h; cases h; exact ⟨e, rfl, sdr_forward hd⟩
    | err e x => intro h; cases h
    | panic => intro h; cases h
    | diverge => intro h; cases h
  · rintro ⟨e, rfl, h⟩
    rw [sdr_backward h]

theorem header_len {hdr : Bytes} {e : ServiceDataRecord} (h : RecordHeader hdr e) : 7 ≤ hdr.length := by
  obtain ⟨fl, rfl, -⟩ := h
  simp [leBytes_len]
  omega

theorem recordOn_len {b rest : Bytes} {e : ServiceDataRecord} (h : RecordOn b e rest) : rest.length < b.length := by
  rcases h with ⟨hdr, data, hh, hl, hs, rfl⟩ | ⟨rfl, hh, hl, hs⟩ | ⟨rfl, hdr, data, hh, hne, hl, hs, rfl⟩
  · have := header_len hh; simp; omega
  · have := header_len hh; simp; omega
  · have := header_len hh; simp; omega

theorem records_nil {l : List ServiceDataRecord} (h : Records [] l) : l = [] := by
  generalize hb : ([] : Bytes) = b at h
  cases h with
  | nil => rfl
  | cons hh _ _ _ =>
    have := header_len hh
    have h0 := congrArg List.length hb
    simp at h0
    omega
  | bare hh _ _ => subst hb; have := header_len hh; simp at this
  | cut hh _ _ _ =>
    have := header_len hh
    have h0 := congrArg List.length hb
    simp at h0
    omega

theorem records_cons_iff {b : Bytes} (hb : b ≠ []) {l : List ServiceDataRecord} :
    Records b l ↔ ∃ e rest l', l = e :: l' ∧ RecordOn b e rest ∧ Records rest l' := by
  constructor
  · intro h
    cases h with
    | nil => exact absurd rfl hb
    | cons hh hl hs hr => exact ⟨_, _, _, rfl, .inl ⟨_, _, hh, hl, hs, rfl⟩, hr⟩
    | bare hh hl hs => exact ⟨_, [], [], rfl, .inr (.inl ⟨rfl, hh, hl, hs⟩), .nil⟩
    | cut hh hne hl hs => exact ⟨_, [], [], rfl, .inr (.inr ⟨rfl, _, _, hh, hne, hl, hs, rfl⟩), .nil⟩
  · rintro ⟨e, rest, l', rfl, h, hr⟩
    rcases h with ⟨hdr, data, hh, hl, hs, rfl⟩ | ⟨rfl, hh, hl, hs⟩ | ⟨rfl, hdr, data, hh, hne, hl, hs, rfl⟩
    · exact .cons hh hl hs hr
    · rw [records_nil hr]; exact .bare hh hl hs
    · rw [records_nil hr]; exact .cut hh hne hl hs

theorem sds_loop_iff (n : Nat) : ∀ (b : Bytes), b.length ≤ n → ∀ (s s' : ServiceDataSet) (r : Bytes),
    Dec.whileUnread (sdsStep nestedDecode) s b = .ok () s' r ↔ ∃ l, s' = s ++ l ∧ r = [] ∧ Records b l := by
  induction n with
  | zero =>
    intro b hb s s' r
    obtain rfl : b = [] := List.length_eq_zero_iff.mp (by omega)
    rw [sds_loop_unfold, if_pos rfl]
    constructor
    · intro h; cases h; exact ⟨[], by simp, rfl, .nil⟩
    · rintro ⟨l, rfl, rfl, h⟩
      rw [records_nil h]; simp
  | succ n ih =>
    intro b hb s s' r
    by_cases hbe : b = []
    · subst hbe
      exact ih [] (by simp) s s' r
    rw [sds_loop_unfold, if_neg hbe]
    constructor
    · intro h
      obtain ⟨u, s1, r1, h1, h2⟩ := Dec.bind_inv h
      obtain ⟨e, rfl, he⟩ := (sdsStep_iff s s1 b r1).mp h1
      have hlt := recordOn_len he
      obtain ⟨l, rfl, rfl, hl⟩ := (ih r1 (by omega) _ _ _).mp h2
      exact ⟨e :: l, by simp, rfl, (records_cons_iff hbe).mpr ⟨e, r1, l, rfl, he, hl⟩⟩
    · rintro ⟨l, rfl, rfl, h⟩
      obtain ⟨e, rest, l', rfl, he, hr⟩ := (records_cons_iff hbe).mp h
      have hlt := recordOn_len he
      refine Dec.step ((sdsStep_iff s (s ++ [e]) b rest).mpr ⟨e, rfl, he⟩) ?_
      exact (ih rest (by omega) _ _ _).mpr ⟨l', by simp, rfl, hr⟩

/-- C72: exactly which bodies the decoder accepts, and what it finds in them. -/
theorem body_decode_iff (b : Bytes) (l : ServiceDataSet) : ServiceDataSet.decode [] b = .ok l ↔ Records b l := by
  unfold ServiceDataSet.decode sdsDecodeWith Dec.run
  constructor
  · intro h
    revert h
    cases hw : Dec.whileUnread (sdsStep nestedDecode) [] b with
    | ok u s r =>
      intro h
      simp only [Out.ok.injEq] at h
      subst h
      obtain ⟨l, rfl, -, hl⟩ := (sds_loop_iff _ b (Nat.le_refl _) _ _ _).mp hw
      exact hl
    | err e s => intro h; cases h
    | panic => intro h; cases h
    | diverge => intro h; cases h
  · intro h
    rw [(sds_loop_iff _ b (Nat.le_refl _) [] l []).mpr ⟨l, rfl, rfl, h⟩]

theorem CompleteSubs.subs {b : Bytes} {l : List RecordData} (h : CompleteSubs b l) : Subs b l := by
  induction h with
  | nil => exact .nil
  | cons h _ ih => exact .cons h ih

theorem CompleteRecords.records {b : Bytes} {l : List ServiceDataRecord} (h : CompleteRecords b l) : Records b l := by
  induction h with
  | nil => exact .nil
  | cons h1 h2 h3 _ ih => exact .cons h1 h2 h3.subs ih

/-- C71: a body made of complete records with complete subrecords (every length field tells the truth, every content is
acceptable for its type code) is accepted, and yields exactly these records with exactly these subrecords, in order. -/
theorem body_decoded (b : Bytes) (l : List ServiceDataRecord) (h : CompleteRecords b l) : ServiceDataSet.decode [] b = .ok l :=
  (body_decode_iff b l).mpr h.records

/-- C71: the records of a body are determined by its bytes. -/
theorem body_unique (b : Bytes) (l l' : List ServiceDataRecord) (h : CompleteRecords b l) (h' : CompleteRecords b l') : l = l' :=
  Out.ok.inj ((body_decoded b l h).symm.trans (body_decoded b l' h'))

/-! ### C72: incomplete bodies -/

/-- number of bytes the header fields of a record announce: 7, plus 4 for each optional field -/
def ServiceDataRecord.announced (r : ServiceDataRecord) : Nat :=
  7 + (if r.ObjectIDFieldExists = [49] then 4 else 0) + (if r.EventIDFieldExists = [49] then 4 else 0) +
    (if r.TimeFieldExists = [49] then 4 else 0) + r.RecordLength.toNat

omit P in
theorem bitText_one (fl : UInt8) (i : Nat) : bitText fl i = [49] ↔ fl.toNat.testBit i = true := by
  unfold bitText; cases fl.toNat.testBit i <;> simp

theorem header_announced {hdr : Bytes} {r : ServiceDataRecord} (h : RecordHeader hdr r) :
    hdr.length + r.RecordLength.toNat = r.announced := by
  obtain ⟨fl, rfl, -, -, -, -, h2, h1, h0, -⟩ := h
  unfold ServiceDataRecord.announced
  rw [h2, h1, h0]
  simp only [bitText_one, List.length_append, leBytes_len, List.length_cons, List.length_nil]
  cases fl.toNat.testBit 0 <;> cases fl.toNat.testBit 1 <;> cases fl.toNat.testBit 2 <;> simp [leBytes_len]

theorem subs_len {b : Bytes} {l : List RecordData} (h : Subs b l) : b.length ≤ (l.map fun rd => 3 + rd.SubrecordLength.toNat).sum := by
  induction h with
  | nil => simp
  | cut h =>
    rcases h with ⟨c, d, rfl, hl, -⟩ | ⟨d, rfl, -⟩
    · simp [leBytes_len]; omega
    · simp [leBytes_len]; omega
  | cons h _ ih =>
    obtain ⟨c, d, rfl, hl, -⟩ := h
    simp only [List.length_append, leBytes_len, List.length_cons, List.length_nil, List.map_cons, List.sum_cons]; omega

theorem subs_complete {b : Bytes} {l : List RecordData} (h : Subs b l)
    (hl : b.length = (l.map fun rd => 3 + rd.SubrecordLength.toNat).sum) : CompleteSubs b l := by
  induction h with
  | nil => exact .nil
  | cut h =>
    exfalso
    rcases h with ⟨c, d, rfl, hl', -⟩ | ⟨d, rfl, -⟩
    · simp [leBytes_len] at hl; omega
    · simp [leBytes_len] at hl; omega
  | cons h hs ih =>
    refine .cons h (ih ?_)
    obtain ⟨c, d, rfl, hl', -⟩ := h
    simp only [List.length_append, leBytes_len, List.length_cons, List.length_nil, List.map_cons, List.sum_cons] at hl
    omega

theorem records_len {b : Bytes} {l : List ServiceDataRecord} (h : Records b l) : b.length ≤ (l.map (·.announced)).sum := by
  induction h with
  | nil => simp
  | cons hh hl _ _ ih => have := header_announced hh; simp; omega
  | bare hh hl _ => have := header_announced hh; simp; omega
  | cut hh _ hl _ => have := header_announced hh; simp; omega

/-- C72 (partial): in an accepted body whose length is the sum of the announced record lengths, each of which is the sum
of the announced subrecord lengths, all records and subrecords are complete. Missing: bodies shorter than
announced, of which some are accepted (`body_cut_accepted`, `body_bare_accepted`); `body_decode_iff` says which. -/
theorem body_complete_partial (b : Bytes) (l : ServiceDataSet) (h : ServiceDataSet.decode [] b = .ok l)
    (hb : b.length = (l.map (·.announced)).sum)
    (hr : ∀ r ∈ l, r.RecordLength.toNat = (r.RecordDataSet.map fun rd => 3 + rd.SubrecordLength.toNat).sum) :
    CompleteRecords b l := by
  have := (body_decode_iff b l).mp h
  clear h
  induction this with
  | nil => exact .nil
  | @cons hdr data rest r l hh hl hs hrec ih =>
    have h1 := header_announced hh
    have h2 := records_len hrec
    have h3 := hr r List.mem_cons_self
    simp only [List.length_append, List.map_cons, List.sum_cons] at hb
    refine .cons hh hl (subs_complete hs (by omega)) (ih (by omega) fun x hx => hr x (List.mem_cons_of_mem _ hx))
  | bare hh hl _ =>
    exfalso
    have := header_announced hh
    simp at hb
    omega
  | cut hh _ hl _ =>
    exfalso
    have := header_announced hh
    simp at hb
    omega

theorem complete_announced {b : Bytes} {l : List ServiceDataRecord} (h : CompleteRecords b l) :
    b.length = (l.map (·.announced)).sum := by
  induction h with
  | nil => rfl
  | cons hh hl _ _ ih => have := header_announced hh; simp; omega

theorem complete_sub_lengths {b : Bytes} {l : List RecordData} (h : CompleteSubs b l) :
    b.length = (l.map fun rd => 3 + rd.SubrecordLength.toNat).sum := by
  induction h with
  | nil => rfl
  | cons h _ ih =>
    obtain ⟨c, d, rfl, hl', -⟩ := h
    simp only [List.length_append, leBytes_len, List.length_cons, List.length_nil, List.map_cons, List.sum_cons]
    omega

/-- the record of `body_cut_accepted`: counter 110 with the value 0 that the missing bytes were taken for -/
def cutRecord : ServiceDataRecord := {
  RecordLength := 7, RecordNumber := 1, SourceServiceOnDevice := [48], RecipientServiceOnDevice := [48], Group := [48]
  RecordProcessingPriority := [48, 48], TimeFieldExists := [48], EventIDFieldExists := [48], ObjectIDFieldExists := [48]
  SourceServiceType := 2, RecipientServiceType := 2
  RecordDataSet := [⟨25, 4, some (.absCntr { CounterNumber := 110, CounterValue := 0 })⟩] }

/-- the record of `body_bare_accepted` -/
def bareRecord : ServiceDataRecord := { cutRecord with
  RecordLength := 1000
  RecordDataSet := [] }

theorem cut_header (rl : UInt16) (l : List RecordData) :
    RecordHeader (leBytes 2 rl.toNat ++ [1, 0, 0, 2, 2]) { cutRecord with
      RecordLength := rl
      RecordDataSet := l } := by
  refine ⟨0, ?_, rfl, rfl, rfl, rfl, rfl, rfl, rfl, fun _ => rfl, fun _ => rfl, fun _ => rfl⟩
  simp [cutRecord, leBytes]

/-- C72 is false of the code: a record that announces 7 bytes of data, of which the last three are missing, is accepted;
the missing bytes are read as zeros and appear as the value of a counter. -/
theorem body_cut_accepted : ServiceDataSet.decode [] [7, 0, 1, 0, 0, 2, 2, 25, 4, 0, 110] = .ok [cutRecord] ∧
    ∀ l, ¬ CompleteRecords [7, 0, 1, 0, 0, 2, 2, 25, 4, 0, 110] l := by
  have h : ServiceDataSet.decode [] [7, 0, 1, 0, 0, 2, 2, 25, 4, 0, 110] = .ok [cutRecord] := by
    rw [body_decode_iff]
    refine Records.cut (hdr := [7, 0, 1, 0, 0, 2, 2]) (data := [25, 4, 0, 110]) (cut_header 7 _) (by simp) (show 4 < 7 by decide) ?_
    refine Subs.cons (rest := []) ⟨[110, 0, 0, 0], .absCntr { CounterNumber := 110, CounterValue := 0 }, rfl, rfl, rfl, rfl, ?_⟩ .nil
    rfl
  refine ⟨h, fun l hl => ?_⟩
  have h1 := Out.ok.inj (h.symm.trans (body_decoded _ _ hl))
  subst h1
  have := complete_announced hl
  revert this
  simp [ServiceDataRecord.announced, cutRecord]

/-- C72 is false of the code: a record that announces 1000 bytes of data and has none at all is accepted. -/
theorem body_bare_accepted : ServiceDataSet.decode [] [232, 3, 1, 0, 0, 2, 2] = .ok [bareRecord] ∧
    ∀ l, ¬ CompleteRecords [232, 3, 1, 0, 0, 2, 2] l := by
  have h : ServiceDataSet.decode [] [232, 3, 1, 0, 0, 2, 2] = .ok [bareRecord] := by
    rw [body_decode_iff]
    exact Records.bare (cut_header 1000 _) (show 0 < 1000 by decide) rfl
  refine ⟨h, fun l hl => ?_⟩
  have h1 := Out.ok.inj (h.symm.trans (body_decoded _ _ hl))
  subst h1
  have := complete_announced hl
  revert this
  simp [ServiceDataRecord.announced, bareRecord, cutRecord]

end Egts
