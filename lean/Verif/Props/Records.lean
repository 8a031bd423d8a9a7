import Verif.Spec.SubRecord
import Verif.Lemmas.ServiceData
import Verif.Lemmas.Loop
set_option autoImplicit false
/- C16-C19: record data sets and service data sets. -/
namespace Egts
variable [P : Platform]

omit P in
theorem absentZero_ite {α : Type} {f : Bytes} {v z : α} (h : AbsentZero f v z) : (if f = [49] then v else z) = v := by
  split
  · rfl
  · rename_i hf; exact (h hf).symm

theorem nested_nil : nestedDecode (P := P) [] = .ok [] := by
  rw [nested_is_recursive]
  unfold ServiceDataSet.decode sdsDecodeWith Dec.run
  rw [sds_loop_unfold, if_pos rfl]

theorem pos_same (e : SrPosData) (h : (SubData.pos e : SubData).WellFormed) :
    ∃ b e', e.encode = .ok b ∧ SrPosData.decode {} b = .ok e' ∧ SamePosition e e' := by
  obtain ⟨hf, hdir, halt, hsd, ⟨n, hn, hnt⟩, hlat, hlon⟩ := h
  obtain ⟨b, e', hb, hd, h1, h2, h3, h4, h5, h6, h7, h8, h9, h10, h11, h12, h13, h14, h15, h16, h17⟩ := pos_roundtrip_partial e hf
  obtain ⟨b2, e2, hb2, hd2, c1, c2⟩ := coord_roundtrip e hf.flags hlat hlon
  obtain ⟨b3, hb3, hd3⟩ := pos_behaviour e hf.flags
  have eb : b2 = b := Go.ok.inj (hb2.symm.trans hb)
  subst eb
  have ee : e2 = e' := Out.ok.inj (hd2.symm.trans hd)
  subst ee
  have eb3 : b3 = b2 := Go.ok.inj (hb3.symm.trans hb)
  subst eb3
  have e3 := Out.ok.inj (hd.symm.trans hd3)
  have hnt' : e2.NavigationTime = e.NavigationTime := by
    rw [e3]; simp only; rw [hnt, rawOfNavTime_sec n hn, navTimeOfRaw, u32_ofNat_toNat (by omega)]
  have hsd' : e2.SourceData = e.SourceData := by rw [e3, hsd]
  have hdir' : e2.Direction = e.Direction := by
    rcases hf.dirh with h0 | h0
    · exact h17 h0
    · exact h16 h0 (hdir h0)
  rw [absentZero_ite halt] at h15
  refine ⟨b3, e2, hb, hd, ?_, c1, c2⟩
  clear e3 hd hd2 hd3 hb hb2 hb3 c1 c2 h16 h17
  cases e2; cases e
  simp_all

/-- every well-formed subrecord survives its own Encode and Decode (under any type code it is read with) -/
theorem sub_same (d : SubData) (h : d.WellFormed) (t : UInt8) (srl : UInt16)
    (ht : t = d.typeCode ∨ (t = 20 ∧ ∃ s, d = .state s)) :
    ∃ b d', d.encode = .ok b ∧ (srl.toNat = b.length → decodeSub nestedDecode t srl b = .ok d') ∧ d.Same d' := by
  cases d with
  | pos e =>
    obtain ⟨b, e', hb, hd, hs⟩ := pos_same e h
    obtain rfl : t = 16 := by simpa [SubData.typeCode] using ht
    exact ⟨b, .pos e', hb, fun _ => by show (SrPosData.decode {} b).map _ = _; rw [hd]; rfl, e', rfl, hs⟩
  | term e =>
    obtain ⟨hw, a1, a2, a3, a4, a5, a6, a7⟩ := h
    obtain ⟨b, hb, hd⟩ := term_roundtrip e hw
    obtain rfl : t = 1 := by simpa [SubData.typeCode] using ht
    rw [absentZero_ite a1, absentZero_ite a2, absentZero_ite a3, absentZero_ite a4, absentZero_ite a5, absentZero_ite a6,
      absentZero_ite a7] at hd
    exact ⟨b, .term e, hb, fun _ => by show (SrTermIdentity.decode {} b).map _ = _; rw [hd]; rfl, rfl⟩
  | response e =>
    obtain rfl : t = 0 := by simpa [SubData.typeCode] using ht
    refine ⟨_, .response e, rfl, fun _ => ?_, rfl⟩
    have hh : ∀ b, decodeSub nestedDecode 0 srl b = Out.map SubData.response ((SrResponse.decodeM nestedDecode).run {} b) :=
      fun b => by simp [decodeSub]
    rw [hh]
    rw [show (SrResponse.decodeM nestedDecode).run {} (le16 e.ConfirmedRecordNumber ++ [e.RecordStatus]) = .ok e from ?_]
    · rfl
    apply Dec.run_of_ok (u := ()) (r := [])
    unfold SrResponse.decodeM
    refine Dec.step (Dec.read_le16 _ _ _ e.ConfirmedRecordNumber rfl) ?_
    refine Dec.step (Dec.upd_apply _ _ _) ?_; try dsimp only
    refine Dec.step (Dec.readByteTo_cons _ _ _ _) ?_; try dsimp only
    refine Dec.step (Dec.unread_apply _ _) ?_; try dsimp only
    rw [nested_nil, u16_le16']
    rfl
  | result e =>
    obtain rfl : t = 9 := by simpa [SubData.typeCode] using ht
    exact ⟨_, .result e, rfl, fun _ => rfl, rfl⟩
  | ext e =>
    obtain ⟨⟨h1, h2, h3, h4, h5⟩, a1, a2, a3, a4, a5⟩ := h
    obtain ⟨b, hb, hd⟩ := extpos_roundtrip e h1 h2 h3 h4 h5
    obtain rfl : t = 17 := by simpa [SubData.typeCode] using ht
    rw [absentZero_ite a1, absentZero_ite a2, absentZero_ite a3, absentZero_ite a4, absentZero_ite a5] at hd
    exact ⟨b, .ext e, hb, fun _ => by show (SrExtPosData.decode {} b).map _ = _; rw [hd]; rfl, rfl⟩
  | ad e =>
    obtain ⟨h1, h2, h3, ⟨a1, a2, a3, a4, a5, a6, a7, a8⟩, b1, b2, b3, b4, b5, b6, b7, b8⟩ := h
    obtain ⟨b, hb, hd⟩ := adsensors_roundtrip_partial e h1 h2 h3
    obtain rfl : t = 18 := by simpa [SubData.typeCode] using ht
    rw [absentZero_ite a1, absentZero_ite a2, absentZero_ite a3, absentZero_ite a4, absentZero_ite a5, absentZero_ite a6,
      absentZero_ite a7, absentZero_ite a8, absentZero_ite b1, absentZero_ite b2, absentZero_ite b3, absentZero_ite b4,
      absentZero_ite b5, absentZero_ite b6, absentZero_ite b7, absentZero_ite b8] at hd
    exact ⟨b, .ad e, hb, fun _ => by show (SrAdSensorsData.decode {} b).map _ = _; rw [hd]; rfl, rfl⟩
  | state e =>
    obtain ⟨b, hb, hlen, hd⟩ := state_roundtrip e h.1 h.2.1 h.2.2
    refine ⟨b, .state e, hb, fun hs => ?_, rfl⟩
    rcases ht with rfl | ⟨rfl, -⟩
    · show (SrStateData.decode {} b).map _ = _
      rw [hd]; rfl
    · have : srl = 5 := by apply UInt16.toNat_inj.mp; rw [hs, hlen]; rfl
      show (if srl = 5 then (SrStateData.decode {} b).map SubData.state else _) = _
      rw [if_pos this, hd]; rfl
  | liquid e =>
    obtain ⟨h1, h2, h3, h4⟩ := h
    obtain ⟨b, hb, -, hd⟩ := liquid_roundtrip e h1 h2 h3 h4
    obtain rfl : t = 27 := by simpa [SubData.typeCode] using ht
    exact ⟨b, .liquid e, hb, fun _ => by show (SrLiquidLevelSensor.decode {} b).map _ = _; rw [hd]; rfl, rfl⟩
  | absCntr e =>
    obtain ⟨b, hb, -, hd⟩ := abscntr_roundtrip e h
    obtain rfl : t = 25 := by simpa [SubData.typeCode] using ht
    exact ⟨b, .absCntr e, hb, fun _ => by show (SrAbsCntrData.decode {} b).map _ = _; rw [hd]; rfl, rfl⟩
  | auth e =>
    obtain ⟨b, hb, hd⟩ := auth_roundtrip e h.1 h.2.1 h.2.2
    obtain rfl : t = 7 := by simpa [SubData.typeCode] using ht
    exact ⟨b, .auth e, hb, fun _ => by show (SrAuthInfo.decode {} b).map _ = _; rw [hd]; rfl, rfl⟩
  | counters e =>
    obtain ⟨⟨h1, h2, h3, h4, h5, h6, h7, h8⟩, hv, a1, a2, a3, a4, a5, a6, a7, a8⟩ := h
    obtain ⟨b, hb, hd⟩ := counters_roundtrip_partial e h1 h2 h3 h4 h5 h6 h7 h8 hv
    obtain rfl : t = 19 := by simpa [SubData.typeCode] using ht
    rw [absentZero_ite a1, absentZero_ite a3, absentZero_ite a4, absentZero_ite a5, absentZero_ite a6,
      absentZero_ite a7, absentZero_ite a8] at hd
    have hd : SrCountersData.decode {} b = .ok e := by rw [hd]; cases e; simp_all
    exact ⟨b, .counters e, hb, fun _ => by show (SrCountersData.decode {} b).map _ = _; rw [hd]; rfl, rfl⟩
  | storage m =>
    obtain ⟨b, hb, hd⟩ := h
    obtain rfl : t = 15 := by simpa [SubData.typeCode] using ht
    refine ⟨b, .storage m, by show storageEncode m = _; unfold storageEncode; rw [hb], fun _ => ?_, rfl⟩
    show (storageDecode b).map _ = _
    unfold storageDecode; rw [hd]; rfl
  | absAn e =>
    obtain ⟨b, hb, -, hd⟩ := absan_roundtrip e h
    obtain rfl : t = 24 := by simpa [SubData.typeCode] using ht
    exact ⟨b, .absAn e, hb, fun _ => by show (SrAbsAnSensData.decode {} b).map _ = _; rw [hd]; rfl, rfl⟩
  | dispatcher e =>
    obtain ⟨b, hb, hd⟩ := dispatcher_roundtrip e
    obtain rfl : t = 5 := by simpa [SubData.typeCode] using ht
    exact ⟨b, .dispatcher e, hb, fun _ => by show (SrDispatcherIdentity.decode {} b).map _ = _; rw [hd]; rfl, rfl⟩

theorem inferType_eq (d : SubData) (h : d.isDispatcher = false) : inferType (some d) = some d.typeCode := by
  cases d <;> first | rfl | simp [SubData.isDispatcher] at h


/-! ### C17 -/

/-- C17 (composition): if every subrecord of a list, with its length field right or left 0, comes back as `rd'` when it
is encoded and decoded alone, then the whole list comes back as the list of the `rd'`, in order. -/
theorem rds_composes (l l' : List RecordData) (hl : ∀ rd ∈ l, rd.LengthOk)
    (h : List.Forall₂ (fun rd rd' => ∃ b, RecordDataSet.encode [rd] = .ok b ∧ RecordDataSet.decode [] b = .ok [rd']) l l') :
    ∃ b, RecordDataSet.encode l = .ok b ∧ RecordDataSet.decode [] b = .ok l' := by
  apply rds_list
  induction h with
  | nil => exact .nil
  | cons h1 _ ih =>
    obtain ⟨b, h1, h2⟩ := h1
    refine .cons (subRT_of_single _ _ (hl _ List.mem_cons_self) b h1 h2) (ih fun rd hrd => hl rd (List.mem_cons_of_mem _ hrd))

theorem forall₂_of_exists {α β : Type} {R : α → β → Prop} (l : List α) (h : ∀ a ∈ l, ∃ b, R a b) :
    ∃ l', List.Forall₂ R l l' := by
  induction l with
  | nil => exact ⟨[], .nil⟩
  | cons a l ih =>
    obtain ⟨b, hb⟩ := h a List.mem_cons_self
    obtain ⟨l', hl'⟩ := ih fun x hx => h x (List.mem_cons_of_mem _ hx)
    exact ⟨b :: l', .cons hb hl'⟩

theorem rd_encode_eq (rd : RecordData) (d : SubData) (t : UInt8) (srl : UInt16) (b : Bytes) (hd : rd.SubrecordData = some d)
    (ht : (if rd.SubrecordType = 0 then
      match inferType (some d) with
      | some t => Go.ok t
      | none => Go.err Err.unknownData
    else Go.ok rd.SubrecordType : Go UInt8) = .ok t)
    (hl : (if rd.SubrecordLength = 0 then d.length else .ok rd.SubrecordLength : Go UInt16) = .ok srl)
    (hb : d.encode = .ok b) : rd.encode = .ok ([t] ++ le16 srl ++ b) := by
  unfold RecordData.encode
  rw [hd]
  have h1 : (match (some d : Option SubData) with
    | none => Go.panic
    | some d => do
      let srl ← (if rd.SubrecordLength = 0 then d.length else .ok rd.SubrecordLength : Go UInt16)
      let b ← d.encode
      pure ([t] ++ le16 srl ++ b) : Go Bytes) = .ok ([t] ++ le16 srl ++ b) := by
    simp only [hl, hb, Go.ok_bind, Go.pure_def]
  refine Eq.trans ?_ h1
  refine Eq.trans (congrArg (fun g : Go UInt8 => g >>= _) ht) ?_
  rfl

/-- one subrecord -/
theorem rd_roundtrip (rd : RecordData) (h : rd.WellFormed) : ∃ rd', SubRT rd rd' ∧ rd.Same rd' := by
  obtain ⟨⟨d, hd, ht⟩, ⟨d2, b, hd2, hb, hlt, hlen⟩, d3, hd3, hw⟩ := h
  obtain rfl : d2 = d := Option.some.inj (hd2.symm.trans hd)
  obtain rfl : d3 = d2 := Option.some.inj (hd3.symm.trans hd)
  set t := if rd.SubrecordType = 0 then d3.typeCode else rd.SubrecordType with htdef
  have ht' : t = d3.typeCode ∨ (t = 20 ∧ ∃ s, d3 = .state s) := by
    by_cases h0 : rd.SubrecordType = 0
    · left; rw [htdef, if_pos h0]
    · rw [htdef, if_neg h0]
      rcases ht with h | h | h
      · exact .inl h
      · exact absurd h.1 h0
      · exact .inr h
  have hn : (UInt16.ofNat b.length).toNat = b.length := by
    rw [UInt16.toNat_ofNat']; exact Nat.mod_eq_of_lt hlt
  obtain ⟨b', d', hb', hdec, hs⟩ := sub_same d3 hw t (UInt16.ofNat b.length) ht'
  obtain rfl : b' = b := Go.ok.inj (hb'.symm.trans hb)
  refine ⟨⟨t, UInt16.ofNat b'.length, some d'⟩, ⟨t, UInt16.ofNat b'.length, b', d', ?_, hn, hdec hn, rfl⟩,
    d3, b', d', hd, hb, hs, rfl⟩
  have htype : (if rd.SubrecordType = 0 then
      match inferType (some d3) with
      | some t => Go.ok t
      | none => Go.err Err.unknownData
    else Go.ok rd.SubrecordType : Go UInt8) = .ok t := by
    by_cases h0 : rd.SubrecordType = 0
    · rw [if_pos h0, htdef, if_pos h0]
      have : inferType (some d3) = some d3.typeCode := by
        cases hdi : d3.isDispatcher with
        | false => exact inferType_eq d3 hdi
        | true =>
          rcases ht with h | h | h
          · rw [h0] at h
            cases d3 <;> simp [SubData.typeCode, SubData.isDispatcher] at h hdi
          · rw [hdi] at h; simp at h
          · rw [h0] at h; simp at h
      rw [this]
    · rw [if_neg h0, htdef, if_neg h0]
  have hl : (if rd.SubrecordLength = 0 then d3.length else .ok rd.SubrecordLength : Go UInt16) = .ok (UInt16.ofNat b'.length) := by
    by_cases h0 : rd.SubrecordLength = 0
    · rw [if_pos h0]
      unfold SubData.length
      split
      · rename_i a
        have : b'.length = 4 := by
          simp only [SubData.encode, SrAbsAnSensData.encode, Go.ok.injEq] at hb
          rw [← hb]; rfl
        rw [this]; rfl
      · rw [hb]; rfl
    · rw [if_neg h0, ← hlen.resolve_left h0]; simp
  exact rd_encode_eq rd d3 t _ b' hd htype hl hb

/-- C17: every list of well-formed subrecords of any kinds is encoded successfully and comes back unchanged (type
codes and lengths filled in; positions up to the resolution of the coordinates). -/
theorem rds_roundtrip (l : List RecordData) (h : ∀ rd ∈ l, rd.WellFormed) :
    ∃ b l', RecordDataSet.encode l = .ok b ∧ RecordDataSet.decode [] b = .ok l' ∧ List.Forall₂ RecordData.Same l l' := by
  obtain ⟨l', hl'⟩ := forall₂_of_exists l fun rd hrd => rd_roundtrip rd (h rd hrd)
  obtain ⟨b, hb, hd⟩ := rds_list (hl'.imp fun _ _ h => h.1)
  exact ⟨b, l', hb, hd, hl'.imp fun _ _ h => h.2⟩

/-! ### C16 -/

theorem sdr_roundtrip (e : ServiceDataRecord) (h : e.WellFormed) : ∃ e', SdrRT e e' ∧ e.Same e' := by
  obtain ⟨hf, ⟨b, hb, hlt, hlen⟩, hr⟩ := h
  obtain ⟨b', rds, hb', hd, hs⟩ := rds_roundtrip e.RecordDataSet hr
  obtain rfl : b' = b := Go.ok.inj (hb'.symm.trans hb)
  exact ⟨_, sdr_one e hf b' rds hb hlt hlen hd, b', rds, hb, hs, rfl⟩

/-- C16: every list of well-formed records, with any combination of the optional fields, is encoded successfully and
comes back unchanged (record lengths filled in, subrecords as in C17). -/
theorem sds_roundtrip (l : List ServiceDataRecord) (h : ∀ e ∈ l, e.WellFormed) :
    ∃ b l', ServiceDataSet.encode l = .ok b ∧ ServiceDataSet.decode [] b = .ok l' ∧
      List.Forall₂ ServiceDataRecord.Same l l' := by
  obtain ⟨l', hl'⟩ := forall₂_of_exists l fun rd hrd => sdr_roundtrip rd (h rd hrd)
  obtain ⟨b, hb, hd⟩ := sds_list (hl'.imp fun _ _ h => h.1)
  exact ⟨b, l', hb, hd, hl'.imp fun _ _ h => h.2⟩

/-- C16 (composition): records whose flags and lengths are right and whose subrecord sets come back as `rds` come back
with exactly these sets, whatever the subrecords are. -/
theorem sds_composes (l l' : List ServiceDataRecord) (hl : ∀ e ∈ l, e.FlagsOk ∧ e.LengthOk)
    (h : List.Forall₂ (fun e e' => ∃ b rds, RecordDataSet.encode e.RecordDataSet = .ok b ∧
      RecordDataSet.decode [] b = .ok rds ∧ e' = e.received b.length rds) l l') :
    ∃ b, ServiceDataSet.encode l = .ok b ∧ ServiceDataSet.decode [] b = .ok l' := by
  apply sds_list
  induction h with
  | nil => exact .nil
  | @cons e e' _ _ h1 _ ih =>
    obtain ⟨b, rds, h1, h2, rfl⟩ := h1
    obtain ⟨hf, ⟨b', hb', hlt, hlen⟩⟩ := hl _ List.mem_cons_self
    obtain rfl : b' = b := Go.ok.inj (hb'.symm.trans h1)
    exact .cons (sdr_one e hf b' rds h1 hlt hlen h2) (ih fun rd hrd => hl rd (List.mem_cons_of_mem _ hrd))

/-! ### C31 -/

/-- C31 (packet responses): every well-formed packet response survives Encode and Decode. -/
theorem ptresponse_roundtrip (e : PtResponse) (h : e.WellFormed) :
    ∃ b e', e.encode = .ok b ∧ PtResponse.decode {} b = .ok e' ∧ e.Same e' := by
  obtain ⟨id, res, sdr⟩ := e
  cases sdr with
  | none =>
    refine ⟨_, ⟨id, res, none⟩, rfl, ?_, rfl, rfl, trivial⟩
    apply Dec.run_of_ok (u := ()) (r := [])
    unfold PtResponse.decodeM
    simp only [List.append_assoc]
    refine Dec.step (Dec.read_le16 _ _ _ id rfl) ?_
    refine Dec.step (Dec.upd_apply _ _ _) ?_; try dsimp only
    refine Dec.step (Dec.readByteTo_cons _ _ _ _) ?_; try dsimp only
    refine Dec.step (Dec.unread_apply _ _) ?_; try dsimp only
    rw [u16_le16']
    rfl
  | some l =>
    obtain ⟨hne, hw⟩ := h
    obtain ⟨b, l', hb, hd, hs⟩ := sds_roundtrip l hw
    have hbne : b ≠ [] := by
      rintro rfl
      unfold ServiceDataSet.decode sdsDecodeWith Dec.run at hd
      rw [sds_loop_unfold, if_pos rfl] at hd
      have : l' = [] := (Out.ok.inj hd).symm
      subst this
      cases hs
      exact hne rfl
    refine ⟨le16 id ++ [res] ++ b, ⟨id, res, some l'⟩, by simp [PtResponse.encode, hb], ?_, rfl, rfl, hs⟩
    apply Dec.run_of_ok (u := ()) (r := b)
    unfold PtResponse.decodeM
    simp only [List.append_assoc, List.cons_append, List.nil_append]
    refine Dec.step (Dec.read_le16 _ _ _ id rfl) ?_
    refine Dec.step (Dec.upd_apply _ _ _) ?_; try dsimp only
    refine Dec.step (Dec.readByteTo_cons _ _ _ _) ?_; try dsimp only
    refine Dec.step (Dec.unread_apply _ _) ?_; try dsimp only
    have : decide (b.length > 0) = true := by simpa using List.length_pos_iff.mpr hbne
    rw [u16_le16', this]
    simp only [Dec.when, hd]
    rfl

/-- C31 (record responses): they are three bytes and survive Encode and Decode. -/
theorem srresponse_roundtrip (e : SrResponse) :
    ∃ b, e.encode = .ok b ∧ b.length = 3 ∧ SrResponse.decode {} b = .ok e := by
  refine ⟨_, rfl, rfl, ?_⟩
  apply Dec.run_of_ok (u := ()) (r := [])
  unfold SrResponse.decodeM
  refine Dec.step (Dec.read_le16 _ _ _ e.ConfirmedRecordNumber rfl) ?_
  refine Dec.step (Dec.upd_apply _ _ _) ?_; try dsimp only
  refine Dec.step (Dec.readByteTo_cons _ _ _ _) ?_; try dsimp only
  refine Dec.step (Dec.unread_apply _ _) ?_; try dsimp only
  rw [nested_nil, u16_le16']
  rfl

/-- a packet response whose record section is present but empty cannot be told from one without: it comes back
without (this is why `PtResponse.WellFormed` asks for at least one record). -/
theorem ptresponse_empty_sdr (id : UInt16) (res : UInt8) :
    (⟨id, res, some []⟩ : PtResponse).encode = (⟨id, res, none⟩ : PtResponse).encode := rfl

/-! ### C18 -/

/-- C18 (partial, encoding): a subrecord of any kind but dispatcher identity whose type code is left 0 is written with
the type code of its kind. -/
theorem type_inferred_partial (d : SubData) (srl : UInt16) (b : Bytes) (hd : d.isDispatcher = false)
    (h : RecordDataSet.encode [⟨0, srl, some d⟩] = .ok b) : ∃ rest, b = d.typeCode :: rest := by
  unfold RecordDataSet.encode at h
  rw [encodeAll, encodeAll] at h
  revert h
  cases hg : (if srl = 0 then d.length else .ok srl : Go UInt16) with
  | err e => 
    have : RecordData.encode ⟨0, srl, some d⟩ = .err e := by
      unfold RecordData.encode
      simp only [if_true, inferType_eq d hd, Go.ok_bind, hg, Go.err_bind]
    rw [this]; simp
  | panic =>
    have : RecordData.encode ⟨0, srl, some d⟩ = .panic := by
      unfold RecordData.encode
      simp only [if_true, inferType_eq d hd, Go.ok_bind, hg, Go.panic_bind]
    rw [this]; simp
  | ok v =>
    cases hc : d.encode with
    | err e =>
      have : RecordData.encode ⟨0, srl, some d⟩ = .err e := by
        unfold RecordData.encode
        simp only [if_true, inferType_eq d hd, Go.ok_bind, hg, hc, Go.err_bind]
      rw [this]; simp
    | panic =>
      have : RecordData.encode ⟨0, srl, some d⟩ = .panic := by
        unfold RecordData.encode
        simp only [if_true, inferType_eq d hd, Go.ok_bind, hg, hc, Go.panic_bind]
      rw [this]; simp
    | ok c =>
      have : RecordData.encode ⟨0, srl, some d⟩ = .ok ([d.typeCode] ++ le16 v ++ c) := by
        unfold RecordData.encode
        simp only [if_true, inferType_eq d hd, Go.ok_bind, hg, hc, Go.pure_def]
      rw [this]
      intro h
      simp only [Go.ok_bind, Go.pure_def, Go.ok.injEq] at h
      exact ⟨_, by rw [← h]; rfl⟩

theorem decodeSub_kind (t : UInt8) (srl : UInt16) (b : Bytes) (d : SubData)
    (h : decodeSub nestedDecode t srl b = .ok d) : d.typeCode = (if t = 20 then 21 else t) := by
  have mp : ∀ {α : Type} {o : Out α} {f : α → SubData} {d : SubData} {k : UInt8}, o.map f = .ok d →
      (∀ a, (f a).typeCode = k) → d.typeCode = k := by
    intro α o f d k ho hk
    cases o <;> simp [Out.map] at ho
    rw [← ho]; exact hk _
  by_cases h16 : t = 16
  · subst h16
    have e : decodeSub nestedDecode 16 srl b = (SrPosData.decode {} b).map SubData.pos := by simp [decodeSub]
    rw [e] at h
    exact mp h fun _ => rfl
  by_cases h1 : t = 1
  · subst h1
    have e : decodeSub nestedDecode 1 srl b = (SrTermIdentity.decode {} b).map SubData.term := by simp [decodeSub]
    rw [e] at h
    exact mp h fun _ => rfl
  by_cases h0 : t = 0
  · subst h0
    have e : decodeSub nestedDecode 0 srl b = ((SrResponse.decodeM nestedDecode).run {} b).map SubData.response := by simp [decodeSub]
    rw [e] at h
    exact mp h fun _ => rfl
  by_cases h9 : t = 9
  · subst h9
    have e : decodeSub nestedDecode 9 srl b = (SrResultCode.decode {} b).map SubData.result := by simp [decodeSub]
    rw [e] at h
    exact mp h fun _ => rfl
  by_cases h17 : t = 17
  · subst h17
    have e : decodeSub nestedDecode 17 srl b = (SrExtPosData.decode {} b).map SubData.ext := by simp [decodeSub]
    rw [e] at h
    exact mp h fun _ => rfl
  by_cases h18 : t = 18
  · subst h18
    have e : decodeSub nestedDecode 18 srl b = (SrAdSensorsData.decode {} b).map SubData.ad := by simp [decodeSub]
    rw [e] at h
    exact mp h fun _ => rfl
  by_cases h21 : t = 21
  · subst h21
    have e : decodeSub nestedDecode 21 srl b = (SrStateData.decode {} b).map SubData.state := by simp [decodeSub]
    rw [e] at h
    exact mp h fun _ => rfl
  by_cases h27 : t = 27
  · subst h27
    have e : decodeSub nestedDecode 27 srl b = (SrLiquidLevelSensor.decode {} b).map SubData.liquid := by simp [decodeSub]
    rw [e] at h
    exact mp h fun _ => rfl
  by_cases h25 : t = 25
  · subst h25
    have e : decodeSub nestedDecode 25 srl b = (SrAbsCntrData.decode {} b).map SubData.absCntr := by simp [decodeSub]
    rw [e] at h
    exact mp h fun _ => rfl
  by_cases h7 : t = 7
  · subst h7
    have e : decodeSub nestedDecode 7 srl b = (SrAuthInfo.decode {} b).map SubData.auth := by simp [decodeSub]
    rw [e] at h
    exact mp h fun _ => rfl
  by_cases h19 : t = 19
  · subst h19
    have e : decodeSub nestedDecode 19 srl b = (SrCountersData.decode {} b).map SubData.counters := by simp [decodeSub]
    rw [e] at h
    exact mp h fun _ => rfl
  by_cases h15 : t = 15
  · subst h15
    have e : decodeSub nestedDecode 15 srl b = (storageDecode b).map SubData.storage := by simp [decodeSub]
    rw [e] at h
    exact mp h fun _ => rfl
  by_cases h24 : t = 24
  · subst h24
    have e : decodeSub nestedDecode 24 srl b = (SrAbsAnSensData.decode {} b).map SubData.absAn := by simp [decodeSub]
    rw [e] at h
    exact mp h fun _ => rfl
  by_cases h5 : t = 5
  · subst h5
    have e : decodeSub nestedDecode 5 srl b = (SrDispatcherIdentity.decode {} b).map SubData.dispatcher := by simp [decodeSub]
    rw [e] at h
    exact mp h fun _ => rfl
  by_cases h20 : t = 20
  · subst h20
    have e : decodeSub nestedDecode 20 srl b = if srl = 5 then (SrStateData.decode {} b).map SubData.state
        else .err (.accelNotImplemented srl b) (.state {}) := by simp [decodeSub]
    rw [e] at h
    by_cases h5 : srl = 5
    · rw [if_pos h5] at h
      exact mp h fun _ => rfl
    · rw [if_neg h5] at h
      cases h
  · exfalso
    rw [decodeSub, if_neg h16, if_neg h1, if_neg h0, if_neg h9, if_neg h17, if_neg h18, if_neg h20, if_neg h21, if_neg h27,
      if_neg h25, if_neg h7, if_neg h19, if_neg h15, if_neg h24, if_neg h5] at h
    cases h

/-- C18 (decoding): in every decoded subrecord the data has the kind of the subrecord's type code (20 and 21 both
mean state data). Together with `type_inferred_partial`: a kind that is written under an inferred code is read back as
the same kind. -/
theorem decoded_kind (b : Bytes) (l : RecordDataSet) (h : RecordDataSet.decode [] b = .ok l) :
    ∀ rd ∈ l, ∃ d, rd.SubrecordData = some d ∧ d.typeCode = (if rd.SubrecordType = 20 then 21 else rd.SubrecordType) :=
  rds_decode_inv _ (fun t srl b d hd => ⟨d, rfl, decodeSub_kind t srl b d hd⟩) b l h

/-- C18 is false of the code for dispatcher identity: no subrecord of this kind can be encoded with its type code left
0, although its data can be encoded. -/
theorem dispatcher_type_not_inferred (e : SrDispatcherIdentity) (srl : UInt16) :
    RecordDataSet.encode [⟨0, srl, some (.dispatcher e)⟩] = .err .unknownData ∧ ∃ b, e.encode = .ok b :=
  ⟨rfl, _, rfl⟩

/-! ### C19 -/

/-- `Length()` is the number of encoded bytes (below 65536), 0 if Encode fails -/
def LengthSpec (encode : Go Bytes) (length : Go UInt16) : Prop :=
  (∀ b, encode = .ok b → b.length < 65536 → ∃ n, length = .ok n ∧ n.toNat = b.length) ∧
  (∀ e, encode = .err e → length = .ok 0)

omit P in
theorem lengthOf_spec (e : Go Bytes) : LengthSpec e (lengthOf e) := by
  constructor
  · rintro b rfl hb
    exact ⟨len16 b, rfl, by unfold len16; rw [UInt16.toNat_ofNat']; exact Nat.mod_eq_of_lt hb⟩
  · rintro er rfl; rfl

/-- C19: for every subrecord of every kind, every set of subrecords, every set of records and every packet response. -/
theorem length_is_encoded_length (d : SubData) (rds : RecordDataSet) (sds : ServiceDataSet) (r : PtResponse) :
    LengthSpec d.encode d.length ∧ LengthSpec (RecordDataSet.encode rds) (RecordDataSet.length16 rds) ∧
    LengthSpec (ServiceDataSet.encode sds) (ServiceDataSet.length16 sds) ∧ LengthSpec r.encode r.length16 := by
  refine ⟨?_, lengthOf_spec _, lengthOf_spec _, lengthOf_spec _⟩
  unfold SubData.length
  split
  · rename_i e
    constructor
    · intro b hb _
      simp only [SubData.encode, SrAbsAnSensData.encode, Go.ok.injEq] at hb
      exact ⟨4, rfl, by rw [← hb]; rfl⟩
    · intro er h
      simp [SubData.encode, SrAbsAnSensData.encode] at h
  · exact lengthOf_spec _

end Egts
