import Verif.Props.Decode
import Verif.Spec.Records
import Verif.Lemmas.Wire
set_option autoImplicit false
/- Round trips of record data sets and service data sets. -/
namespace Egts
variable [P : Platform]

/-- the encoded form of a subrecord and what it decodes to -/
def SubRT (rd rd' : RecordData) : Prop :=
  ∃ t srl data d', rd.encode = .ok ([t] ++ le16 srl ++ data) ∧ srl.toNat = data.length ∧
    decodeSub nestedDecode t srl data = .ok d' ∧ rd' = ⟨t, srl, some d'⟩

theorem rdsStep_one (acc : RecordDataSet) (t : UInt8) (srl : UInt16) (data rest : Bytes) (hl : srl.toNat = data.length) :
    rdsStep nestedDecode acc ([t] ++ le16 srl ++ data ++ rest) =
      match decodeSub nestedDecode t srl data with
      | .ok d => .ok () (acc ++ [⟨t, srl, some d⟩]) rest
      | .err e _ => .err e acc
      | .panic => .panic
      | .diverge => .diverge := by
  unfold rdsStep
  simp only [List.append_assoc, List.cons_append, List.nil_append]
  refine Dec.step (Dec.readByte_cons _ _ _) ?_
  refine Dec.step (Dec.read_le16 _ _ _ srl rfl) ?_
  try dsimp only
  rw [u16_le16']
  refine Dec.step (Dec.next_apply _ _ _) ?_
  rw [hl]
  simp only [List.take_left, List.drop_left]
  cases decodeSub nestedDecode t srl data <;> rfl

theorem rds_loop_list {l l' : List RecordData} (h : List.Forall₂ SubRT l l') :
    ∃ b, RecordDataSet.encode l = .ok b ∧
      ∀ acc, Dec.whileUnread (rdsStep nestedDecode) acc b = .ok () (acc ++ l') [] := by
  induction h with
  | nil => exact ⟨[], rfl, fun acc => by rw [rds_loop_unfold]; simp⟩
  | @cons rd rd' l l' h1 h2 ih =>
    obtain ⟨b, hb, hloop⟩ := ih
    obtain ⟨t, srl, data, d', he, hlen, hd, rfl⟩ := h1
    refine ⟨[t] ++ le16 srl ++ data ++ b, ?_, fun acc => ?_⟩
    · unfold RecordDataSet.encode at hb ⊢
      simp only [encodeAll, he, hb, Go.ok_bind, Go.pure_def]
    · rw [rds_loop_unfold, if_neg (by simp)]
      refine Dec.step (a := ()) (s1 := acc ++ [⟨t, srl, some d'⟩]) (r1 := b) ?_ ?_
      · rw [rdsStep_one acc t srl data b hlen, hd]
      · rw [hloop]; simp

theorem rds_list {l l' : List RecordData} (h : List.Forall₂ SubRT l l') :
    ∃ b, RecordDataSet.encode l = .ok b ∧ RecordDataSet.decode [] b = .ok l' := by
  obtain ⟨b, hb, hl⟩ := rds_loop_list h
  exact ⟨b, hb, by have := Dec.run_of_ok (hl []); rw [List.nil_append] at this; exact this⟩

/-- `Encode` of a subrecord with a correct length field -/
theorem rd_encode_ok (rd : RecordData) (h : rd.LengthOk) (b : Bytes) (he : rd.encode = .ok b) :
    ∃ t srl data, b = [t] ++ le16 srl ++ data ∧ srl.toNat = data.length ∧
      ∃ d, rd.SubrecordData = some d ∧ d.encode = .ok data := by
  obtain ⟨d, data, hd, hde, hlen, hsl⟩ := h
  unfold RecordData.encode at he
  rw [hd] at he
  have hlen16 : (len16 data).toNat = data.length := by
    unfold len16; rw [UInt16.toNat_ofNat']; exact Nat.mod_eq_of_lt hlen
  have hdl : d.length = .ok (len16 data) := by
    unfold SubData.length
    split
    · rename_i a
      have : data.length = 4 := by
        simp only [SubData.encode, SrAbsAnSensData.encode, Go.ok.injEq] at hde
        rw [← hde]; rfl
      unfold len16; rw [this]; rfl
    · rw [hde]; rfl
  revert he
  generalize (if rd.SubrecordType = 0 then (match inferType (some d) with
      | some t => Go.ok t
      | none => Go.err Err.unknownData) else Go.ok rd.SubrecordType : Go UInt8) = gt
  intro he
  cases gt with
  | err e => simp at he
  | panic => simp at he
  | ok t =>
    simp only [Go.ok_bind, hde] at he
    by_cases h0 : rd.SubrecordLength = 0
    · rw [if_pos h0, hdl] at he
      simp only [Go.ok_bind, Go.pure_def, Go.ok.injEq] at he
      exact ⟨t, len16 data, data, he.symm, hlen16, d, hd, hde⟩
    · rw [if_neg h0] at he
      simp only [Go.ok_bind, Go.pure_def, Go.ok.injEq] at he
      exact ⟨t, rd.SubrecordLength, data, he.symm, hsl.resolve_left h0, d, hd, hde⟩

/-- a subrecord that survives alone -/
theorem subRT_of_single (rd rd' : RecordData) (h : rd.LengthOk) (b : Bytes)
    (he : RecordDataSet.encode [rd] = .ok b) (hd : RecordDataSet.decode [] b = .ok [rd']) : SubRT rd rd' := by
  unfold RecordDataSet.encode at he
  simp only [encodeAll] at he
  revert he
  cases hr : rd.encode with
  | err e => intro he; simp at he
  | panic => intro he; simp at he
  | ok b0 =>
    intro he
    simp only [Go.ok_bind, Go.pure_def, List.append_nil, Go.ok.injEq] at he
    subst he
    obtain ⟨t, srl, data, rfl, hlen, d, hd1, hd2⟩ := rd_encode_ok rd h b0 hr
    have hs := rdsStep_one [] t srl data [] hlen
    rw [List.append_nil] at hs
    unfold RecordDataSet.decode rdsDecode Dec.run at hd
    rw [rds_loop_unfold, if_neg (by simp), Dec.bind_apply, hs] at hd
    revert hd
    cases hds : decodeSub nestedDecode t srl data with
    | err e s => intro hd; simp at hd
    | panic => intro hd; simp at hd
    | diverge => intro hd; simp at hd
    | ok d' =>
      simp only
      rw [rds_loop_unfold, if_pos rfl]
      intro hd
      simp only [List.nil_append, Out.ok.injEq, List.cons.injEq, and_true] at hd
      exact ⟨t, srl, data, d', hr, hlen, hds, hd.symm⟩

end Egts
