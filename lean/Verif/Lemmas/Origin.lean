import Verif.Lemmas.Count
set_option autoImplicit false
/- Where the decoded subrecords come from. -/
namespace Egts
variable [P : Platform]

theorem Dec.safe_suffix {σ α : Type} {m : Dec σ α} (hm : Dec.Safe m) {s s1 : σ} {r r1 : Bytes} {a : α}
    (h : m s r = .ok a s1 r1) : r1 <:+ r := by
  have := hm.at' s r
  unfold Dec.SafeAt at this
  rw [h] at this
  exact this

/-- the subrecord was decoded from a contiguous part of `b` -/
def FromWire (n : Bytes → Out ServiceDataSet) (b : Bytes) (rd : RecordData) : Prop :=
  ∃ content d, content <:+: b ∧ content.length ≤ rd.SubrecordLength.toNat ∧ rd.SubrecordData = some d ∧
    decodeSub n rd.SubrecordType rd.SubrecordLength content = .ok d

theorem rdsStep_origin {n : Bytes → Out ServiceDataSet} {s s' : RecordDataSet} {r r' : Bytes} (h : rdsStep n s r = .ok () s' r') :
    r' <:+ r ∧ ∃ rd, s' = s ++ [rd] ∧ FromWire n r rd := by
  unfold rdsStep at h
  obtain ⟨t, s1, r1, h1, g1⟩ := Dec.bind_inv h
  obtain ⟨rfl, rfl⟩ := Dec.readByte_inv h1
  obtain ⟨l, s2, r2, h2, g2⟩ := Dec.bind_inv g1
  have hsuf := Dec.safe_suffix (Dec.safe_read (zeros 2)) h2
  obtain ⟨rfl, -, -, hl2⟩ := Dec.read_inv h2
  obtain ⟨b, s3, r3, h3, g3⟩ := Dec.bind_inv g2
  cases h3
  obtain ⟨d, s4, r4, h4, g4⟩ := Dec.bind_inv g3
  revert h4
  cases hd : decodeSub n t (u16 l) (List.take (u16 l).toNat r2) with
  | ok x =>
    intro h4; cases h4; cases g4
    refine ⟨(List.drop_suffix _ _).trans (hsuf.trans (List.suffix_cons _ _)), _, rfl, ?_⟩
    exact ⟨_, _, (List.take_prefix _ _).isInfix.trans (hsuf.trans (List.suffix_cons _ _)).isInfix,
      by simp, rfl, hd⟩
  | err e x => intro h4; cases h4
  | panic => intro h4; cases h4
  | diverge => intro h4; cases h4

theorem FromWire.mono {n : Bytes → Out ServiceDataSet} {b b' : Bytes} {rd : RecordData} (h : b <:+: b') (hr : FromWire n b rd) :
    FromWire n b' rd := by
  obtain ⟨c, d, h1, h2⟩ := hr
  exact ⟨c, d, h1.trans h, h2⟩

theorem rds_origin {n : Bytes → Out ServiceDataSet} {b : Bytes} {l : RecordDataSet} (h : rdsDecode n [] b = .ok l) :
    ∀ rd ∈ l, FromWire n b rd := by
  obtain ⟨r, hr, hall⟩ := Dec.while_inv2 (fun (s : RecordDataSet) r => r <:+ b ∧ ∀ rd ∈ s, FromWire n b rd)
    (fun s r s' r' hI hs => by
      obtain ⟨h1, rd, rfl, h2⟩ := rdsStep_origin hs
      refine ⟨h1.trans hI.1, fun x hx => ?_⟩
      rcases List.mem_append.mp hx with hx | hx
      · exact hI.2 x hx
      · rw [List.mem_singleton.mp hx]; exact h2.mono hI.1.isInfix) [] l b ⟨List.suffix_refl _, by simp⟩ h
  exact hall

theorem sdr_origin {n : Bytes → Out ServiceDataSet} {e : ServiceDataRecord} {r r' : Bytes} (h : sdrDecodeM n {} r = .ok () e r') :
    ∃ b, ∀ rd ∈ e.RecordDataSet, FromWire n b rd := by
  unfold sdrDecodeM at h
  obtain ⟨t, s1, r1, h1, g1⟩ := Dec.bind_inv h
  obtain ⟨rfl, -⟩ := Dec.read_inv h1
  obtain ⟨_, s2, r2, h2, g2⟩ := Dec.bind_inv g1
  cases h2
  obtain ⟨t2, s3, r3, h3, g3⟩ := Dec.bind_inv g2
  obtain ⟨rfl, -⟩ := Dec.read_inv h3
  obtain ⟨_, s4, r4, h4, g4⟩ := Dec.bind_inv g3
  cases h4
  obtain ⟨fl, s5, r5, h5, g5⟩ := Dec.bind_inv g4
  obtain ⟨rfl, rfl⟩ := Dec.readByte_inv h5
  obtain ⟨_, s6, r6, h6, g6⟩ := Dec.bind_inv g5
  cases h6
  obtain ⟨_, s7, r7, h7, g7⟩ := Dec.bind_inv g6
  have k7 := optRead_keep ServiceDataRecord.RecordDataSet h7 (fun _ _ => rfl)
  obtain ⟨_, s8, r8, h8, g8⟩ := Dec.bind_inv g7
  have k8 := optRead_keep ServiceDataRecord.RecordDataSet h8 (fun _ _ => rfl)
  obtain ⟨_, s9, r9, h9, g9⟩ := Dec.bind_inv g8
  have k9 := optRead_keep ServiceDataRecord.RecordDataSet h9 (fun _ _ => rfl)
  obtain ⟨_, s10, r10, h10, g10⟩ := Dec.bind_inv g9
  obtain ⟨b10, rfl, rfl⟩ := Dec.readByteTo_inv h10
  obtain ⟨_, s11, r11, h11, g11⟩ := Dec.bind_inv g10
  obtain ⟨b11, rfl, rfl⟩ := Dec.readByteTo_inv h11
  obtain ⟨_, s12, r12, h12, g12⟩ := Dec.bind_inv g11
  cases h12
  revert g12
  cases hw : decide (r11.length ≠ 0) with
  | false =>
    intro g12
    cases g12
    refine ⟨[], ?_⟩
    have : s9.RecordDataSet = [] := by simp only at k7 k8 k9; rw [k9, k8, k7]
    simp only [this]
    simp
  | true =>
    intro g12
    rw [Dec.when_true] at g12
    obtain ⟨e', s13, r13, h13, g13⟩ := Dec.bind_inv g12
    cases h13
    obtain ⟨b, s14, r14, h14, g14⟩ := Dec.bind_inv g13
    obtain ⟨rfl, -⟩ := Dec.read_inv h14
    obtain ⟨l, s15, r15, h15, g15⟩ := Dec.bind_inv g14
    revert h15
    cases hrds : rdsDecode n [] b with
    | ok x =>
      intro h15; cases h15; cases g15
      exact ⟨b, rds_origin hrds⟩
    | err e x => intro h15; cases h15
    | panic => intro h15; cases h15
    | diverge => intro h15; cases h15

/-- every subrecord of a decoded body is the result of the decoder of its type on some bytes -/
theorem sds_origin {b : Bytes} {l : ServiceDataSet} (h : ServiceDataSet.decode [] b = .ok l) :
    ∀ r ∈ l, ∀ rd ∈ r.RecordDataSet, ∃ content d, content.length ≤ rd.SubrecordLength.toNat ∧ rd.SubrecordData = some d ∧
      decodeSub nestedDecode rd.SubrecordType rd.SubrecordLength content = .ok d := by
  obtain ⟨r, hr⟩ := Dec.while_inv2
    (fun (s : ServiceDataSet) _ => ∀ r ∈ s, ∃ b, ∀ rd ∈ r.RecordDataSet, FromWire nestedDecode b rd)
    (fun s r s' r' hI hs => by
      unfold sdsStep at hs
      revert hs
      cases hd : sdrDecodeM nestedDecode {} r with
      | ok u e r1 =>
        intro hs; cases hs
        intro x hx
        rcases List.mem_append.mp hx with hx | hx
        · exact hI x hx
        · rw [List.mem_singleton.mp hx]; exact sdr_origin hd
      | err e x => intro hs; cases hs
      | panic => intro hs; cases hs
      | diverge => intro hs; cases hs) [] l b (by simp) h
  intro rec hrec rd hrd
  obtain ⟨b', hb'⟩ := hr rec hrec
  obtain ⟨c, d, -, h2⟩ := hb' rd hrd
  exact ⟨c, d, h2⟩

/-- the same for the subrecords as seen by the server -/
theorem subs_origin {b : Bytes} {l : ServiceDataSet} (h : ServiceDataSet.decode [] b = .ok l) :
    ∀ d ∈ l.flatMap fun r => r.RecordDataSet.filterMap (·.SubrecordData),
      ∃ t srl content, decodeSub nestedDecode t srl content = .ok d := by
  intro d hd
  obtain ⟨r, hr, hd⟩ := List.mem_flatMap.mp hd
  obtain ⟨rd, hrd, hd⟩ := List.mem_filterMap.mp hd
  obtain ⟨content, d', -, h1, h2⟩ := sds_origin h r hr rd hrd
  rw [h1] at hd
  cases hd
  exact ⟨_, _, content, h2⟩

omit P in
theorem out_map_ok {α β : Type} {o : Out α} {f : α → β} {b : β} (h : o.map f = .ok b) : ∃ a, o = .ok a ∧ b = f a := by
  cases o <;> cases h
  exact ⟨_, rfl, rfl⟩

end Egts
