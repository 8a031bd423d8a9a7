import Verif.Lemmas.Loop
set_option autoImplicit false
/- How many records and subrecords a body of a given length can hold. -/
namespace Egts

theorem Dec.bind_inv {σ α β : Type} {m : Dec σ α} {f : α → Dec σ β} {s s2 : σ} {r r2 : Bytes} {b : β}
    (h : (m >>= f) s r = .ok b s2 r2) : ∃ a s1 r1, m s r = .ok a s1 r1 ∧ f a s1 r1 = .ok b s2 r2 := by
  rw [Dec.bind_apply] at h
  revert h
  cases m s r with
  | ok a s1 r1 => intro h; exact ⟨a, s1, r1, rfl, h⟩
  | err e s1 => intro h; cases h
  | panic => intro h; cases h
  | diverge => intro h; cases h

theorem Dec.safe_len {σ α : Type} {m : Dec σ α} (hm : Dec.Safe m) {s s1 : σ} {r r1 : Bytes} {a : α}
    (h : m s r = .ok a s1 r1) : r1.length ≤ r.length := by
  have := hm.at' s r
  unfold Dec.SafeAt at this
  rw [h] at this
  exact this.length_le

theorem Dec.read_inv {σ : Type} {p a : Bytes} {s s1 : σ} {r r1 : Bytes} (h : Dec.read p s r = .ok a s1 r1) :
    s1 = s ∧ a.length = p.length ∧ (r1 ≠ [] → r.length = r1.length + p.length) ∧ r1.length ≤ r.length := by
  rcases read_props p s r with ⟨-, hr⟩ | ⟨hne, hr⟩
  · rw [hr] at h; cases h
  · rw [hr] at h
    cases h
    refine ⟨rfl, by simp; omega, ?_, by simp⟩
    intro hne1
    have : 0 < (r.drop p.length).length := List.length_pos_iff.mpr hne1
    rw [List.length_drop] at this ⊢
    omega

theorem Dec.readByte_inv {σ : Type} {s s1 : σ} {r r1 : Bytes} {a : UInt8} (h : Dec.readByte s r = .ok a s1 r1) :
    s1 = s ∧ r = a :: r1 := by
  cases r with
  | nil => cases h
  | cons x r => cases h; exact ⟨rfl, rfl⟩

theorem Dec.readByteTo_inv {σ : Type} {f : σ → UInt8 → σ} {s s1 : σ} {r r1 : Bytes} {u : Unit}
    (h : Dec.readByteTo f s r = .ok u s1 r1) : ∃ b, s1 = f s b ∧ r = b :: r1 := by
  cases r with
  | nil => cases h
  | cons x r => cases h; exact ⟨x, rfl, rfl⟩

theorem Dec.loopN_inv2 {σ : Type} {m : Dec σ Unit} (I : σ → Bytes → Prop)
    (h : ∀ s r s' r', I s r → m s r = .ok () s' r' → I s' r') (n : Nat) (s s' : σ) (r r' : Bytes) (hs : I s r)
    (hr : Dec.loopN m n s r = .ok () s' r') : I s' r' := by
  induction n generalizing s r with
  | zero =>
    unfold Dec.loopN at hr
    split at hr
    · cases hr; exact hs
    · cases hr
  | succ n ih =>
    unfold Dec.loopN at hr
    split at hr
    · cases hr; exact hs
    · obtain ⟨a, s1, r1, h1, h2⟩ := Dec.bind_inv hr
      exact ih s1 r1 (h s r s1 r1 hs h1) h2

theorem Dec.while_inv2 {σ : Type} {m : Dec σ Unit} (I : σ → Bytes → Prop)
    (h : ∀ s r s' r', I s r → m s r = .ok () s' r' → I s' r') (s s' : σ) (b : Bytes) (hs : I s b)
    (hr : (Dec.whileUnread m).run s b = .ok s') : ∃ r, I s' r := by
  unfold Dec.run at hr
  revert hr
  cases hw : Dec.whileUnread m s b with
  | ok a s1 r1 => intro hr; cases hr; exact ⟨r1, Dec.loopN_inv2 I h _ _ _ _ _ hs hw⟩
  | err e s1 => intro hr; cases hr
  | panic => intro hr; cases hr
  | diverge => intro hr; cases hr

variable [P : Platform]

theorem rdsStep_count {n : Bytes → Out ServiceDataSet} {s s' : RecordDataSet} {r r' : Bytes} (h : rdsStep n s r = .ok () s' r') :
    s'.length = s.length + 1 ∧ r'.length + 1 ≤ r.length := by
  unfold rdsStep at h
  obtain ⟨t, s1, r1, h1, g1⟩ := Dec.bind_inv h
  obtain ⟨rfl, rfl⟩ := Dec.readByte_inv h1
  obtain ⟨l, s2, r2, h2, g2⟩ := Dec.bind_inv g1
  obtain ⟨rfl, -, -, hl2⟩ := Dec.read_inv h2
  obtain ⟨b, s3, r3, h3, g3⟩ := Dec.bind_inv g2
  cases h3
  obtain ⟨d, s4, r4, h4, g4⟩ := Dec.bind_inv g3
  revert h4
  cases decodeSub n t (u16 l) (List.take (u16 l).toNat r2) with
  | ok x =>
    intro h4; cases h4; cases g4
    simp
    omega
  | err e x => intro h4; cases h4
  | panic => intro h4; cases h4
  | diverge => intro h4; cases h4

theorem rds_count {n : Bytes → Out ServiceDataSet} {b : Bytes} {l : RecordDataSet} (h : rdsDecode n [] b = .ok l) :
    l.length ≤ b.length := by
  obtain ⟨r, hr⟩ := Dec.while_inv2 (fun (s : RecordDataSet) r => s.length + r.length ≤ b.length)
    (fun s r s' r' hI hs => by
      obtain ⟨h1, h2⟩ := rdsStep_count hs
      omega) [] l b (by simp) h
  omega

omit P in
theorem optRead_len {σ τ : Type} {c : σ → Bytes} {p : Bytes} {conv : Bytes → τ} {f : σ → τ → σ} {s s1 : σ} {r r1 a : Bytes}
    (h : Dec.optRead c p conv f s r = .ok a s1 r1) : r1.length ≤ r.length :=
  Dec.safe_len (Dec.safe_optRead c p conv f) h

omit P in
theorem optRead_keep {σ τ υ : Type} (g : σ → υ) {c : σ → Bytes} {p : Bytes} {conv : Bytes → τ} {f : σ → τ → σ} {s s1 : σ} {r r1 a : Bytes}
    (h : Dec.optRead c p conv f s r = .ok a s1 r1) (hf : ∀ s x, g (f s x) = g s) : g s1 = g s := by
  unfold Dec.optRead at h
  obtain ⟨e, s2, r2, h2, k1⟩ := Dec.bind_inv h
  cases h2
  split at k1
  · obtain ⟨b, s3, r3, h3, k2⟩ := Dec.bind_inv k1
    obtain ⟨rfl, -⟩ := Dec.read_inv h3
    obtain ⟨_, s4, r4, h4, k3⟩ := Dec.bind_inv k2
    cases h4; cases k3
    exact hf _ _
  · cases k1; rfl

theorem sdr_count {n : Bytes → Out ServiceDataSet} {e : ServiceDataRecord} {r r' : Bytes} (h : sdrDecodeM n {} r = .ok () e r') :
    r'.length + 7 ≤ r.length ∧ e.RecordDataSet.length ≤ 65535 := by
  unfold sdrDecodeM at h
  obtain ⟨t, s1, r1, h1, g1⟩ := Dec.bind_inv h
  obtain ⟨rfl, ht, hl1, -⟩ := Dec.read_inv h1
  obtain ⟨_, s2, r2, h2, g2⟩ := Dec.bind_inv g1
  cases h2
  obtain ⟨t2, s3, r3, h3, g3⟩ := Dec.bind_inv g2
  obtain ⟨rfl, -, hl3, hl3'⟩ := Dec.read_inv h3
  obtain ⟨_, s4, r4, h4, g4⟩ := Dec.bind_inv g3
  cases h4
  obtain ⟨fl, s5, r5, h5, g5⟩ := Dec.bind_inv g4
  obtain ⟨rfl, rfl⟩ := Dec.readByte_inv h5
  obtain ⟨_, s6, r6, h6, g6⟩ := Dec.bind_inv g5
  cases h6
  obtain ⟨_, s7, r7, h7, g7⟩ := Dec.bind_inv g6
  have hl7 := optRead_len h7
  have k7 := optRead_keep ServiceDataRecord.RecordDataSet h7 (fun _ _ => rfl)
  obtain ⟨_, s8, r8, h8, g8⟩ := Dec.bind_inv g7
  have hl8 := optRead_len h8
  have k8 := optRead_keep ServiceDataRecord.RecordDataSet h8 (fun _ _ => rfl)
  obtain ⟨_, s9, r9, h9, g9⟩ := Dec.bind_inv g8
  have hl9 := optRead_len h9
  have k9 := optRead_keep ServiceDataRecord.RecordDataSet h9 (fun _ _ => rfl)
  obtain ⟨_, s10, r10, h10, g10⟩ := Dec.bind_inv g9
  obtain ⟨b10, rfl, rfl⟩ := Dec.readByteTo_inv h10
  obtain ⟨_, s11, r11, h11, g11⟩ := Dec.bind_inv g10
  obtain ⟨b11, rfl, rfl⟩ := Dec.readByteTo_inv h11
  obtain ⟨_, s12, r12, h12, g12⟩ := Dec.bind_inv g11
  cases h12
  have hr3 := hl3 (by simp)
  have hr1 := hl1 (by intro h0; rw [h0] at hl3'; simp at hl3')
  simp only [length_zeros, List.length_cons] at hr1 hr3 hl9 ht
  revert g12
  cases hw : decide (r11.length ≠ 0) with
  | false =>
    intro g12
    cases g12
    refine ⟨by omega, ?_⟩
    have : s9.RecordDataSet = [] := by simp only at k7 k8 k9; rw [k9, k8, k7]
    simp only [this]
    simp
  | true =>
    intro g12
    rw [Dec.when_true] at g12
    obtain ⟨e', s13, r13, h13, g13⟩ := Dec.bind_inv g12
    cases h13
    obtain ⟨b, s14, r14, h14, g14⟩ := Dec.bind_inv g13
    obtain ⟨rfl, hb, -, hl14⟩ := Dec.read_inv h14
    obtain ⟨l, s15, r15, h15, g15⟩ := Dec.bind_inv g14
    revert h15
    cases hrds : rdsDecode n [] b with
    | ok x =>
      intro h15; cases h15; cases g15
      have := rds_count hrds
      simp only [length_zeros] at hb
      refine ⟨by omega, ?_⟩
      simp only
      have := (s9.RecordLength).toNat_lt
      omega
    | err e x => intro h15; cases h15
    | panic => intro h15; cases h15
    | diverge => intro h15; cases h15

/-- a decoded body: at most one record per seven bytes, at most 65535 subrecords in each -/
theorem sds_count {b : Bytes} {l : ServiceDataSet} (h : ServiceDataSet.decode [] b = .ok l) :
    7 * l.length ≤ b.length ∧ ∀ r ∈ l, r.RecordDataSet.length ≤ 65535 := by
  obtain ⟨r, hr⟩ := Dec.while_inv2
    (fun (s : ServiceDataSet) r => 7 * s.length + r.length ≤ b.length ∧ ∀ r ∈ s, r.RecordDataSet.length ≤ 65535)
    (fun s r s' r' hI hs => by
      unfold sdsStep at hs
      revert hs
      cases hd : sdrDecodeM nestedDecode {} r with
      | ok u e r1 =>
        intro hs; cases hs
        obtain ⟨h1, h2⟩ := sdr_count hd
        refine ⟨by simp; omega, ?_⟩
        intro x hx
        rcases List.mem_append.mp hx with hx | hx
        · exact hI.2 x hx
        · rw [List.mem_singleton.mp hx]; exact h2
      | err e x => intro hs; cases hs
      | panic => intro hs; cases hs
      | diverge => intro hs; cases hs) [] l b (by simp) h
  exact ⟨by omega, hr.2⟩

end Egts
