import Verif.Props.PassOn
import Verif.Props.Readable
import Verif.Props.OneBad
set_option autoImplicit false
/- C87: exactly which contents Decode followed by Encode gives back. -/
namespace Egts
open Frame

/-! ### the flags are kept -/

theorem post_optRead {σ τ : Type} {I Q : σ → Prop} {cond : σ → Bytes} {p : Bytes} {conv : Bytes → τ} {set : σ → τ → σ} {f : Bytes → Dec σ Unit} {s e : σ} {r r' : Bytes}
    (hI : I s) (hset : ∀ s a, a.length = p.length → I s → I (set s (conv a)))
    (hf : ∀ a s' r1, a.length = p.length → I s' → f a s' r1 = .ok () e r' → Q e) (h : (Dec.optRead cond p conv set >>= f) s r = .ok () e r') : Q e := by
  obtain ⟨a, s1, r1, h1, h2⟩ := Dec.bind_inv h
  unfold Dec.optRead at h1
  obtain ⟨x, s2, r2, k1, k2⟩ := Dec.bind_inv h1
  cases k1
  split at k2
  · obtain ⟨b, s3, r3, h3, k3⟩ := Dec.bind_inv k2
    obtain ⟨rfl, hb, -⟩ := Dec.read_inv h3
    obtain ⟨_, s4, r4, h4, k4⟩ := Dec.bind_inv k3
    cases h4; cases k4
    exact hf _ _ _ hb (hset _ _ hb hI) h2
  · cases k2
    exact hf _ _ _ rfl hI h2

theorem post_optByte {σ : Type} {I Q : σ → Prop} {cond : σ → Bytes} {set : σ → UInt8 → σ} {f : Unit → Dec σ Unit} {s e : σ} {r r' : Bytes}
    (hI : I s) (hset : ∀ s v, I s → I (set s v))
    (hf : ∀ s' r1, I s' → f () s' r1 = .ok () e r' → Q e) (h : (Dec.optByte cond set >>= f) s r = .ok () e r') : Q e := by
  obtain ⟨a, s1, r1, h1, h2⟩ := Dec.bind_inv h
  unfold Dec.optByte at h1
  obtain ⟨x, s2, r2, k1, k2⟩ := Dec.bind_inv h1
  cases k1
  unfold Dec.when at k2
  split at k2
  · obtain ⟨b, rfl, -⟩ := Dec.readByteTo_inv k2
    exact hf _ _ (hset _ _ hI) h2
  · cases k2
    exact hf _ _ hI h2

theorem dec_run_inv {σ : Type} {m : Dec σ Unit} {s e : σ} {c : Bytes} (h : m.run s c = .ok e) : ∃ r, m s c = .ok () e r := by
  unfold Dec.run at h
  split at h
  · rename_i u s r hm; injection h with h; subst h; exact ⟨_, hm⟩
  all_goals cases h

/-- flags of the extended position -/
theorem ext_flags {c : Bytes} {e : SrExtPosData} (h : SrExtPosData.decode {} c = .ok e) :
    e.VdopFieldExists = bitText (byteAt c 0) 0 ∧ e.HdopFieldExists = bitText (byteAt c 0) 1 ∧ e.PdopFieldExists = bitText (byteAt c 0) 2 ∧
    e.SatellitesFieldExists = bitText (byteAt c 0) 3 ∧ e.NavigationSystemFieldExists = bitText (byteAt c 0) 4 := by
  obtain ⟨r, h⟩ := dec_run_inv h
  unfold SrExtPosData.decodeM at h
  obtain ⟨fl, s1, r1, h1, h⟩ := Dec.bind_inv h
  obtain ⟨rfl, rfl⟩ := Dec.readByte_inv h1
  obtain ⟨_, s2, r2, h2, h⟩ := Dec.bind_inv h
  cases h2
  show e.VdopFieldExists = bitText fl 0 ∧ e.HdopFieldExists = bitText fl 1 ∧ e.PdopFieldExists = bitText fl 2 ∧
    e.SatellitesFieldExists = bitText fl 3 ∧ e.NavigationSystemFieldExists = bitText fl 4
  obtain ⟨f0, f1, f2, f3, f4, f5, f6, f7⟩ := fmt_text1 fl
  let I : SrExtPosData → Prop := fun e => e.VdopFieldExists = bitText fl 0 ∧ e.HdopFieldExists = bitText fl 1 ∧ e.PdopFieldExists = bitText fl 2 ∧
    e.SatellitesFieldExists = bitText fl 3 ∧ e.NavigationSystemFieldExists = bitText fl 4
  refine post_optRead (I := I) (Q := I) ⟨f7, f6, f5, f4, f3⟩ (fun _ _ _ h => h) (fun _ _ _ _ hI => ?_) h
  refine post_optRead (I := I) hI (fun _ _ _ h => h) fun _ _ _ _ hI => ?_
  refine post_optRead (I := I) hI (fun _ _ _ h => h) fun _ _ _ _ hI => ?_
  refine post_optByte (I := I) hI (fun _ _ h => h) fun _ _ hI => ?_
  refine post_optRead (I := I) hI (fun _ _ _ h => h) fun _ _ _ _ hI => ?_
  intro h; cases h; exact hI

theorem counters_flags {c : Bytes} {e : SrCountersData} (h : SrCountersData.decode {} c = .ok e) :
    e.CFE1 = bitText (byteAt c 0) 0 ∧ e.CFE2 = bitText (byteAt c 0) 1 ∧ e.CFE3 = bitText (byteAt c 0) 2 ∧ e.CFE4 = bitText (byteAt c 0) 3 ∧
    e.CFE5 = bitText (byteAt c 0) 4 ∧ e.CFE6 = bitText (byteAt c 0) 5 ∧ e.CFE7 = bitText (byteAt c 0) 6 ∧ e.CFE8 = bitText (byteAt c 0) 7 := by
  obtain ⟨r, h⟩ := dec_run_inv h
  unfold SrCountersData.decodeM at h
  obtain ⟨fl, s1, r1, h1, h⟩ := Dec.bind_inv h
  obtain ⟨rfl, rfl⟩ := Dec.readByte_inv h1
  obtain ⟨_, s2, r2, h2, h⟩ := Dec.bind_inv h
  cases h2
  show e.CFE1 = bitText fl 0 ∧ e.CFE2 = bitText fl 1 ∧ e.CFE3 = bitText fl 2 ∧ e.CFE4 = bitText fl 3 ∧
    e.CFE5 = bitText fl 4 ∧ e.CFE6 = bitText fl 5 ∧ e.CFE7 = bitText fl 6 ∧ e.CFE8 = bitText fl 7
  obtain ⟨f0, f1, f2, f3, f4, f5, f6, f7⟩ := fmt_text1 fl
  let I : SrCountersData → Prop := fun e => e.CFE1 = bitText fl 0 ∧ e.CFE2 = bitText fl 1 ∧ e.CFE3 = bitText fl 2 ∧ e.CFE4 = bitText fl 3 ∧
    e.CFE5 = bitText fl 4 ∧ e.CFE6 = bitText fl 5 ∧ e.CFE7 = bitText fl 6 ∧ e.CFE8 = bitText fl 7
  refine post_optRead (I := I) (Q := I) ⟨f7, f6, f5, f4, f3, f2, f1, f0⟩ (fun _ _ _ h => h) (fun _ _ _ _ hI => ?_) h
  refine post_optRead (I := I) hI (fun _ _ _ h => h) fun _ _ _ _ hI => ?_
  refine post_optRead (I := I) hI (fun _ _ _ h => h) fun _ _ _ _ hI => ?_
  refine post_optRead (I := I) hI (fun _ _ _ h => h) fun _ _ _ _ hI => ?_
  refine post_optRead (I := I) hI (fun _ _ _ h => h) fun _ _ _ _ hI => ?_
  refine post_optRead (I := I) hI (fun _ _ _ h => h) fun _ _ _ _ hI => ?_
  refine post_optRead (I := I) hI (fun _ _ _ h => h) fun _ _ _ _ hI => ?_
  refine post_optRead (I := I) hI (fun _ _ _ h => h) fun _ _ _ _ hI => ?_
  intro h; cases h; exact hI

theorem ad_flags {c : Bytes} {e : SrAdSensorsData} (h : SrAdSensorsData.decode {} c = .ok e) :
    (e.DIOE1 = bitText (byteAt c 0) 0 ∧ e.DIOE2 = bitText (byteAt c 0) 1 ∧ e.DIOE3 = bitText (byteAt c 0) 2 ∧ e.DIOE4 = bitText (byteAt c 0) 3 ∧
    e.DIOE5 = bitText (byteAt c 0) 4 ∧ e.DIOE6 = bitText (byteAt c 0) 5 ∧ e.DIOE7 = bitText (byteAt c 0) 6 ∧ e.DIOE8 = bitText (byteAt c 0) 7) ∧
    e.ASFE1 = bitText (byteAt c 2) 0 ∧ e.ASFE2 = bitText (byteAt c 2) 1 ∧ e.ASFE3 = bitText (byteAt c 2) 2 ∧ e.ASFE4 = bitText (byteAt c 2) 3 ∧
    e.ASFE5 = bitText (byteAt c 2) 4 ∧ e.ASFE6 = bitText (byteAt c 2) 5 ∧ e.ASFE7 = bitText (byteAt c 2) 6 ∧ e.ASFE8 = bitText (byteAt c 2) 7 := by
  obtain ⟨r, h⟩ := dec_run_inv h
  unfold SrAdSensorsData.decodeM at h
  obtain ⟨fl, s1, r1, h1, k1⟩ := Dec.bind_inv h
  obtain ⟨rfl, rfl⟩ := Dec.readByte_inv h1
  clear h h1
  obtain ⟨_, s2, r2, h2, k2⟩ := Dec.bind_inv k1
  clear k1
  cases h2
  obtain ⟨_, s3, r3, h3, k3⟩ := Dec.bind_inv k2
  clear k2
  obtain ⟨b3, rfl, rfl⟩ := Dec.readByteTo_inv h3
  clear h3
  obtain ⟨fs, s4, r4, h4, k4⟩ := Dec.bind_inv k3
  clear k3
  obtain ⟨rfl, rfl⟩ := Dec.readByte_inv h4
  clear h4
  obtain ⟨_, s5, r5, h5, h⟩ := Dec.bind_inv k4
  clear k4
  cases h5
  obtain ⟨f0, f1, f2, f3, f4, f5, f6, f7⟩ := fmt_text1 fl
  obtain ⟨g0, g1, g2, g3, g4, g5, g6, g7⟩ := fmt_text1 fs
  let I : SrAdSensorsData → Prop := fun e => (e.DIOE1 = bitText fl 0 ∧ e.DIOE2 = bitText fl 1 ∧ e.DIOE3 = bitText fl 2 ∧ e.DIOE4 = bitText fl 3 ∧
    e.DIOE5 = bitText fl 4 ∧ e.DIOE6 = bitText fl 5 ∧ e.DIOE7 = bitText fl 6 ∧ e.DIOE8 = bitText fl 7) ∧
    e.ASFE1 = bitText fs 0 ∧ e.ASFE2 = bitText fs 1 ∧ e.ASFE3 = bitText fs 2 ∧ e.ASFE4 = bitText fs 3 ∧
    e.ASFE5 = bitText fs 4 ∧ e.ASFE6 = bitText fs 5 ∧ e.ASFE7 = bitText fs 6 ∧ e.ASFE8 = bitText fs 7
  show I e
  revert h
  have hI : I { DIOE1 := _, DIOE2 := _, DIOE3 := _, DIOE4 := _, DIOE5 := _, DIOE6 := _, DIOE7 := _, DIOE8 := _, DOUT := b3, ASFE1 := _, ASFE2 := _, ASFE3 := _, ASFE4 := _, ASFE5 := _, ASFE6 := _, ASFE7 := _, ASFE8 := _ } := ⟨⟨f7, f6, f5, f4, f3, f2, f1, f0⟩, g7, g6, g5, g4, g3, g2, g1, g0⟩
  refine post_optByte (I := I) (Q := I) hI (fun _ _ h => h) fun _ _ hI => ?_
  refine post_optByte (I := I) hI (fun _ _ h => h) fun _ _ hI => ?_
  refine post_optByte (I := I) hI (fun _ _ h => h) fun _ _ hI => ?_
  refine post_optByte (I := I) hI (fun _ _ h => h) fun _ _ hI => ?_
  refine post_optByte (I := I) hI (fun _ _ h => h) fun _ _ hI => ?_
  refine post_optByte (I := I) hI (fun _ _ h => h) fun _ _ hI => ?_
  refine post_optByte (I := I) hI (fun _ _ h => h) fun _ _ hI => ?_
  refine post_optByte (I := I) hI (fun _ _ h => h) fun _ _ hI => ?_
  refine post_optRead (I := I) hI (fun _ _ _ h => h) fun _ _ _ _ hI => ?_
  refine post_optRead (I := I) hI (fun _ _ _ h => h) fun _ _ _ _ hI => ?_
  refine post_optRead (I := I) hI (fun _ _ _ h => h) fun _ _ _ _ hI => ?_
  refine post_optRead (I := I) hI (fun _ _ _ h => h) fun _ _ _ _ hI => ?_
  refine post_optRead (I := I) hI (fun _ _ _ h => h) fun _ _ _ _ hI => ?_
  refine post_optRead (I := I) hI (fun _ _ _ h => h) fun _ _ _ _ hI => ?_
  refine post_optRead (I := I) hI (fun _ _ _ h => h) fun _ _ _ _ hI => ?_
  refine post_optRead (I := I) hI (fun _ _ _ h => h) fun _ _ _ _ hI => ?_
  intro h; cases h; exact hI


/-! ### the flags of the terminal identity and the lengths of its fields -/

theorem post_optRead2 {σ τ : Type} {I J Q : σ → Prop} {cond : σ → Bytes} {p : Bytes} {conv : Bytes → τ} {set : σ → τ → σ} {f : Bytes → Dec σ Unit} {s e : σ} {r r' : Bytes}
    (hI : I s) (hset : ∀ s a, a.length = p.length → I s → J (set s (conv a))) (hno : ∀ s, cond s ≠ [49] → I s → J s)
    (hf : ∀ a s' r1, a.length = p.length → J s' → f a s' r1 = .ok () e r' → Q e) (h : (Dec.optRead cond p conv set >>= f) s r = .ok () e r') : Q e := by
  obtain ⟨a, s1, r1, h1, h2⟩ := Dec.bind_inv h
  unfold Dec.optRead at h1
  obtain ⟨x, s2, r2, k1, k2⟩ := Dec.bind_inv h1
  cases k1
  split at k2
  · obtain ⟨b, s3, r3, h3, k3⟩ := Dec.bind_inv k2
    obtain ⟨rfl, hb, -⟩ := Dec.read_inv h3
    obtain ⟨_, s4, r4, h4, k4⟩ := Dec.bind_inv k3
    cases h4; cases k4
    exact hf _ _ _ hb (hset _ _ hb hI) h2
  · rename_i hc
    cases k2
    exact hf _ _ _ rfl (hno _ (by simpa using hc) hI) h2

/-- the flags of `e` are the bits of `fl` -/
def TermFlags (fl : UInt8) (e : SrTermIdentity) : Prop :=
  e.HDIDE = bitText fl 0 ∧ e.IMEIE = bitText fl 1 ∧ e.IMSIE = bitText fl 2 ∧ e.LNGCE = bitText fl 3 ∧ e.SSRA = bitText fl 4 ∧
    e.NIDE = bitText fl 5 ∧ e.BSE = bitText fl 6 ∧ e.MNE = bitText fl 7

theorem term_flags {c : Bytes} {e : SrTermIdentity} (h : SrTermIdentity.decode {} c = .ok e) :
    TermFlags (byteAt c 4) e ∧ (e.IMEIE = [49] → e.IMEI.length = 15) ∧ (e.IMSIE = [49] → e.IMSI.length = 16) ∧
      (e.LNGCE = [49] → e.LanguageCode.length = 3) ∧ (e.NIDE = [49] → e.NetworkIdentifier.length = 3) ∧
      (e.MNE = [49] → e.MobileNumber.length = 15) := by
  obtain ⟨r, h⟩ := dec_run_inv h
  unfold SrTermIdentity.decodeM at h
  obtain ⟨t, s0, r0, h0, k0⟩ := Dec.bind_inv h
  clear h
  have hr : r0 = c.drop 4 ∧ s0 = {} := by
    rcases read_props (zeros 4) ({} : SrTermIdentity) c with ⟨-, hr⟩ | ⟨hne, hr⟩
    · rw [hr] at h0; cases h0
    · rw [hr] at h0; cases h0; exact ⟨rfl, rfl⟩
  obtain ⟨hr, rfl⟩ := hr
  clear h0
  obtain ⟨_, s1, r1, h1, k1⟩ := Dec.bind_inv k0
  clear k0
  cases h1
  obtain ⟨fl, s2, r2, h2, k2⟩ := Dec.bind_inv k1
  clear k1
  obtain ⟨rfl, hr2⟩ := Dec.readByte_inv h2
  clear h2
  obtain ⟨_, s3, r3, h3, k3⟩ := Dec.bind_inv k2
  clear k2
  cases h3
  have hfl : byteAt c 4 = fl := by
    rw [hr] at hr2
    have : byteAt c 4 = (c.drop 4).getD 0 0 := by simp [byteAt]
    rw [this, hr2]; rfl
  rw [hfl]
  obtain ⟨f0, f1, f2, f3, f4, f5, f6, f7⟩ := fmt_text1 fl
  let I0 : SrTermIdentity → Prop := TermFlags fl
  let I1 : SrTermIdentity → Prop := fun e => I0 e ∧ (e.IMEIE = [49] → e.IMEI.length = 15)
  let I2 : SrTermIdentity → Prop := fun e => I1 e ∧ (e.IMSIE = [49] → e.IMSI.length = 16)
  let I3 : SrTermIdentity → Prop := fun e => I2 e ∧ (e.LNGCE = [49] → e.LanguageCode.length = 3)
  let I4 : SrTermIdentity → Prop := fun e => I3 e ∧ (e.NIDE = [49] → e.NetworkIdentifier.length = 3)
  let I5 : SrTermIdentity → Prop := fun e => I4 e ∧ (e.MNE = [49] → e.MobileNumber.length = 15)
  suffices hs : I5 e from ⟨hs.1.1.1.1.1, hs.1.1.1.1.2, hs.1.1.1.2, hs.1.1.2, hs.1.2, hs.2⟩
  revert k3
  have hI : I0 { TerminalIdentifier := u32 t, MNE := _, BSE := _, NIDE := _, SSRA := _, LNGCE := _, IMSIE := _, IMEIE := _, HDIDE := _ } :=
    ⟨f7, f6, f5, f4, f3, f2, f1, f0⟩
  refine post_optRead (I := I0) hI (fun _ _ _ h => h) fun _ _ _ _ hI => ?_
  refine post_optRead2 (I := I0) (J := I1) hI (fun _ _ ha h => ⟨h, fun _ => ha⟩) (fun _ hn h => ⟨h, fun hc => absurd hc hn⟩) fun _ _ _ _ hI => ?_
  refine post_optRead2 (I := I1) (J := I2) hI (fun _ _ ha h => ⟨h, fun _ => ha⟩) (fun _ hn h => ⟨h, fun hc => absurd hc hn⟩) fun _ _ _ _ hI => ?_
  refine post_optRead2 (I := I2) (J := I3) hI (fun _ _ ha h => ⟨h, fun _ => ha⟩) (fun _ hn h => ⟨h, fun hc => absurd hc hn⟩) fun _ _ _ _ hI => ?_
  refine post_optRead2 (I := I3) (J := I4) hI (fun _ _ ha h => ⟨h, fun _ => ha⟩) (fun _ hn h => ⟨h, fun hc => absurd hc hn⟩) fun _ _ _ _ hI => ?_
  refine post_optRead (I := I4) hI (fun _ _ _ h => h) fun _ _ _ _ hI => ?_
  refine post_optRead2 (I := I4) (J := I5) hI (fun _ _ ha h => ⟨h, fun _ => ha⟩) (fun _ hn h => ⟨h, fun hc => absurd hc hn⟩) fun _ _ _ _ hI => ?_
  intro h; cases h; exact hI

/-! ### the converse, kind by kind -/

theorem len_ite {b : Bool} {x : Bytes} : (if b = true then x else []).length = if b = true then x.length else 0 := by
  cases b <;> rfl

theorem ext_only {c : Bytes} {e : SrExtPosData} (h : SrExtPosData.decode {} c = .ok e) (he : e.encode = .ok c) :
    1 ≤ c.length ∧ byteAt c 0 < 32 ∧ c.length = optOff (byteAt c 0) 1 [(0, 2), (1, 2), (2, 2), (3, 1), (4, 2)] := by
  obtain ⟨f0, f1, f2, f3, f4⟩ := ext_flags h
  generalize hfl : byteAt c 0 = fl at *
  have hp : parseFlags ([48, 48, 48] ++ bitText fl 4 ++ bitText fl 3 ++ bitText fl 2 ++ bitText fl 1 ++ bitText fl 0) = .ok (fl % 32) := by
    have : ∀ n : Fin 256, parseFlags ([48, 48, 48] ++ bitText (UInt8.ofNat n.val) 4 ++ bitText (UInt8.ofNat n.val) 3 ++ bitText (UInt8.ofNat n.val) 2 ++
      bitText (UInt8.ofNat n.val) 1 ++ bitText (UInt8.ofNat n.val) 0) = .ok (UInt8.ofNat n.val % 32) := by decide +kernel
    simpa using this ⟨fl.toNat, fl.toNat_lt⟩
  unfold SrExtPosData.encode at he
  rw [f0, f1, f2, f3, f4, hp] at he
  simp only [Go.ok_bind, Go.pure_def, bitText_eq_one] at he
  injection he with he
  have hl := congrArg List.length he
  have h0 : byteAt c 0 = fl % 32 := by rw [← he]; rfl
  simp only [List.length_append, len_ite, length_le16, List.length_singleton] at hl
  refine ⟨by omega, ?_, ?_⟩
  · rw [hfl] at h0
    rw [h0]
    show (fl % 32).toNat < 32
    rw [UInt8.toNat_mod]
    exact Nat.mod_lt _ (by decide)
  · simp only [optOff, List.foldl_cons, List.foldl_nil]
    omega

theorem counters_only {c : Bytes} {e : SrCountersData} (h : SrCountersData.decode {} c = .ok e) (he : e.encode = .ok c) :
    1 ≤ c.length ∧ ((byteAt c 0).toNat.testBit 1 = true → ∀ i, 1 ≤ i → i < optOff (byteAt c 0) 1 [(0, 3), (1, 3)] → byteAt c i = 0) ∧
    c.length = optOff (byteAt c 0) 1 [(0, 3), (1, 3), (2, 3), (3, 3), (4, 3), (5, 3), (6, 3), (7, 3)] := by
  obtain ⟨f1, f2, f3, f4, f5, f6, f7, f8⟩ := counters_flags h
  generalize hfl : byteAt c 0 = fl at *
  have he0 := he
  unfold SrCountersData.encode at he
  rw [f8, f7, f6, f5, f4, f3, f2, f1, parse_text fl] at he
  simp only [Go.ok_bind, Go.pure_def, bitText_eq_one, encOpt24] at he
  injection he with he
  have hl := congrArg List.length he
  simp only [List.length_append, len_ite, List.length_take, length_le32, List.length_singleton, show min 3 4 = 3 from rfl] at hl
  have h1 : 1 ≤ c.length := by omega
  have hoff : c.length = optOff fl 1 [(0, 3), (1, 3), (2, 3), (3, 3), (4, 3), (5, 3), (6, 3), (7, 3)] := by
    simp only [optOff, List.foldl_cons, List.foldl_nil]
    omega
  refine ⟨h1, ?_, hoff⟩
  intro hb
  obtain ⟨e', hd, -, -, -, -, -, -, -, -, g1, g2, -⟩ := counters_wire_partial c h1 fl hfl.symm (by omega)
  rw [h] at hd
  injection hd with hd
  subst hd
  rw [if_pos hb] at g1
  rw [g2, hb] at he
  simp only [optOff, List.foldl_cons, List.foldl_nil, hb, if_true] at g1 ⊢
  by_cases h0 : fl.toNat.testBit 0 = true
  · simp only [h0, if_true, List.append_assoc, List.singleton_append] at g1 he ⊢
    generalize hx : (le32 e.CN1).take 3 = x at he
    have hx3 : x.length = 3 := by rw [← hx]; rfl
    match x, hx3 with
    | [x0, x1, x2], _ =>
      have hw : wireNat c (1 + 3) 3 = 0 := by rw [← he]; rfl
      have hz : e.CN1 = 0 := by
        apply UInt32.toNat_inj.1; rw [g1, hw]; rfl
      rw [hz] at hx
      have hx' : [x0, x1, x2] = [0, 0, 0] := hx.symm
      injection hx' with q0 q; injection q with q1 q; injection q with q2 q
      subst q0 q1 q2
      intro i hi1 hi2
      rw [← he]
      match i, hi1, hi2 with
      | 1, _, _ => rfl
      | 2, _, _ => rfl
      | 3, _, _ => rfl
      | 4, _, _ => rfl
      | 5, _, _ => rfl
      | 6, _, _ => rfl
  · simp only [h0, if_true, if_false, Bool.false_eq_true, List.append_assoc, List.singleton_append] at g1 he ⊢
    intro i hi1 hi2
    rw [← he]
    match i, hi1, hi2 with
    | 1, _, _ => rfl
    | 2, _, _ => rfl
    | 3, _, _ => rfl

/-- the bits in the opposite order: only a symmetric byte is given back -/
theorem sym_only (fl : UInt8) (h : parseFlags (bitText fl 0 ++ bitText fl 1 ++ bitText fl 2 ++ bitText fl 3 ++ bitText fl 4 ++ bitText fl 5 ++
    bitText fl 6 ++ bitText fl 7) = .ok fl) : ∀ i, i < 8 → fl.toNat.testBit i = fl.toNat.testBit (7 - i) := by
  have : ∀ n : Fin 256, parseFlags (bitText (UInt8.ofNat n.val) 0 ++ bitText (UInt8.ofNat n.val) 1 ++ bitText (UInt8.ofNat n.val) 2 ++
      bitText (UInt8.ofNat n.val) 3 ++ bitText (UInt8.ofNat n.val) 4 ++ bitText (UInt8.ofNat n.val) 5 ++ bitText (UInt8.ofNat n.val) 6 ++
      bitText (UInt8.ofNat n.val) 7) = .ok (UInt8.ofNat n.val) → ∀ i, i < 8 → (UInt8.ofNat n.val).toNat.testBit i = (UInt8.ofNat n.val).toNat.testBit (7 - i) := by
    decide +kernel
  have := this ⟨fl.toNat, fl.toNat_lt⟩
  simp only [UInt8.ofNat_toNat] at this
  exact this h

theorem ad_only {c : Bytes} {e : SrAdSensorsData} (h : SrAdSensorsData.decode {} c = .ok e) (he : e.encode = .ok c) :
    3 ≤ c.length ∧ (∀ i, i < 8 → (byteAt c 2).toNat.testBit i = (byteAt c 2).toNat.testBit (7 - i)) ∧
    c.length = optOff (byteAt c 2) (optOff (byteAt c 0) 3 [(0, 1), (1, 1), (2, 1), (3, 1), (4, 1), (5, 1), (6, 1), (7, 1)])
      [(0, 3), (1, 3), (2, 3), (3, 3), (4, 3), (5, 3), (6, 3), (7, 3)] := by
  obtain ⟨⟨f1, f2, f3, f4, f5, f6, f7, f8⟩, g1, g2, g3, g4, g5, g6, g7, g8⟩ := ad_flags h
  generalize hfl : byteAt c 0 = fl at *
  generalize hfs : byteAt c 2 = fs at *
  unfold SrAdSensorsData.encode at he
  rw [f8, f7, f6, f5, f4, f3, f2, f1, g8, g7, g6, g5, g4, g3, g2, g1, parse_text fl] at he
  simp only [Go.ok_bind] at he
  cases hp : parseFlags (bitText fs 0 ++ bitText fs 1 ++ bitText fs 2 ++ bitText fs 3 ++ bitText fs 4 ++ bitText fs 5 ++ bitText fs 6 ++ bitText fs 7) with
  | ok x =>
    rw [hp] at he
    simp only [Go.ok_bind, Go.pure_def, bitText_eq_one, encOpt24, encOptByte] at he
    injection he with he
    have hl := congrArg List.length he
    simp only [List.length_append, len_ite, List.length_take, length_le32, List.length_cons, List.length_nil,
      Nat.zero_add, show min 3 4 = 3 from rfl] at hl
    have hx : byteAt c 2 = x := by rw [← he]; rfl
    rw [← hx, hfs] at hp
    refine ⟨by omega, sym_only fs hp, ?_⟩
    simp only [optOff, List.foldl_cons, List.foldl_nil]
    omega
  | _ => rw [hp] at he; cases he

theorem term_only {c : Bytes} {e : SrTermIdentity} (h : SrTermIdentity.decode {} c = .ok e) (he : e.encode = .ok c) :
    5 ≤ c.length ∧ c.length = optOff (byteAt c 4) 5 [(0, 2), (1, 15), (2, 16), (3, 3), (5, 3), (6, 2), (7, 15)] := by
  obtain ⟨⟨f0, f1, f2, f3, f4, f5, f6, f7⟩, l1, l2, l3, l5, l7⟩ := term_flags h
  generalize byteAt c 4 = fl at *
  unfold SrTermIdentity.encode at he
  injection he with he
  have hl := congrArg List.length he
  have hite : ∀ (t x : Bytes) (i n : Nat), t = bitText fl i → (t = [49] → x.length = n) →
      (if t == [49] then x else []).length = if fl.toNat.testBit i = true then n else 0 := by
    intro t x i n ht hx
    have hb := bitText_eq_one fl i
    rw [← ht] at hb
    cases hc : fl.toNat.testBit i with
    | true => rw [hc] at hb; rw [hb]; simpa using hx (by simpa using hb)
    | false => rw [hc] at hb; rw [hb]; rfl
  have hpad : ∀ (x : Bytes) (n : Nat), x.length = n → (padTo n x).length = n := by
    intro x n hx
    simp [padTo, zeros, hx]
  simp only [List.length_append, length_le32, List.length_singleton] at hl
  rw [hite _ _ 0 2 f0 (fun _ => rfl), hite _ _ 1 15 f1 (fun h => hpad _ _ (l1 h)), hite _ _ 2 16 f2 (fun h => hpad _ _ (l2 h)),
    hite _ _ 3 3 f3 l3, hite _ _ 5 3 f5 l5, hite _ _ 6 2 f6 (fun _ => rfl), hite _ _ 7 15 f7 l7] at hl
  refine ⟨by omega, ?_⟩
  simp only [optOff, List.foldl_cons, List.foldl_nil]
  omega

theorem state_only {c : Bytes} {e : SrStateData} (h : SrStateData.decode {} c = .ok e) (he : e.encode = .ok c) :
    c.length = 5 ∧ byteAt c 4 < 8 := by
  have hl : c.length = 5 := by
    unfold SrStateData.encode at he
    cases hp : parseFlags ([48, 48, 48, 48, 48] ++ e.NMS ++ e.IBU ++ e.BBU) with
    | ok x => rw [hp] at he; injection he with he; rw [← he]; rfl
    | _ => rw [hp] at he; cases he
  refine ⟨hl, ?_⟩
  rw [state_wire c (by omega)] at h
  injection h with h
  subst h
  have hp : ∀ fl : UInt8, parseFlags ([48, 48, 48, 48, 48] ++ bitText fl 2 ++ bitText fl 1 ++ bitText fl 0) = .ok (fl % 8) := by
    intro fl
    have : ∀ n : Fin 256, parseFlags ([48, 48, 48, 48, 48] ++ bitText (UInt8.ofNat n.val) 2 ++ bitText (UInt8.ofNat n.val) 1 ++
      bitText (UInt8.ofNat n.val) 0) = .ok (UInt8.ofNat n.val % 8) := by decide +kernel
    simpa using this ⟨fl.toNat, fl.toNat_lt⟩
  unfold SrStateData.encode at he
  simp only [hp, Go.ok_bind, Go.pure_def] at he
  injection he with he
  have h4 : byteAt c 4 = byteAt c 4 % 8 := by
    have := congrArg (fun x => byteAt x 4) he
    exact this.symm
  rw [h4]
  show (byteAt c 4 % 8).toNat < 8
  rw [UInt8.toNat_mod]
  exact Nat.mod_lt _ (by decide)

theorem liquid_only {c : Bytes} {e : SrLiquidLevelSensor} (h : SrLiquidLevelSensor.decode {} c = .ok e) (he : e.encode = .ok c) :
    c.length = 7 ∧ byteAt c 0 < 128 := by
  have hl : c.length = 7 := by
    unfold SrLiquidLevelSensor.encode at he
    cases hp : parseFlags ([48] ++ e.LiquidLevelSensorErrorFlag ++ e.LiquidLevelSensorValueUnit ++ e.RawDataFlag ++
        fmtBin 3 e.LiquidLevelSensorNumber.toNat) with
    | ok x => rw [hp] at he; injection he with he; rw [← he]; rfl
    | _ => rw [hp] at he; cases he
  refine ⟨hl, ?_⟩
  obtain ⟨e', hd, h1, h2, h3, h4, -, -⟩ := liquid_wire c (by omega)
  rw [h] at hd
  injection hd with hd
  subst hd
  generalize hfl : byteAt c 0 = fl at *
  have hp : parseFlags ([48] ++ bitText fl 6 ++ (bitText fl 5 ++ bitText fl 4) ++ bitText fl 3 ++
      fmtBin 3 (bitsNat fl 0 3)) = .ok (fl % 128) := by
    have : ∀ n : Fin 256, parseFlags ([48] ++ bitText (UInt8.ofNat n.val) 6 ++ (bitText (UInt8.ofNat n.val) 5 ++ bitText (UInt8.ofNat n.val) 4) ++
      bitText (UInt8.ofNat n.val) 3 ++ fmtBin 3 (bitsNat (UInt8.ofNat n.val) 0 3)) = .ok (UInt8.ofNat n.val % 128) := by decide +kernel
    simpa using this ⟨fl.toNat, fl.toNat_lt⟩
  unfold SrLiquidLevelSensor.encode at he
  rw [h1, h2, h3, h4, hp] at he
  simp only [Go.ok_bind, Go.pure_def] at he
  injection he with he
  have h4 : fl = fl % 128 := ((congrArg (fun x => byteAt x 0) he).trans hfl).symm
  rw [h4]
  show (fl % 128).toNat < 128
  rw [UInt8.toNat_mod]
  exact Nat.mod_lt _ (by decide)

theorem dispatcher_only {c : Bytes} {e : SrDispatcherIdentity} (he : e.encode = .ok c) : 5 ≤ c.length := by
  injection he with he
  rw [← he]
  simp

theorem auth_only {c : Bytes} {e : SrAuthInfo} (h : SrAuthInfo.decode {} c = .ok e) (he : e.encode = .ok c) :
    ∃ u p : Bytes, (0 : UInt8) ∉ u ∧ (0 : UInt8) ∉ p ∧ (c = u ++ [0] ++ p ++ [0] ∨
      ∃ s : Bytes, (0 : UInt8) ∉ s ∧ s ≠ [] ∧ c = u ++ [0] ++ p ++ [0] ++ s ++ [0]) := by
  obtain ⟨h1, h2, h3⟩ := (auth_wire c e).1 h
  injection he with he
  refine ⟨e.UserName, e.UserPassword, h1, h2, ?_⟩
  by_cases hs : e.ServerSequence = []
  · left
    rw [← he, if_neg (by simpa using hs), List.append_nil]
  · right
    refine ⟨e.ServerSequence, ?_, hs, ?_⟩
    · rcases h3 with ⟨-, h⟩ | ⟨h, -⟩
      · exact absurd h hs
      · exact h
    · rw [← he, if_pos (by simpa using hs)]
      simp only [List.append_assoc]

theorem dir_only (d : Bool) (x : UInt8) (h : (x ||| (d.toUInt8 <<< 7)) &&& ~~~(d.toUInt8 <<< 7) = x) : d = true → x < 128 := by
  have : ∀ (d : Bool) (n : Fin 256), (UInt8.ofNat n.val ||| (d.toUInt8 <<< 7)) &&& ~~~(d.toUInt8 <<< 7) = UInt8.ofNat n.val →
      d = true → n.val < 128 := by decide +kernel
  have := this d ⟨x.toNat, x.toNat_lt⟩
  simp only [UInt8.ofNat_toNat] at this
  exact this h

/-- C87: a position is passed on unchanged only if it is `PlainPos`: whole km/h, exact length, the high bit of the course not given twice
(what then can still change are LAT and LONG, by one: `pass_on_pos_partial`). -/
theorem position_unchanged_only [Platform] (c : Bytes) (e : SrPosData) (h : SrPosData.decode {} c = .ok e) (he : e.encode = .ok c) : PlainPos c := by
  obtain ⟨⟨hl, ha⟩, rfl⟩ := (pos_decode_iff c _).1 h
  have e6 : parseFlags ((posOf {} c).ALTE ++ (posOf {} c).LOHS ++ (posOf {} c).LAHS ++ (posOf {} c).MV ++ (posOf {} c).BB ++ (posOf {} c).CS ++
      (posOf {} c).FIX ++ (posOf {} c).VLD) = .ok (byteAt c 12) := parse_text (posFlags c)
  have h7 : ((posOf {} c).ALTE == [49]) = hasAlt c := bitText_eq_one (posFlags c) 7
  unfold SrPosData.encode at he
  rw [e6, h7] at he
  simp only [Go.ok_bind, Go.pure_def] at he
  injection he with he
  have hlen := congrArg List.length he
  simp only [List.length_append, len_ite, List.length_take, length_le32, length_le16, List.length_cons, List.length_nil, show min 3 4 = 3 from rfl] at hlen
  have hspd : spdWord c = leValue (le16 (posOf {} c).speedWord) := by
    conv => lhs; rw [← he]
    rfl
  have hdir : byteAt c 15 = (posOf {} c).Direction &&& ~~~((posOf {} c).DirectionHighestBit <<< 7) := by
    conv => lhs; rw [← he]
    rfl
  rw [le16_eq, leValue_leBytes, Nat.mod_eq_of_lt (show (posOf {} c).speedWord.toNat < 256 ^ 2 from UInt16.toNat_lt _)] at hspd
  have hw : spdWord c < 65536 := wireNat_lt c 13 2
  have hwn : (UInt16.ofNat (spdWord c)).toNat = spdWord c := by rw [UInt16.toNat_ofNat']; exact Nat.mod_eq_of_lt hw
  obtain ⟨d, t, h1, h2, h3⟩ := high_bits (UInt16.ofNat (spdWord c))
  rw [hwn] at h3
  have hs : (posOf {} c).Speed.toNat = spdWord c % 16384 / 10 := by
    show (UInt16.ofNat (spdWord c % 16384) / 10).toNat = _
    rw [UInt16.toNat_div, UInt16.toNat_ofNat', Nat.mod_eq_of_lt (by omega)]
    rfl
  have hd' : (posOf {} c).DirectionHighestBit = d.toUInt8 := h1
  have ht' : (posOf {} c).AltitudeSign = t.toUInt8 := h2
  have hdirr : (posOf {} c).Direction = dirByte c ||| (((UInt16.ofNat (spdWord c) >>> 15) &&& 1).toUInt8 <<< 7) := rfl
  unfold SrPosData.speedWord at hspd
  rw [hd', ht', speedWord_parts d t _ (by omega), hs] at hspd
  rw [hdirr, hd', h1] at hdir
  refine ⟨?_, by omega, ?_⟩
  · rw [← hlen]
    cases hasAlt c <;> rfl
  · intro hh
    refine dir_only d _ hdir.symm ?_
    cases d with
    | true => rfl
    | false => simp only [Bool.toNat_false] at h3; cases t <;> simp at h3 <;> omega

variable [P : Platform]

/-- C87: exactly the canonical contents are passed on unchanged (positions apart): a content is decoded and encoded again as the same
bytes if and only if it is canonical. -/
theorem content_unchanged_iff (t : UInt8) (c : Bytes) (ht : t ≠ 16) :
    (∃ d, Content t (UInt16.ofNat c.length) c d ∧ d.encode = .ok c) ↔ Canonical t c := by
  constructor
  · rintro ⟨d, hd, he⟩
    cases d with
    | response d => obtain ⟨rfl, hd⟩ := hd; exact .inl ⟨rfl, by injection he with he; rw [← he]; rfl⟩
    | term d => obtain ⟨rfl, hd⟩ := hd; exact .inr (.inl ⟨rfl, term_only hd he⟩)
    | dispatcher d => obtain ⟨rfl, hd⟩ := hd; exact .inr (.inr (.inl ⟨rfl, dispatcher_only he⟩))
    | auth d => obtain ⟨rfl, hd⟩ := hd; exact .inr (.inr (.inr (.inl ⟨rfl, auth_only hd he⟩)))
    | result d => obtain ⟨rfl, hd⟩ := hd; exact .inr (.inr (.inr (.inr (.inl ⟨rfl, by injection he with he; rw [← he]; rfl⟩))))
    | storage d =>
      obtain ⟨rfl, hd⟩ := hd
      refine .inr (.inr (.inr (.inr (.inr (.inl ⟨rfl, d, hd, ?_⟩)))))
      change storageEncode d = .ok c at he
      unfold storageEncode at he
      cases hm : P.pbMarshal d with
      | some b => rw [hm] at he; injection he with he; rw [he]
      | none => rw [hm] at he; cases he
    | pos d => exact absurd hd.1 ht
    | ext d => obtain ⟨rfl, hd⟩ := hd; exact .inr (.inr (.inr (.inr (.inr (.inr (.inl ⟨rfl, ext_only hd he⟩))))))
    | ad d => obtain ⟨rfl, hd⟩ := hd; exact .inr (.inr (.inr (.inr (.inr (.inr (.inr (.inl ⟨rfl, ad_only hd he⟩)))))))
    | counters d => obtain ⟨rfl, hd⟩ := hd; exact .inr (.inr (.inr (.inr (.inr (.inr (.inr (.inr (.inl ⟨rfl, counters_only hd he⟩))))))))
    | state d =>
      obtain ⟨h, hd⟩ := hd
      refine .inr (.inr (.inr (.inr (.inr (.inr (.inr (.inr (.inr (.inl ⟨?_, state_only hd he⟩)))))))))
      rcases h with ⟨h, -⟩ | h
      · exact .inl h
      · exact .inr h
    | absAn d =>
      obtain ⟨rfl, hd⟩ := hd
      exact .inr (.inr (.inr (.inr (.inr (.inr (.inr (.inr (.inr (.inr (.inl ⟨rfl, by injection he with he; rw [← he]; rfl⟩))))))))))
    | absCntr d =>
      obtain ⟨rfl, hd⟩ := hd
      exact .inr (.inr (.inr (.inr (.inr (.inr (.inr (.inr (.inr (.inr (.inr (.inl ⟨rfl, by injection he with he; rw [← he]; rfl⟩)))))))))))
    | liquid d =>
      obtain ⟨rfl, hd⟩ := hd
      exact .inr (.inr (.inr (.inr (.inr (.inr (.inr (.inr (.inr (.inr (.inr (.inr ⟨rfl, liquid_only hd he⟩)))))))))))
  · intro h
    obtain ⟨d, c', h1, h2, h3, -⟩ := passable_back t c (.inl h)
    rcases h3 with ⟨-, rfl⟩ | ⟨h, -⟩
    · exact ⟨d, h1, h2⟩
    · exact absurd h ht

/-- the hypotheses are met, in both directions: counter 2 is lost (C28) unless it is zero -/
example : (∃ d, Content 19 (UInt16.ofNat 7) [6, 0, 0, 0, 1, 2, 3] d ∧ d.encode = .ok [6, 0, 0, 0, 1, 2, 3]) ∧
    ¬ ∃ d, Content 19 (UInt16.ofNat 7) [6, 9, 0, 0, 1, 2, 3] d ∧ d.encode = .ok [6, 9, 0, 0, 1, 2, 3] := by
  constructor
  · refine (content_unchanged_iff 19 [6, 0, 0, 0, 1, 2, 3] (by decide)).2 ?_
    refine .inr (.inr (.inr (.inr (.inr (.inr (.inr (.inr (.inl ⟨rfl, by decide, fun _ i h1 h2 => ?_, by decide⟩))))))))
    have : optOff (byteAt [6, 0, 0, 0, 1, 2, 3] 0) 1 [(0, 3), (1, 3)] = 4 := by decide
    rw [this] at h2
    match i, h1, h2 with
    | 1, _, _ => rfl
    | 2, _, _ => rfl
    | 3, _, _ => rfl
  · intro h
    have h := (content_unchanged_iff 19 [6, 9, 0, 0, 1, 2, 3] (by decide)).1 h
    rcases h with h | h | h | h | h | h | h | h | h | h | h | h | h
    all_goals first
      | exact absurd h.1 (by decide)
      | exact absurd (h.2.2.1 (by decide) 1 (by decide) (by decide)) (by decide)

end Egts
