import Verif.Lemmas.Fault
import Verif.Props.Log
set_option autoImplicit false
/- C131: the error names the fault. -/
namespace Egts
open Frame
variable [P : Platform]

/-! ### one record -/

/-- an incomplete header -/
theorem sdr_short {b : Bytes} (h : b.length < optOff (byteAt b 4) 7 [(0, 4), (1, 4), (2, 4)]) : ∃ s, sdrDecodeM nestedDecode {} b = .err .eof s := by
  have hn : ¬ sdrHeadM.Succ {} b := fun h' => absurd (head_succ h') (by omega)
  have hs := sdrHeadM_safe.at' {} b
  have he := sdrHeadM_eof.at' {} b
  rw [sdr_split, Dec.bind_apply]
  unfold Dec.SafeAt at hs
  cases h1 : sdrHeadM {} b with
  | ok a s r => exact absurd ⟨_, _, h1⟩ hn
  | err e s =>
    have := he e s h1
    subst this
    exact ⟨s, rfl⟩
  | panic => rw [h1] at hs; exact hs.elim
  | diverge => rw [h1] at hs; exact hs.elim

/-- what is done after a complete header -/
theorem sdr_after {hdr : Bytes} {e : ServiceDataRecord} (h : RecordHeader hdr e) (x : Bytes) :
    sdrDecodeM nestedDecode {} (hdr ++ x) = (Dec.when (decide (x.length ≠ 0)) (do
        let e ← Dec.get
        let b ← Dec.read (zeros e.RecordLength.toNat)
        let rds ← Dec.call (rdsDecode nestedDecode [] b)
        Dec.upd fun e => { e with RecordDataSet := rds }) : Dec ServiceDataRecord Unit) { e with RecordDataSet := [] } x := by
  obtain ⟨fl, rfl, h7, h6, h5, h43, h2, h1, h0, ho, hev, htm⟩ := h
  obtain ⟨rl, rn, ssod, rsod, grp, rpp, tmf, evf, obf, oid, evid, time, sst, rst, l⟩ := e
  simp only at h7 h6 h5 h43 h2 h1 h0 ho hev htm ⊢
  subst h7 h6 h5 h43 h2 h1 h0
  obtain ⟨f0, f1, f2, f3, f4, f5, f6, f7⟩ := fmt_text1 fl
  obtain ⟨-, -, f34, -, -⟩ := fmt_text fl
  have eo : (if fl.toNat.testBit 0 then oid else 0) = oid := by
    cases hb : fl.toNat.testBit 0 with
    | false => rw [ho hb]; rfl
    | true => rfl
  have ee : (if fl.toNat.testBit 1 then evid else 0) = evid := by
    cases hb : fl.toNat.testBit 1 with
    | false => rw [hev hb]; rfl
    | true => rfl
  have et : (if fl.toNat.testBit 2 then time else 0) = time := by
    cases hb : fl.toNat.testBit 2 with
    | false => rw [htm hb]; rfl
    | true => rfl
  unfold sdrDecodeM
  rw [← le16_eq, ← le16_eq, ← le32_eq, ← le32_eq, ← le32_eq]
  simp only [List.append_assoc, List.cons_append, List.nil_append]
  refine Dec.step (Dec.read_le16 _ _ _ rl rfl) ?_
  refine Dec.step (Dec.upd_apply _ _ _) ?_; try dsimp only
  refine Dec.step (Dec.read_le16 _ _ _ rn rfl) ?_
  refine Dec.step (Dec.upd_apply _ _ _) ?_; try dsimp only
  refine Dec.step (Dec.readByte_cons _ _ _) ?_
  rw [f0, f1, f2, f34, f5, f6, f7]
  refine Dec.step (Dec.upd_apply _ _ _) ?_; try dsimp only
  refine Dec.step (Dec.optRead_step (·.ObjectIdentifier) (fl.toNat.testBit 0) (le32 oid) (hc := bitText_bitS fl 0)) ?_; try dsimp only
  refine Dec.step (Dec.optRead_step (·.EventIdentifier) (fl.toNat.testBit 1) (le32 evid) (hc := bitText_bitS fl 1)) ?_; try dsimp only
  refine Dec.step (Dec.optRead_step (·.Time) (fl.toNat.testBit 2) (le32 time) (hc := bitText_bitS fl 2)) ?_; try dsimp only
  refine Dec.step (Dec.readByteTo_cons _ _ _ _) ?_; try dsimp only
  refine Dec.step (Dec.readByteTo_cons _ _ _ _) ?_; try dsimp only
  refine Dec.step (Dec.unread_apply _ _) ?_; try dsimp only
  rw [u16_le16', u16_le16', u32_le32', u32_le32', u32_le32', eo, ee, et]


/-- the data of a record as they are read, of announced length `n`, if `x` follows the header -/
def dataRead (n : Nat) (x : Bytes) : Bytes := x.take n ++ List.replicate (n - x.length) 0

theorem sdr_data {hdr : Bytes} {n : Nat} (h : HeaderText hdr n) {x : Bytes} (hx : x ≠ []) (e : Err) :
    (∃ s, sdrDecodeM nestedDecode {} (hdr ++ x) = .err e s) ↔ ∃ s, rdsDecode nestedDecode [] (dataRead n x) = .err e s := by
  obtain ⟨r, hr, hR⟩ := header_record h
  rw [sdr_after (hR []) x]
  have hlen : decide (x.length ≠ 0) = true := by
    rw [decide_eq_true_eq]; exact fun h => hx (List.length_eq_zero_iff.mp h)
  rw [hlen, Dec.when_true]
  obtain ⟨y, z, rfl⟩ := List.exists_cons_of_ne_nil hx
  simp only [Dec.bind_apply, Dec.get_apply, Dec.read_cons]
  have e1 : List.take (zeros r.RecordLength.toNat).length (y :: z) ++ List.drop (z.length + 1) (zeros r.RecordLength.toNat) = dataRead n (y :: z) := by
    simp [dataRead, zeros, hr]
  rw [e1]
  cases rdsDecode nestedDecode [] (dataRead n (y :: z)) <;> simp [Dec.call]

omit P in
/-- the header at the start of bytes that are long enough -/
theorem header_take {b : Bytes} (h : optOff (byteAt b 4) 7 [(0, 4), (1, 4), (2, 4)] ≤ b.length) :
    ∃ hdr x n, b = hdr ++ x ∧ HeaderText hdr n := by
  have h7 : 7 ≤ optOff (byteAt b 4) 7 [(0, 4), (1, 4), (2, 4)] := by
    simp only [optOff, List.foldl_cons, List.foldl_nil]; omega
  refine ⟨b.take (optOff (byteAt b 4) 7 [(0, 4), (1, 4), (2, 4)]), b.drop (optOff (byteAt b 4) 7 [(0, 4), (1, 4), (2, 4)]), leValue (b.take 2),
    (List.take_append_drop _ _).symm, ?_, ?_, ?_⟩
  · have := leValue_lt (b.take 2)
    rw [List.length_take, Nat.min_eq_left (by omega)] at this
    exact this
  · have := leBytes_leValue (b.take 2)
    rw [List.length_take, Nat.min_eq_left (by omega)] at this
    rw [this, List.take_take, Nat.min_eq_left (by omega)]
  · have : byteAt (b.take (optOff (byteAt b 4) 7 [(0, 4), (1, 4), (2, 4)])) 4 = byteAt b 4 := by
      generalize optOff (byteAt b 4) 7 [(0, 4), (1, 4), (2, 4)] = k at h7
      unfold byteAt
      rw [List.getD_eq_getElem?_getD, List.getD_eq_getElem?_getD, List.getElem?_take_of_lt (by omega)]
    rw [this, List.length_take, Nat.min_eq_left h]

omit P in
theorem dataRead_le {n : Nat} {x : Bytes} (h : n ≤ x.length) : dataRead n x = x.take n := by
  unfold dataRead
  rw [Nat.sub_eq_zero_of_le h]; simp

omit P in
theorem dataRead_gt {n : Nat} {x : Bytes} (h : x.length < n) : dataRead n x = x ++ List.replicate (n - x.length) 0 := by
  unfold dataRead
  rw [List.take_of_length_le (by omega)]

omit P in
theorem nz_dataRead (n : Nat) (x : Bytes) : nz (dataRead n x) ≤ nz x := by
  unfold dataRead
  have := nz_take_le n x
  have hz := nz_zeros (n - x.length)
  unfold zeros at hz
  rw [nz_append, hz]
  omega

/-! ### subrecords -/

theorem content_text {t : UInt8} {srl : UInt16} {c : Bytes} (h : ∃ d, Content t srl c d) : ContentText Telematic t srl.toNat c := by
  rcases (content_iff t srl c).1 h with h | ⟨rfl, h3, l, hl⟩
  · exact .plain h
  · have := ContentText.response (T := Telematic) (n := srl.toNat) (h := c.take 3) (by simp; omega) (records_text _ _ (Nat.le_refl _) l hl)
    rwa [List.take_append_drop] at this

theorem subs_text' {d : Bytes} {l : List RecordData} (h : Subs d l) : SubsText Telematic d :=
  subs_text (K := nz d) (fun b _ l h => records_text _ b (Nat.le_refl _) l h) h (Nat.le_refl _)

/-- one step of the loop over the subrecords -/
theorem rdsStep_full (s : RecordDataSet) (t x y : UInt8) (r : Bytes) : rdsStep nestedDecode s (t :: x :: y :: r) =
    (Dec.call (decodeSub nestedDecode t (u16 [x, y]) (r.take (u16 [x, y]).toNat)) >>= fun d => Dec.upd fun rds => rds ++ [⟨t, u16 [x, y], some d⟩])
      s (r.drop (u16 [x, y]).toNat) := rfl

theorem rdsStep_half (s : RecordDataSet) (t x : UInt8) : rdsStep nestedDecode s [t, x] =
    (Dec.call (decodeSub nestedDecode t (u16 [x, 0]) []) >>= fun d => Dec.upd fun rds => rds ++ [⟨t, u16 [x, 0], some d⟩]) s [] := by
  unfold rdsStep
  simp only [Dec.bind_apply, Dec.readByte_cons, Dec.read_cons, Dec.next_apply]
  simp [zeros]

omit P in
theorem u16_half (x : UInt8) : (u16 [x, 0]).toNat = x.toNat := by rw [u16_toNat]; simp

theorem rds_nil (s : RecordDataSet) : Dec.whileUnread (rdsStep nestedDecode) s [] = .ok () s [] := by rw [rds_loop_unfold, if_pos rfl]

theorem sds_nil (s : ServiceDataSet) : Dec.whileUnread (sdsStep nestedDecode) s [] = .ok () s [] := by rw [sds_loop_unfold, if_pos rfl]

/-! ### an error is a fault -/

theorem content_fault {K : Nat} (H : ∀ b, nz b ≤ K → ∀ e, (∃ s, ServiceDataSet.decode [] b = .err e s) → ∃ f, errOf f = e ∧ RecordsFault Telematic b f)
    {t : UInt8} {srl : UInt16} {c : Bytes} {e : Err} (hK : nz c ≤ K) (h : ∃ d, decodeSub nestedDecode t srl c = .err e d) :
    ∃ f, errOf f = e ∧ ContentFault Telematic t srl.toNat c f := by
  rcases (content_err t srl c e).1 h with ⟨f, hf, hp⟩ | ⟨rfl, h3, hs⟩
  · exact ⟨f, hf, .plain hp⟩
  · obtain ⟨f, hf, hr⟩ := H _ ((nz_drop_le 3 c).trans hK) e hs
    have := ContentFault.inner (T := Telematic) (n := srl.toNat) (h := c.take 3) (by simp; omega) hr
    rw [List.take_append_drop] at this
    exact ⟨f, hf, this⟩

theorem subs_fault {K : Nat} (H : ∀ b, nz b ≤ K → ∀ e, (∃ s, ServiceDataSet.decode [] b = .err e s) → ∃ f, errOf f = e ∧ RecordsFault Telematic b f) :
    ∀ (N : Nat) (d : Bytes), d.length ≤ N → nz d ≤ K → ∀ (s : RecordDataSet) (e : Err), (∃ s', Dec.whileUnread (rdsStep nestedDecode) s d = .err e s') →
      ∃ f, errOf f = e ∧ SubsFault Telematic d f := by
  intro N
  induction N with
  | zero =>
    rintro d hd - s e ⟨s', h⟩
    obtain rfl : d = [] := List.length_eq_zero_iff.mp (by omega)
    rw [rds_nil] at h; cases h
  | succ N ih =>
    rintro d hd hK s e ⟨s', h⟩
    by_cases hne : d = []
    · subst hne; rw [rds_nil] at h; cases h
    rw [rds_loop_unfold, if_neg hne, Dec.bind_apply] at h
    match d, hne with
    | [t], _ =>
      cases h
      exact ⟨.ends, rfl, .type⟩
    | [t, x], _ =>
      rw [rdsStep_half, Dec.bind_apply] at h
      cases hc : decodeSub nestedDecode t (u16 [x, 0]) [] with
      | ok d =>
        rw [hc] at h
        simp only [Dec.call, Dec.upd_apply, rds_nil] at h
        cases h
      | err e' d =>
        rw [hc] at h
        cases h
        obtain ⟨f, hf, hcf⟩ := content_fault H (by simp [nz]) ⟨d, hc⟩
        rw [u16_half] at hcf
        exact ⟨f, hf, .half hcf⟩
      | panic => rw [hc] at h; cases h
      | diverge => rw [hc] at h; cases h
    | t :: x :: y :: r, _ =>
      rw [rdsStep_full, Dec.bind_apply] at h
      have hkr : nz r ≤ K := by
        have := nz_append [t, x, y] r
        simp only [List.cons_append, List.nil_append] at this
        omega
      have hlt := (u16 [x, y]).toNat_lt
      by_cases hl : (u16 [x, y]).toNat ≤ r.length
      · have hcl : (r.take (u16 [x, y]).toNat).length = (u16 [x, y]).toNat := by simp [hl]
        have hform : t :: x :: y :: r = [t] ++ leBytes 2 (r.take (u16 [x, y]).toNat).length ++ r.take (u16 [x, y]).toNat ++ r.drop (u16 [x, y]).toNat := by
          rw [hcl, leBytes_u16]; simp
        cases hc : decodeSub nestedDecode t (u16 [x, y]) (r.take (u16 [x, y]).toNat) with
        | ok d =>
          rw [hc] at h
          simp only [Dec.call, Dec.upd_apply] at h
          have hd' : (r.drop (u16 [x, y]).toNat).length ≤ N := by simp at hd ⊢; omega
          obtain ⟨f, hf, hs⟩ := ih _ hd' ((nz_drop_le _ _).trans hkr) _ e ⟨s', h⟩
          have hct := content_text ⟨d, (decodeSub_iff _ _ _ _).1 hc⟩
          rw [hform]
          refine ⟨f, hf, .later (by omega) ?_ hs⟩
          rwa [hcl]
        | err e' d =>
          rw [hc] at h
          cases h
          obtain ⟨f, hf, hcf⟩ := content_fault H ((nz_take_le _ _).trans hkr) ⟨d, hc⟩
          rw [hform]
          refine ⟨f, hf, .here (by omega) ?_⟩
          rwa [hcl]
        | panic => rw [hc] at h; cases h
        | diverge => rw [hc] at h; cases h
      · rw [List.take_of_length_le (by omega), List.drop_eq_nil_of_le (by omega)] at h
        have hform : t :: x :: y :: r = [t] ++ leBytes 2 (u16 [x, y]).toNat ++ r := by rw [leBytes_u16]; simp
        cases hc : decodeSub nestedDecode t (u16 [x, y]) r with
        | ok d =>
          rw [hc] at h
          simp only [Dec.call, Dec.upd_apply, rds_nil] at h
          cases h
        | err e' d =>
          rw [hc] at h
          cases h
          obtain ⟨f, hf, hcf⟩ := content_fault H hkr ⟨d, hc⟩
          rw [hform]
          exact ⟨f, hf, .cut hlt (by omega) hcf⟩
        | panic => rw [hc] at h; cases h
        | diverge => rw [hc] at h; cases h

omit P in
theorem run_err {σ : Type} {m : Dec σ Unit} {s : σ} {b : Bytes} {e : Err} : (∃ s', m.run s b = .err e s') ↔ ∃ s', m s b = .err e s' := by
  unfold Dec.run
  cases m s b <;> simp

theorem rds_err {b : Bytes} {e : Err} : (∃ s', rdsDecode nestedDecode [] b = .err e s') ↔ ∃ s', Dec.whileUnread (rdsStep nestedDecode) [] b = .err e s' := run_err
theorem sds_err {b : Bytes} {e : Err} : (∃ s', ServiceDataSet.decode [] b = .err e s') ↔ ∃ s', Dec.whileUnread (sdsStep nestedDecode) [] b = .err e s' := run_err

theorem sdsStep_err {s : ServiceDataSet} {b : Bytes} {e : Err} : (∃ s', sdsStep nestedDecode s b = .err e s') ↔ ∃ s', sdrDecodeM nestedDecode {} b = .err e s' := by
  unfold sdsStep
  cases sdrDecodeM nestedDecode {} b <;> simp

theorem records_fault : ∀ (K : Nat) (N : Nat) (b : Bytes), b.length ≤ N → nz b ≤ K → ∀ (s : ServiceDataSet) (e : Err),
    (∃ s', Dec.whileUnread (sdsStep nestedDecode) s b = .err e s') → ∃ f, errOf f = e ∧ RecordsFault Telematic b f := by
  intro K
  induction K using Nat.strong_induction_on with
  | _ K IH =>
    intro N
    induction N with
    | zero =>
      rintro b hb - s e ⟨s', h⟩
      obtain rfl : b = [] := List.length_eq_zero_iff.mp (by omega)
      rw [sds_nil] at h; cases h
    | succ N ih =>
      rintro b hb hK s e ⟨s', h⟩
      by_cases hne : b = []
      · subst hne; rw [sds_nil] at h; cases h
      rw [sds_loop_unfold, if_neg hne, Dec.bind_apply] at h
      cases hst : sdsStep nestedDecode s b with
      | ok u s1 r1 =>
        rw [hst] at h
        obtain ⟨rec, rfl, hon⟩ := (sdsStep_iff _ _ _ _).1 hst
        have hlen := recordOn_len hon
        rcases hon with ⟨hdr, data, hh, hl, hs, rfl⟩ | ⟨rfl, -⟩ | ⟨rfl, -⟩
        · have hK' : nz r1 ≤ K := by rw [nz_append] at hK; omega
          obtain ⟨f, hf, hr⟩ := ih r1 (by omega) hK' _ e ⟨s', h⟩
          have hT := header_text hh
          rw [← hl] at hT
          exact ⟨f, hf, .later hT (subs_text' hs) hr⟩
        · simp only [sds_nil] at h; cases h
        · simp only [sds_nil] at h; cases h
      | err e' s1 =>
        rw [hst] at h
        cases h
        have hsd := sdsStep_err.1 ⟨_, hst⟩
        by_cases hshort : b.length < optOff (byteAt b 4) 7 [(0, 4), (1, 4), (2, 4)]
        · obtain ⟨s2, h2⟩ := sdr_short hshort
          obtain ⟨s3, h3⟩ := hsd
          rw [h2] at h3
          cases h3
          exact ⟨.ends, rfl, .header hne hshort⟩
        · obtain ⟨hdr, x, n, rfl, hT⟩ := header_take (by omega : _ ≤ b.length)
          have hx : x ≠ [] := by
            rintro rfl
            obtain ⟨r, hr, hR⟩ := header_record hT
            obtain ⟨s3, h3⟩ := hsd
            rw [sdr_after (hR []) []] at h3
            cases h3
          have hrd := (sdr_data hT hx e).1 hsd
          have hn : 0 < n := by
            by_contra hc
            obtain rfl : n = 0 := by omega
            have h0 : dataRead 0 x = [] := by simp [dataRead]
            rw [h0] at hrd
            obtain ⟨s3, h3⟩ := rds_err.1 hrd
            rw [rds_nil] at h3; cases h3
          have hz := header_nz hT hn
          rw [nz_append] at hK
          have hd := nz_dataRead n x
          obtain ⟨f, hf, hs⟩ := subs_fault (K := K - 1) (fun b hb e he => IH (K - 1) (by omega) _ b (Nat.le_refl _) hb [] e (sds_err.1 he))
            _ (dataRead n x) (Nat.le_refl _) (by omega) [] e (rds_err.1 hrd)
          by_cases hle : n ≤ x.length
          · rw [dataRead_le hle] at hs
            have hl : (x.take n).length = n := by simp [hle]
            have := RecordsFault.here (T := Telematic) (hdr := hdr) (rest := x.drop n) (by rw [hl]; exact hT) hs
            rw [List.append_assoc, List.take_append_drop] at this
            exact ⟨f, hf, this⟩
          · rw [dataRead_gt (by omega)] at hs
            exact ⟨f, hf, .cut hT hx (by omega) hs⟩
      | panic => rw [hst] at h; cases h
      | diverge => rw [hst] at h; cases h

/-! ### a fault is an error -/

/-- data in the grammar are taken -/
theorem text_subs {hdr d : Bytes} (hh : HeaderText hdr d.length) (h : SubsText Telematic d) : ∃ l, Subs d l := by
  by_cases hne : d = []
  · subst hne; exact ⟨[], .nil⟩
  have hsafe := (rdsDecode_ok [] d (nestedOk (P := P) _)).2
  cases hc : rdsDecode nestedDecode [] d with
  | ok l => exact ⟨l, (rds_decode_iff _ _).1 hc⟩
  | err e s =>
    have hdd : dataRead d.length d = d := by rw [dataRead_le (Nat.le_refl _)]; simp
    obtain ⟨s1, h1⟩ := sdsStep_err (s := []).2 ((sdr_data hh hne e).2 (by rw [hdd]; exact ⟨s, hc⟩))
    obtain ⟨l, hl⟩ := (readable (hdr ++ d ++ [])).2 (.cons hh h .nil)
    have h2 : ∃ s', ServiceDataSet.decode [] (hdr ++ d) = .err e s' := by
      rw [sds_err, sds_loop_unfold, if_neg (by simp [hne]), Dec.bind_apply, h1]
      exact ⟨_, rfl⟩
    obtain ⟨s2, h2⟩ := h2
    rw [List.append_nil, h2] at hl
    cases hl
  | panic => rw [hc] at hsafe; exact hsafe.elim
  | diverge => rw [hc] at hsafe; exact hsafe.elim

theorem fault_records {b : Bytes} {f : Fault} (h : RecordsFault Telematic b f) (s : ServiceDataSet) :
    ∃ s', Dec.whileUnread (sdsStep nestedDecode) s b = .err (errOf f) s' := by
  refine RecordsFault.rec (T := Telematic)
    (motive_1 := fun t n c f _ => n < 65536 → ∃ d, decodeSub nestedDecode t (UInt16.ofNat n) c = .err (errOf f) d)
    (motive_2 := fun d f _ => ∀ s, ∃ s', Dec.whileUnread (rdsStep nestedDecode) s d = .err (errOf f) s')
    (motive_3 := fun b f _ => ∀ s, ∃ s', Dec.whileUnread (sdsStep nestedDecode) s b = .err (errOf f) s') ?_ ?_ ?_ ?_ ?_ ?_ ?_ ?_ ?_ ?_ ?_ h s
  · intro t n c f h hn
    refine (content_err _ _ _ _).2 (.inl ⟨f, rfl, ?_⟩)
    rwa [UInt16.toNat_ofNat', Nat.mod_eq_of_lt hn]
  · intro n h c f hl _ ih hn
    refine (content_err _ _ _ _).2 (.inr ⟨rfl, by simp; omega, ?_⟩)
    rw [List.drop_append_of_le_length (by omega), List.drop_eq_nil_of_le (by omega), List.nil_append]
    exact sds_err.2 (ih [])
  · intro t s
    rw [rds_loop_unfold, if_neg (by simp)]
    exact ⟨s, rfl⟩
  · intro t c rest f hl _ ih s
    obtain ⟨d, hd⟩ := ih hl
    have e : (UInt16.ofNat c.length).toNat = c.length := by rw [UInt16.toNat_ofNat']; exact Nat.mod_eq_of_lt hl
    rw [rds_loop_unfold, if_neg (by simp), Dec.bind_apply]
    have h1 := rdsStep_one s t (UInt16.ofNat c.length) c rest e
    rw [le16_eq, e] at h1
    rw [h1, hd]
    exact ⟨_, rfl⟩
  · intro t c rest f hl hc _ ih s
    have e : (UInt16.ofNat c.length).toNat = c.length := by rw [UInt16.toNat_ofNat']; exact Nat.mod_eq_of_lt hl
    obtain ⟨l, hsub⟩ : ∃ d, decodeSub nestedDecode t (UInt16.ofNat c.length) c = .ok d := by
      obtain ⟨d, hd⟩ : ∃ d, Content t (UInt16.ofNat c.length) c d := by
        refine (content_iff _ _ _).2 ?_
        rw [e]
        cases hc with
        | plain h => exact .inl h
        | @response _ h c' h3 hr =>
          obtain ⟨l, hl'⟩ := text_records hr
          refine .inr ⟨rfl, by simp; omega, l, ?_⟩
          rwa [List.drop_append_of_le_length (by omega), List.drop_eq_nil_of_le (by omega), List.nil_append]
      exact ⟨d, (decodeSub_iff _ _ _ _).2 hd⟩
    rw [rds_loop_unfold, if_neg (by simp), Dec.bind_apply]
    have h1 := rdsStep_one s t (UInt16.ofNat c.length) c rest e
    rw [le16_eq, e] at h1
    rw [h1, hsub]
    exact ih _
  · intro t n c f hn hl _ ih s
    obtain ⟨d, hd⟩ := ih hn
    have e : (UInt16.ofNat n).toNat = n := by rw [UInt16.toNat_ofNat']; exact Nat.mod_eq_of_lt hn
    rw [rds_loop_unfold, if_neg (by simp), Dec.bind_apply]
    have hstep : rdsStep nestedDecode s ([t] ++ leBytes 2 n ++ c) = .err (errOf f) s := by
      have h2 : leBytes 2 n = le16 (UInt16.ofNat n) := by rw [le16_eq, e]
      rw [h2]
      simp only [List.cons_append, List.nil_append]
      unfold rdsStep
      refine Dec.step (Dec.readByte_cons _ _ _) ?_
      refine Dec.step (Dec.read_le16 _ _ _ _ rfl) ?_
      rw [u16_le16']
      refine Dec.step (Dec.next_apply _ _ _) ?_
      rw [List.take_of_length_le (by omega), hd]
      rfl
    rw [hstep]
    exact ⟨_, rfl⟩
  · intro t x f _ ih s
    have hx := x.toNat_lt
    obtain ⟨d, hd⟩ := ih (by omega)
    have e : UInt16.ofNat x.toNat = u16 [x, 0] := by
      apply UInt16.toNat_inj.mp
      rw [u16_half, UInt16.toNat_ofNat', Nat.mod_eq_of_lt (by omega)]
    rw [rds_loop_unfold, if_neg (by simp), Dec.bind_apply, rdsStep_half, Dec.bind_apply, ← e, hd]
    exact ⟨_, rfl⟩
  · intro b hne hl s
    obtain ⟨s', h⟩ := sdsStep_err (s := s).2 (sdr_short hl)
    rw [sds_loop_unfold, if_neg hne, Dec.bind_apply, h]
    exact ⟨_, rfl⟩
  · intro hdr data rest f hh _ ih s
    have hne : data ≠ [] := by
      rintro rfl
      obtain ⟨s', h⟩ := ih []
      rw [rds_nil] at h; cases h
    have hdr7 : hdr ≠ [] := by
      rintro rfl
      obtain ⟨r, -, hR⟩ := header_record hh
      have := header_len (hR [])
      simp at this
    have hd : dataRead data.length (data ++ rest) = data := by
      rw [dataRead_le (by simp)]; simp
    have hx := (sdr_data hh (x := data ++ rest) (by simp [hne]) (errOf f)).2 (by rw [hd]; exact rds_err.2 (ih []))
    rw [← List.append_assoc] at hx
    obtain ⟨s', h⟩ := sdsStep_err (s := s).2 hx
    rw [sds_loop_unfold, if_neg (by simp [hdr7]), Dec.bind_apply, h]
    exact ⟨_, rfl⟩
  · intro hdr data rest f hh hd _ ih s
    obtain ⟨l, hsub⟩ := text_subs hh hd
    obtain ⟨r, hr, hR⟩ := header_record hh
    have hR' := hR l
    have hr' : data.length = { r with RecordDataSet := l }.RecordLength.toNat := hr.symm
    have hs' : Subs data { r with RecordDataSet := l }.RecordDataSet := hsub
    generalize { r with RecordDataSet := l } = r' at hR' hr' hs'
    have hstep := (sdsStep_iff s (s ++ [r']) (hdr ++ data ++ rest) rest).2 ⟨r', rfl, .inl ⟨hdr, data, hR', hr', hs', rfl⟩⟩
    have hne : hdr ++ data ++ rest ≠ [] := by
      have := header_len (hR [])
      intro h0
      have h1 : hdr = [] := by simp at h0; exact h0.1
      rw [h1] at this
      simp at this
    rw [sds_loop_unfold, if_neg hne, Dec.bind_apply, hstep]
    exact ih _
  · intro hdr data n f hh hne hl _ ih s
    have hx := (sdr_data hh hne (errOf f)).2 (by rw [dataRead_gt hl]; exact rds_err.2 (ih []))
    obtain ⟨s', h⟩ := sdsStep_err (s := s).2 hx
    rw [sds_loop_unfold, if_neg (by simp [hne]), Dec.bind_apply, h]
    exact ⟨_, rfl⟩

/-! ### C131 -/

/-- C131: ServiceDataSet.Decode returns exactly the error of the fault that the bytes have. -/
theorem error_names_fault (b : Bytes) (e : Err) : (∃ s, ServiceDataSet.decode [] b = .err e s) ↔ ∃ f, errOf f = e ∧ RecordsFault Telematic b f := by
  rw [sds_err]
  constructor
  · intro h; exact records_fault _ _ b (Nat.le_refl _) (Nat.le_refl _) [] e h
  · rintro ⟨f, rfl, h⟩; exact fault_records h []

/-- C131: bytes are records or have a fault, never both, and the fault is reported unambiguously. -/
theorem text_or_fault (b : Bytes) : (RecordsText Telematic b ∨ ∃ f, RecordsFault Telematic b f) ∧ (RecordsText Telematic b → ∀ f, ¬ RecordsFault Telematic b f) ∧
    ∀ f g, RecordsFault Telematic b f → RecordsFault Telematic b g → errOf f = errOf g := by
  refine ⟨?_, ?_, ?_⟩
  · have hs := ServiceDataSet.decode_safe (P := P) [] b
    cases h : ServiceDataSet.decode [] b with
    | ok l => exact .inl ((readable b).1 ⟨l, h⟩)
    | err e s =>
      obtain ⟨f, -, hf⟩ := (error_names_fault b e).1 ⟨s, h⟩
      exact .inr ⟨f, hf⟩
    | panic => rw [h] at hs; exact hs.elim
    | diverge => rw [h] at hs; exact hs.elim
  · intro h f hf
    obtain ⟨l, hl⟩ := (readable b).2 h
    obtain ⟨s, hs⟩ := (error_names_fault b _).2 ⟨f, rfl, hf⟩
    rw [hl] at hs; cases hs
  · intro f g hf hg
    obtain ⟨s, hs⟩ := (error_names_fault b _).2 ⟨f, rfl, hf⟩
    obtain ⟨s', hs'⟩ := (error_names_fault b _).2 ⟨g, rfl, hg⟩
    rw [hs] at hs'
    exact (Out.err.inj hs').1

theorem ptresponse_err (b : Bytes) (e : Err) : (∃ s, PtResponse.decode {} b = .err e s) ↔
    b.length < 3 ∧ e = .eof ∨ 3 ≤ b.length ∧ ∃ s, ServiceDataSet.decode [] (b.drop 3) = .err e s := by
  match b with
  | [] => simp [PtResponse.decode, PtResponse.decodeM, Dec.run, Dec.bind_apply, eq_comm]
  | [a] => simp [PtResponse.decode, PtResponse.decodeM, Dec.run, Dec.bind_apply, zeros, eq_comm]
  | [a, b] => simp [PtResponse.decode, PtResponse.decodeM, Dec.run, Dec.bind_apply, zeros, eq_comm]
  | a :: b :: x :: r =>
    simp only [PtResponse.decode, PtResponse.decodeM, Dec.run, Dec.bind_apply, Dec.read_cons, Dec.upd_apply]
    have : List.drop (zeros 2).length (a :: b :: x :: r) = x :: r := rfl
    rw [this]
    simp only [Dec.readByteTo_cons, Dec.unread_apply]
    have : List.drop 3 (a :: b :: x :: r) = r := rfl
    rw [this]
    by_cases hr : r = []
    · subst hr
      have h0 : ServiceDataSet.decode (P := P) [] [] = .ok [] := rfl
      rw [h0]
      have hd : decide (([] : Bytes).length > 0) = false := by simp
      rw [hd]
      simp [Dec.when]
    · have hl : decide (r.length > 0) = true := by simpa [List.length_pos_iff] using hr
      rw [hl]
      cases ServiceDataSet.decode [] r <;> simp [Dec.when]

/-- C131: the body of a packet -/
theorem body_fault {t : UInt8} (ht : t = 0 ∨ t = 1) (b : Bytes) (e : Err) :
    (∃ s, decodeBody t b = .err e s) ↔ ∃ f, errOf f = e ∧ BodyFault Telematic t b f := by
  unfold decodeBody BodyFault
  rcases ht with rfl | rfl
  · rw [if_neg (by decide), out_map_err, ptresponse_err, error_names_fault]
    constructor
    · rintro (⟨h, rfl⟩ | ⟨h, f, rfl, hf⟩)
      · exact ⟨.ends, rfl, .inr ⟨rfl, .inl ⟨h, rfl⟩⟩⟩
      · exact ⟨f, rfl, .inr ⟨rfl, .inr ⟨h, hf⟩⟩⟩
    · rintro ⟨f, rfl, ⟨h, -⟩ | ⟨-, ⟨h, rfl⟩ | ⟨h, hf⟩⟩⟩
      · exact absurd h (by decide)
      · exact .inl ⟨h, rfl⟩
      · exact .inr ⟨h, f, rfl, hf⟩
  · rw [if_pos rfl, out_map_err, error_names_fault]
    constructor
    · rintro ⟨f, rfl, hf⟩; exact ⟨f, rfl, .inl ⟨rfl, hf⟩⟩
    · rintro ⟨f, rfl, ⟨-, hf⟩ | ⟨h, -⟩⟩
      · exact ⟨f, rfl, hf⟩
      · exact absurd h (by decide)

/-- C131: `Package.Decode` rejects a packet, whatever the receiver, exactly with the result code and the error that the bytes call for. -/
theorem packet_refused (p : Package) (c spare : Bytes) (code : UInt8) (e : Err) :
    (∃ q, Package.decode p c spare = .ret code (some e) q) ↔ Rejected Telematic c spare code e := by
  by_cases h1 : headerSize c ≤ c.length
  swap
  · obtain ⟨q, hq⟩ := decode_short p c spare (by omega)
    rw [hq]
    constructor
    · rintro ⟨q', h⟩; cases h; exact .header (by omega)
    · intro h
      cases h with
      | header => exact ⟨q, rfl⟩
      | headerSum h => exact absurd h h1
      | empty h => exact absurd h.1 h1
      | type h => exact absurd h.1 h1
      | body h => exact absurd h.1 h1
      | noSum h => exact absurd h.1 h1
      | bodySum h => exact absurd h.1 h1
  have hap : (∃ q, Package.decode p c spare = .ret code (some e) q) ↔ ∃ b w, verdict c spare = .ret code (some e) b w := by
    rw [decode_verdict p c spare h1]
    constructor
    · rintro ⟨q, h⟩
      obtain ⟨b, w, hv, -⟩ := apply_ret h
      exact ⟨b, w, hv⟩
    · rintro ⟨b, w, h⟩; rw [h]; exact ⟨_, rfl⟩
  rw [hap]
  have hno : ¬ c.length < headerSize c := by omega
  by_cases h2 : checkedHeader c ≤ (c ++ spare).length
  swap
  · have hv : verdict c spare = .panic := by
      unfold verdict
      simp only
      rw [hl_sub, goSlice_none (by omega)]
    rw [hv]
    constructor
    · rintro ⟨_, _, h⟩; cases h
    · intro h
      cases h with
      | header h => exact absurd h hno
      | headerSum _ h => exact absurd h h2
      | empty h => exact absurd h.2.1 h2
      | type h => exact absurd h.2.1 h2
      | body h => exact absurd h.2.1 h2
      | noSum h => exact absurd h.2.1 h2
      | bodySum h => exact absurd h.2.1 h2
  by_cases h3 : byteAt c (headerSize c - 1) = crc8 ((c ++ spare).take (checkedHeader c))
  swap
  · have hv : verdict c spare = .ret 137 (some .headerCrc) none none := by
      unfold verdict
      simp only
      rw [hl_sub, goSlice_some ⟨by omega, h2⟩]
      simp only [List.drop_zero, Nat.sub_zero]
      rw [if_pos (by simpa using h3)]
    rw [hv]
    constructor
    · rintro ⟨_, _, h⟩; cases h; exact .headerSum h1 h2 h3
    · intro h
      cases h with
      | header h => exact absurd h hno
      | headerSum => exact ⟨_, _, rfl⟩
      | empty h => exact absurd h.2.2 h3
      | type h => exact absurd h.2.2 h3
      | body h => exact absurd h.2.2 h3
      | noSum h => exact absurd h.2.2 h3
      | bodySum h => exact absurd h.2.2 h3
  have hok : HeaderOk c spare := ⟨h1, h2, h3⟩
  by_cases h4 : c.length = headerSize c
  · have hv : verdict c spare = .ret 132 (some .eof) none none := by
      unfold verdict
      simp only
      rw [hl_sub, goSlice_some ⟨by omega, h2⟩]
      simp only [List.drop_zero, Nat.sub_zero]
      rw [if_neg (by simpa using h3), if_pos h4]
    rw [hv]
    constructor
    · rintro ⟨_, _, h⟩; cases h; exact .empty hok h4
    · intro h
      cases h with
      | header h => exact absurd h hno
      | headerSum _ _ h => exact absurd h3 h
      | empty => exact ⟨_, _, rfl⟩
      | type _ h => omega
      | body _ h => omega
      | noSum _ h => omega
      | bodySum _ _ h => omega
  have h4' : headerSize c < c.length := by omega
  by_cases h9 : byteAt c 9 ≠ 0 ∧ byteAt c 9 ≠ 1
  · have hv : verdict c spare = .ret 133 (some (.unsupportedPacketType (byteAt c 9))) none none := by
      unfold verdict
      simp only
      rw [hl_sub, goSlice_some ⟨by omega, h2⟩]
      simp only [List.drop_zero, Nat.sub_zero]
      rw [if_neg (by simpa using h3), if_neg h4, if_pos h9]
    rw [hv]
    have hbt : ¬ BodyText Telematic (byteAt c 9) (decodedBody c) := by
      rintro (⟨h, -⟩ | ⟨h, -⟩)
      · exact h9.2 h
      · exact h9.1 h
    constructor
    · rintro ⟨_, _, h⟩; cases h; exact .type hok h4' h9.1 h9.2
    · intro h
      cases h with
      | header h => exact absurd h hno
      | headerSum _ _ h => exact absurd h3 h
      | empty _ h => exact absurd h h4
      | type => exact ⟨_, _, rfl⟩
      | body _ _ h =>
        rcases h with ⟨h, -⟩ | ⟨h, -⟩
        · exact absurd h h9.2
        · exact absurd h h9.1
      | noSum _ _ h => exact absurd h hbt
      | bodySum _ h => exact absurd h hbt
  have ht : byteAt c 9 = 0 ∨ byteAt c 9 = 1 := by
    by_cases h0 : byteAt c 9 = 0
    · exact .inl h0
    · exact .inr (by by_contra h; exact h9 ⟨h0, h⟩)
  have hv : verdict c spare = match decodeBody (byteAt c 9) (decodedBody c) with
      | .err e b => .ret 129 (some e) (some b) none
      | .panic => .panic
      | .diverge => .diverge
      | .ok b => tailVerdict (byteAt c 3) (u16 [byteAt c 5, byteAt c 6]) (c ++ spare) (tailBytes c) b := by
    unfold verdict
    simp only
    rw [hl_sub, goSlice_some ⟨by omega, h2⟩]
    simp only [List.drop_zero, Nat.sub_zero]
    rw [if_neg (by simpa using h3), if_neg h4, if_neg h9]
    rfl
  have hs := decodeBody_safe (byteAt c 9) (decodedBody c)
  rw [hv]
  cases hB : decodeBody (byteAt c 9) (decodedBody c) with
  | panic => rw [hB] at hs; exact hs.elim
  | diverge => rw [hB] at hs; exact hs.elim
  | err e' b =>
    have hbt : ¬ BodyText Telematic (byteAt c 9) (decodedBody c) := by
      intro h
      obtain ⟨body, hb⟩ := (body_text _ _).2 h
      rw [(decodeBody_iff _ ht _ _).2 hb] at hB
      cases hB
    constructor
    · rintro ⟨_, _, h⟩
      cases h
      obtain ⟨f, rfl, hf⟩ := (body_fault ht _ _).1 ⟨_, hB⟩
      exact .body hok h4' hf
    · intro h
      cases h with
      | header h => exact absurd h hno
      | headerSum _ _ h => exact absurd h3 h
      | empty _ h => exact absurd h h4
      | type _ _ h0 h1' => exact absurd ⟨h0, h1'⟩ h9
      | @body f _ _ h =>
        obtain ⟨s, hs'⟩ := (body_fault ht _ _).2 ⟨f, rfl, h⟩
        rw [hB] at hs'
        cases hs'
        exact ⟨_, _, rfl⟩
      | noSum _ _ h => exact absurd h hbt
      | bodySum _ h => exact absurd h hbt
  | ok b =>
    have hbt : BodyText Telematic (byteAt c 9) (decodedBody c) := (body_text _ _).1 ⟨b, (decodeBody_iff _ ht _ _).1 hB⟩
    have hbf : ∀ f, ¬ BodyFault Telematic (byteAt c 9) (decodedBody c) f := by
      intro f hf
      obtain ⟨s, hs'⟩ := (body_fault ht _ _).2 ⟨f, rfl, hf⟩
      rw [hB] at hs'; cases hs'
    simp only
    by_cases h5 : headerSize c + declaredFDL c < c.length
    swap
    · unfold tailVerdict tailBytes
      rw [if_pos (List.drop_eq_nil_of_le (by omega))]
      constructor
      · rintro ⟨_, _, h⟩; cases h; exact .noSum hok h4' hbt (by omega)
      · intro h
        cases h with
        | header h => exact absurd h hno
        | headerSum _ _ h => exact absurd h3 h
        | empty _ h => exact absurd h h4
        | type _ _ h0 h1' => exact absurd ⟨h0, h1'⟩ h9
        | body _ _ h => exact absurd h (hbf _)
        | noSum => exact ⟨_, _, rfl⟩
        | bodySum _ _ h => exact absurd h h5
    · have hsum := sent_eq h5
      unfold tailVerdict
      rw [if_neg (tail_ne h5), hl_fdl, hl_def]
      by_cases hr : declaredHL c ≤ checkedEnd c ∧ checkedEnd c ≤ (c ++ spare).length
      swap
      · rw [goSlice_none hr]
        constructor
        · rintro ⟨_, _, h⟩; cases h
        · intro h
          cases h with
          | header h => exact absurd h hno
          | headerSum _ _ h => exact absurd h3 h
          | empty _ h => exact absurd h h4
          | type _ _ h0 h1' => exact absurd ⟨h0, h1'⟩ h9
          | body _ _ h => exact absurd h (hbf _)
          | noSum _ _ _ h => omega
          | bodySum _ _ _ ha hb' => exact absurd ⟨ha, hb'⟩ hr
      · rw [goSlice_some hr]
        simp only
        by_cases hx : sentChecksum c = (crc16 (((c ++ spare).drop (declaredHL c)).take (checkedEnd c - declaredHL c))).toNat
        · rw [if_neg (by
            simp only [ne_eq, Decidable.not_not]
            rw [← UInt16.toNat_inj, hsum]
            exact hx)]
          constructor
          · rintro ⟨_, _, h⟩; cases h
          · intro h
            cases h with
            | header h => exact absurd h hno
            | headerSum _ _ h => exact absurd h3 h
            | empty _ h => exact absurd h h4
            | type _ _ h0 h1' => exact absurd ⟨h0, h1'⟩ h9
            | body _ _ h => exact absurd h (hbf _)
            | noSum _ _ _ h => omega
            | bodySum _ _ _ _ _ h => exact absurd hx h
        · rw [if_pos (by
            rw [ne_eq, ← UInt16.toNat_inj, hsum]
            exact hx)]
          constructor
          · rintro ⟨_, _, h⟩; cases h; exact .bodySum hok hbt h5 hr.1 hr.2 hx
          · intro h
            cases h with
            | header h => exact absurd h hno
            | headerSum _ _ h => exact absurd h3 h
            | empty _ h => exact absurd h h4
            | type _ _ h0 h1' => exact absurd ⟨h0, h1'⟩ h9
            | body _ _ h => exact absurd h (hbf _)
            | noSum _ _ _ h => omega
            | bodySum => exact ⟨_, _, rfl⟩

/-- C131: what the server does with a rejected packet, whatever came before it: it reports exactly that error and answers, about the identifier in the header, with exactly
that result code. -/
theorem rejected_reported (now spare c : Bytes) (v : LoopVars) (code : UInt8) (e : Err) (hc : headerSize c ≤ c.length) (h : Rejected Telematic c spare code e) :
    packetActs now spare v.reset c = [.log .received, .log (.decodeFailed e), .eff (.write (answerBytes (word16At c 7) code 0 []))] := by
  obtain ⟨q, hq⟩ := (packet_refused {} c spare code e).2 h
  have hp : q.PacketIdentifier.toNat = word16At c 7 := by
    have hq' := hq
    rw [decode_verdict {} c spare hc] at hq'
    obtain ⟨b, w, -, rfl⟩ := apply_ret hq'
    show (u16 [byteAt c 7, byteAt c 8]).toNat = _
    rw [u16_toNat]
    simp [word16At, leValue]
  rw [← hp]
  exact acts_rejected now spare c v q code e hq

/-! A body with a fault: an extended position, then a subrecord of type 33 that announces three bytes, of which two are there, in a record that announces one byte more than
there is. The error quotes the type, the announced length and the two bytes; the bytes that are missing count as zeros. -/
example : RecordsFault Telematic ([10, 0, 1, 0, 0, 2, 2] ++ [17, 1, 0, 0, 33, 3, 0, 7, 8]) (.unknown 33 3 [7, 8, 0]) := by
  have c1 : ContentText Telematic 17 1 [0] := by
    refine .plain (.inr (.inr (.inr (.inr (.inr (.inr (.inl ⟨rfl, by decide, ?_⟩)))))))
    simp only [Begin]
    decide
  have s2 : SubsFault Telematic ([33] ++ leBytes 2 3 ++ [7, 8, 0] ++ []) (.unknown 33 3 [7, 8, 0]) :=
    .here (c := [7, 8, 0]) (by decide) (.plain ⟨by decide, rfl, rfl, rfl⟩)
  have s1 := SubsFault.later (c := [0]) (by decide) c1 s2
  exact .cut (n := 10) ⟨by decide, by decide, by decide⟩ (by simp) (by decide) (by convert s1 using 1; decide +kernel)

/-- what the log shows for it -/
example : errOf (.unknown 33 3 [7, 8, 0]) = .unknownSubrecord 33 3 [7, 8, 0] := rfl

/-- the packet with that body: rejected with code 129, and the log says why -/
example : Rejected Telematic [1, 0, 0, 11, 0, 16, 0, 5, 0, 1, 54, 10, 0, 1, 0, 0, 2, 2, 17, 1, 0, 0, 33, 3, 0, 7, 8, 22, 224] [] 129 (.unknownSubrecord 33 3 [7, 8, 0]) := by
  refine (packet_refused {} _ _ _ _).1 ?_
  have h : (match Package.decode {} [1, 0, 0, 11, 0, 16, 0, 5, 0, 1, 54, 10, 0, 1, 0, 0, 2, 2, 17, 1, 0, 0, 33, 3, 0, 7, 8, 22, 224] [] with
    | .ret 129 (some (.unknownSubrecord 33 3 [7, 8, 0])) _ => true
    | _ => false) = true := by kernel_rfl
  split at h
  · exact ⟨_, ‹_›⟩
  · cases h

end Egts
