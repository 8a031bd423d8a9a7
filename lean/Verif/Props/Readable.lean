import Verif.Lemmas.Readable
import Verif.Lemmas.Work
import Verif.Props.Accept
import Verif.Props.PassOn
import Verif.Props.DecodeAll
import Verif.Props.Grammar
set_option autoImplicit false
/- C127: which bodies and packets are accepted, from the bytes alone. -/
namespace Egts
open Frame
variable [P : Platform]

/-- the contents that the protobuf library takes for a telematic message -/
def Telematic (c : Bytes) : Prop := ∃ m, P.pbUnmarshal c = some m

omit P in
theorem succ_unread {σ : Type} {f : Bytes → Dec σ Unit} {s : σ} {r : Bytes} : (Dec.unread >>= f).Succ s r ↔ (f r).Succ s r := by
  unfold Dec.Succ
  rw [Dec.bind_apply]
  rfl

omit P in
theorem succ_call {σ τ : Type} {o : Out τ} {f : τ → Dec σ Unit} {s : σ} {r : Bytes} : (Dec.call o >>= f).Succ s r ↔ ∃ t, o = .ok t ∧ (f t).Succ s r := by
  unfold Dec.Succ
  rw [Dec.bind_apply]
  cases o with
  | ok t =>
    constructor
    · rintro h; exact ⟨t, rfl, h⟩
    · rintro ⟨t, h, h'⟩; cases h; exact h'
  | err e s => exact iff_of_false (by rintro ⟨_, _, h⟩; cases h) (by rintro ⟨_, h, -⟩; cases h)
  | panic => exact iff_of_false (by rintro ⟨_, _, h⟩; cases h) (by rintro ⟨_, h, -⟩; cases h)
  | diverge => exact iff_of_false (by rintro ⟨_, _, h⟩; cases h) (by rintro ⟨_, h, -⟩; cases h)

theorem response_succ (c : Bytes) : (∃ e, SrResponse.decode {} c = .ok e) ↔ 3 ≤ c.length ∧ ∃ l, Records (c.drop 3) l := by
  have hn : ∀ b, (∃ l, nestedDecode b = .ok l) ↔ ∃ l, Records b l := by
    intro b
    simp only [nestedDecode_eq, body_decode_iff]
  unfold SrResponse.decode
  rw [run_succ]
  unfold SrResponse.decodeM
  rw [← List.drop_zero (l := c)]
  refine (succ_read (n := 2) (R := 2 < c.length ∧ ∃ l, Records (c.drop 3) l) rfl fun a _ => ?_).trans
    (by rw [List.drop_zero, ← and_assoc]; exact and_congr (by omega) Iff.rfl)
  rw [succ_upd]
  refine succ_readByteTo fun _ => ?_
  rw [succ_unread, succ_call, ← hn]
  constructor
  · rintro ⟨l, h, -⟩; exact ⟨l, h⟩
  · rintro ⟨l, h⟩; exact ⟨l, h, _, _, rfl⟩

/-- one subrecord: `Content` means that the decoder of its type succeeds -/
theorem content_iff (t : UInt8) (srl : UInt16) (c : Bytes) : (∃ d, Content t srl c d) ↔
    Frame.Plain Telematic t srl.toNat c ∨ t = 0 ∧ 3 ≤ c.length ∧ ∃ l, Records (c.drop 3) l := by
  have h5 : srl = 5 ↔ srl.toNat = 5 := by
    rw [← UInt16.toNat_inj]; rfl
  unfold Frame.Plain
  constructor
  · rintro ⟨d, hd⟩
    cases d
    case response d => exact .inr ⟨hd.1, (response_succ c).1 ⟨d, hd.2⟩⟩
    all_goals left
    case term d => exact .inl ⟨hd.1, (term_succ c).1 ⟨d, hd.2⟩⟩
    case dispatcher d => exact .inr (.inl ⟨hd.1, (dispatcher_succ c).1 ⟨d, hd.2⟩⟩)
    case auth d => exact .inr (.inr (.inl ⟨hd.1, (auth_succ c).1 ⟨d, hd.2⟩⟩))
    case result d => exact .inr (.inr (.inr (.inl ⟨hd.1, (result_succ c).1 ⟨d, hd.2⟩⟩)))
    case storage d => exact .inr (.inr (.inr (.inr (.inl ⟨hd.1, d, hd.2⟩))))
    case pos d => exact .inr (.inr (.inr (.inr (.inr (.inl ⟨hd.1, (pos_succ c).1 ⟨d, hd.2⟩⟩)))))
    case ext d => exact .inr (.inr (.inr (.inr (.inr (.inr (.inl ⟨hd.1, (ext_succ c).1 ⟨d, hd.2⟩⟩))))))
    case ad d => exact .inr (.inr (.inr (.inr (.inr (.inr (.inr (.inl ⟨hd.1, (ad_succ c).1 ⟨d, hd.2⟩⟩)))))))
    case counters d => exact .inr (.inr (.inr (.inr (.inr (.inr (.inr (.inr (.inl ⟨hd.1, (counters_succ c).1 ⟨d, hd.2⟩⟩))))))))
    case absAn d => exact .inr (.inr (.inr (.inr (.inr (.inr (.inr (.inr (.inr (.inr (.inr (.inl ⟨hd.1, (absan_succ c).1 ⟨d, hd.2⟩⟩)))))))))))
    case absCntr d => exact .inr (.inr (.inr (.inr (.inr (.inr (.inr (.inr (.inr (.inr (.inr (.inr (.inl ⟨hd.1, (abscntr_succ c).1 ⟨d, hd.2⟩⟩))))))))))))
    case liquid d => exact .inr (.inr (.inr (.inr (.inr (.inr (.inr (.inr (.inr (.inr (.inr (.inr (.inr (⟨hd.1, (liquid_succ c).1 ⟨d, hd.2⟩⟩)))))))))))))
    case state d =>
      rcases hd with ⟨⟨h1, h2⟩ | h1, h⟩
      · exact .inr (.inr (.inr (.inr (.inr (.inr (.inr (.inr (.inr (.inl ⟨h1, h5.1 h2, (state_succ c).1 ⟨d, h⟩⟩)))))))))
      · exact .inr (.inr (.inr (.inr (.inr (.inr (.inr (.inr (.inr (.inr (.inl ⟨h1, (state_succ c).1 ⟨d, h⟩⟩))))))))))
  · rintro ((⟨h, h'⟩ | ⟨h, h'⟩ | ⟨h, h'⟩ | ⟨h, h'⟩ | ⟨h, h'⟩ | ⟨h, h'⟩ | ⟨h, h'⟩ | ⟨h, h'⟩ | ⟨h, h'⟩ | ⟨h, hn, h'⟩ | ⟨h, h'⟩ | ⟨h, h'⟩ | ⟨h, h'⟩ | ⟨h, h'⟩) | ⟨h, h'⟩)
    · obtain ⟨d, hd⟩ := (term_succ c).2 h'; exact ⟨.term d, h, hd⟩
    · obtain ⟨d, hd⟩ := (dispatcher_succ c).2 h'; exact ⟨.dispatcher d, h, hd⟩
    · obtain ⟨d, hd⟩ := (auth_succ c).2 h'; exact ⟨.auth d, h, hd⟩
    · obtain ⟨d, hd⟩ := (result_succ c).2 h'; exact ⟨.result d, h, hd⟩
    · obtain ⟨d, hd⟩ := h'; exact ⟨.storage d, h, hd⟩
    · obtain ⟨d, hd⟩ := (pos_succ c).2 h'; exact ⟨.pos d, h, hd⟩
    · obtain ⟨d, hd⟩ := (ext_succ c).2 h'; exact ⟨.ext d, h, hd⟩
    · obtain ⟨d, hd⟩ := (ad_succ c).2 h'; exact ⟨.ad d, h, hd⟩
    · obtain ⟨d, hd⟩ := (counters_succ c).2 h'; exact ⟨.counters d, h, hd⟩
    · obtain ⟨d, hd⟩ := (state_succ c).2 h'; exact ⟨.state d, .inl ⟨h, h5.2 hn⟩, hd⟩
    · obtain ⟨d, hd⟩ := (state_succ c).2 h'; exact ⟨.state d, .inr h, hd⟩
    · obtain ⟨d, hd⟩ := (absan_succ c).2 h'; exact ⟨.absAn d, h, hd⟩
    · obtain ⟨d, hd⟩ := (abscntr_succ c).2 h'; exact ⟨.absCntr d, h, hd⟩
    · obtain ⟨d, hd⟩ := (liquid_succ c).2 h'; exact ⟨.liquid d, h, hd⟩
    · obtain ⟨d, hd⟩ := (response_succ c).2 h'; exact ⟨.response d, h, hd⟩

/-! ### headers -/

theorem header_text {hdr : Bytes} {r : ServiceDataRecord} (h : RecordHeader hdr r) : HeaderText hdr r.RecordLength.toNat := by
  obtain ⟨fl, rfl, -⟩ := h
  refine ⟨r.RecordLength.toNat_lt, ?_, ?_⟩
  · simp [leBytes]
  · have : byteAt (leBytes 2 r.RecordLength.toNat ++ leBytes 2 r.RecordNumber.toNat ++ [fl] ++
      (if fl.toNat.testBit 0 then leBytes 4 r.ObjectIdentifier.toNat else []) ++
      (if fl.toNat.testBit 1 then leBytes 4 r.EventIdentifier.toNat else []) ++
      (if fl.toNat.testBit 2 then leBytes 4 r.Time.toNat else []) ++ [r.SourceServiceType, r.RecipientServiceType]) 4 = fl := by
      simp [leBytes, byteAt]
    rw [this]
    simp only [optOff, List.foldl_cons, List.foldl_nil, List.length_append, leBytes_len, List.length_cons, List.length_nil]
    cases fl.toNat.testBit 0 <;> cases fl.toNat.testBit 1 <;> cases fl.toNat.testBit 2 <;> simp [leBytes_len]

omit P in
theorem cut_at {b : Bytes} {m n : Nat} (h : b.length = m + n) : ∃ x y : Bytes, b = x ++ y ∧ x.length = m ∧ y.length = n :=
  ⟨b.take m, b.drop m, (List.take_append_drop m b).symm, by simp; omega, by simp; omega⟩

omit P in
theorem opt_word {x : Bytes} {c : Bool} (h : x.length = if c then 4 else 0) :
    x = (if c then leBytes 4 (UInt32.ofNat (leValue x)).toNat else []) ∧ (c = false → UInt32.ofNat (leValue x) = 0) := by
  cases c with
  | false =>
    have : x = [] := List.eq_nil_of_length_eq_zero (by simpa using h)
    subst this
    exact ⟨rfl, fun _ => rfl⟩
  | true =>
    refine ⟨?_, by simp⟩
    have h4 : x.length = 4 := by simpa using h
    have := leValue_lt x
    rw [h4] at this
    rw [if_pos rfl, UInt32.toNat_ofNat', Nat.mod_eq_of_lt (by omega)]
    have e := leBytes_leValue x
    rw [h4] at e
    exact e.symm

theorem header_record {hdr : Bytes} {n : Nat} (h : HeaderText hdr n) : ∃ r : ServiceDataRecord, r.RecordLength.toNat = n ∧
    ∀ l, RecordHeader hdr { r with RecordDataSet := l } := by
  obtain ⟨h1, h2, h3⟩ := h
  generalize hfl : byteAt hdr 4 = fl at h3
  simp only [optOff, List.foldl_cons, List.foldl_nil] at h3
  obtain ⟨rl, b1, rfl, l1, k1⟩ := cut_at (m := 2) (n := 5 + (if fl.toNat.testBit 0 then 4 else 0) + (if fl.toNat.testBit 1 then 4 else 0) + (if fl.toNat.testBit 2 then 4 else 0)) (b := hdr) (by omega)
  obtain ⟨rn, b2, rfl, l2, k2⟩ := cut_at (m := 2) (n := 3 + (if fl.toNat.testBit 0 then 4 else 0) + (if fl.toNat.testBit 1 then 4 else 0) + (if fl.toNat.testBit 2 then 4 else 0)) (b := b1) (by omega)
  obtain ⟨f, b3, rfl, l3, k3⟩ := cut_at (m := 1) (n := 2 + (if fl.toNat.testBit 0 then 4 else 0) + (if fl.toNat.testBit 1 then 4 else 0) + (if fl.toNat.testBit 2 then 4 else 0)) (b := b2) (by omega)
  obtain ⟨oid, b4, rfl, l4, k4⟩ := cut_at (m := if fl.toNat.testBit 0 then 4 else 0) (n := 2 + (if fl.toNat.testBit 1 then 4 else 0) + (if fl.toNat.testBit 2 then 4 else 0)) (b := b3) (by omega)
  obtain ⟨evid, b5, rfl, l5, k5⟩ := cut_at (m := if fl.toNat.testBit 1 then 4 else 0) (n := 2 + (if fl.toNat.testBit 2 then 4 else 0)) (b := b4) (by omega)
  obtain ⟨tm, b6, rfl, l6, k6⟩ := cut_at (m := if fl.toNat.testBit 2 then 4 else 0) (n := 2) (b := b5) (by omega)
  obtain ⟨o1, o2⟩ := opt_word l4
  obtain ⟨e1, e2⟩ := opt_word l5
  obtain ⟨t1, t2⟩ := opt_word l6
  have hrl : rl = leBytes 2 n := by
    rw [List.take_append_of_le_length (by omega), List.take_of_length_le (by omega)] at h2
    exact h2
  match f, l3, b6, k6, rn, l2 with
  | [g], _, [s, q], _, [n1, n2], _ =>
    have hg : g = fl := by
      rw [← hfl, hrl]
      simp [byteAt, leBytes]
    subst hg
    have hu : (UInt16.ofNat n).toNat = n := by rw [UInt16.toNat_ofNat']; exact Nat.mod_eq_of_lt h1
    refine ⟨{
      RecordLength := UInt16.ofNat n
      RecordNumber := u16 [n1, n2]
      SourceServiceOnDevice := bitText g 7
      RecipientServiceOnDevice := bitText g 6
      Group := bitText g 5
      RecordProcessingPriority := bitText g 4 ++ bitText g 3
      TimeFieldExists := bitText g 2
      EventIDFieldExists := bitText g 1
      ObjectIDFieldExists := bitText g 0
      ObjectIdentifier := UInt32.ofNat (leValue oid)
      EventIdentifier := UInt32.ofNat (leValue evid)
      Time := UInt32.ofNat (leValue tm)
      SourceServiceType := s
      RecipientServiceType := q
      RecordDataSet := [] }, hu, fun l => ⟨g, ?_, rfl, rfl, rfl, rfl, rfl, rfl, rfl, o2, e2, t2⟩⟩
    have hn : [n1, n2] = leBytes 2 (u16 [n1, n2]).toNat := by
      have := leBytes_leValue [n1, n2]
      rw [u16_toNat]
      simpa [leValue] using this.symm
    simp only [hu, ← hn, ← o1, ← e1, ← t1, hrl, List.append_assoc]

omit P in
theorem header_nz {hdr : Bytes} {n : Nat} (h : HeaderText hdr n) (hn : 0 < n) : 0 < nz hdr := by
  obtain ⟨h1, h2, -⟩ := h
  refine lt_of_lt_of_le ?_ (nz_take_le 2 hdr)
  rw [h2]
  simp only [leBytes, nz_cons]
  by_contra hc
  have k1 : UInt8.ofNat (n % 256) = 0 := by by_contra hx; simp [hx] at hc
  have k2 : UInt8.ofNat (n / 256 % 256) = 0 := by by_contra hx; simp [hx] at hc
  have e1 : n % 256 = 0 := by
    have := congrArg UInt8.toNat k1
    simpa using this
  have e2 : n / 256 % 256 = 0 := by
    have := congrArg UInt8.toNat k2
    simpa using this
  omega

/-! ### what the decoder takes is in the grammar -/

theorem subs_text {K : Nat} (H : ∀ b, nz b ≤ K → ∀ l, Records b l → RecordsText Telematic b) {d : Bytes} {l : List RecordData} (h : Subs d l) (hK : nz d ≤ K) :
    SubsText Telematic d := by
  have hcont : ∀ (t : UInt8) (srl : UInt16) (c : Bytes) (x : SubData), Content t srl c x → nz c ≤ K → ContentText Telematic t srl.toNat c := by
    intro t srl c x hx hc
    rcases (content_iff t srl c).1 ⟨x, hx⟩ with h | ⟨rfl, h3, l, hl⟩
    · exact .plain h
    · have := ContentText.response (T := Telematic) (n := srl.toNat) (h := c.take 3) (by simp; omega) (H _ ((nz_drop_le 3 c).trans hc) l hl)
      rwa [List.take_append_drop] at this
  induction h with
  | nil => exact .nil
  | @cut b rd h =>
    rcases h with ⟨c, x, rfl, hl, -, hx⟩ | ⟨x, rfl, hl, -, hx⟩
    · have := hcont _ _ _ _ hx (by simp only [nz_append] at hK; omega)
      exact .cut rd.SubrecordLength.toNat_lt hl this
    · have := hcont _ _ _ _ hx (by simp [nz])
      have e : [rd.SubrecordType] ++ leBytes 1 rd.SubrecordLength.toNat = [rd.SubrecordType, UInt8.ofNat rd.SubrecordLength.toNat] := by
        simp only [leBytes, List.cons_append, List.nil_append, Nat.mod_eq_of_lt hl]
      rw [e]
      refine .half ?_
      rwa [UInt8.toNat_ofNat', Nat.mod_eq_of_lt hl]
  | @cons b rest rd l h _ ih =>
    obtain ⟨c, x, rfl, hl, -, hx⟩ := h
    simp only [nz_append] at hK
    have := hcont _ _ _ _ hx (by omega)
    rw [← hl] at this
    exact .cons (by rw [hl]; exact rd.SubrecordLength.toNat_lt) this (ih (by omega))

theorem records_text : ∀ (K : Nat) (b : Bytes), nz b ≤ K → ∀ l, Records b l → RecordsText Telematic b := by
  intro K
  induction K using Nat.strong_induction_on with
  | _ K IH =>
    intro b hb l h
    induction h with
    | nil => exact .nil
    | @cons hdr data rest r l hh hd hs _ ih =>
      simp only [nz_append] at hb
      have hT := header_text hh
      rw [← hd] at hT
      refine .cons hT ?_ (ih (by omega))
      by_cases h0 : data = []
      · subst h0; exact .nil
      · have := header_nz hT (List.length_pos_iff.2 h0)
        exact subs_text (K := K - 1) (IH (K - 1) (by omega)) hs (by omega)
    | @bare hdr r hh hn _ => exact .bare (header_text hh) hn
    | @cut hdr data r hh hne hl hs =>
      simp only [nz_append] at hb
      have := header_nz (header_text hh) (by omega)
      refine .cut (header_text hh) hne hl (subs_text (K := K - 1) (IH (K - 1) (by omega)) hs ?_)
      have hz := nz_zeros (r.RecordLength.toNat - data.length)
      unfold zeros at hz
      rw [nz_append, hz]
      omega

/-! ### what is in the grammar is taken by the decoder -/

theorem text_records {b : Bytes} (h : RecordsText Telematic b) : ∃ l, Records b l := by
  refine RecordsText.rec (T := Telematic)
    (motive_1 := fun t n c _ => n < 65536 → ∃ d, Content t (UInt16.ofNat n) c d)
    (motive_2 := fun d _ => ∃ l, Subs d l) (motive_3 := fun b _ => ∃ l, Records b l) ?_ ?_ ?_ ?_ ?_ ?_ ?_ ?_ ?_ ?_ h
  · intro t n c h hn
    refine (content_iff _ _ _).2 (.inl ?_)
    rwa [UInt16.toNat_ofNat', Nat.mod_eq_of_lt hn]
  · rintro n h c hl _ ⟨l, ih⟩ hn
    refine (content_iff _ _ _).2 (.inr ⟨rfl, by simp; omega, l, ?_⟩)
    rwa [List.drop_append_of_le_length (by omega), List.drop_eq_nil_of_le (by omega), List.nil_append]
  · exact ⟨[], .nil⟩
  · rintro t c rest hl _ _ ih1 ⟨l, ih2⟩
    obtain ⟨d, hd⟩ := ih1 hl
    refine ⟨⟨t, UInt16.ofNat c.length, some d⟩ :: l, .cons ⟨c, d, rfl, ?_, rfl, hd⟩ ih2⟩
    rw [UInt16.toNat_ofNat', Nat.mod_eq_of_lt hl]
  · rintro t n c hn hl _ ih
    obtain ⟨d, hd⟩ := ih hn
    have e : (UInt16.ofNat n).toNat = n := by rw [UInt16.toNat_ofNat']; exact Nat.mod_eq_of_lt hn
    exact ⟨[⟨t, UInt16.ofNat n, some d⟩], .cut (.inl ⟨c, d, by rw [e], by rw [e]; exact hl, rfl, hd⟩)⟩
  · rintro t x _ ih
    have hx := x.toNat_lt
    obtain ⟨d, hd⟩ := ih (by omega)
    have e : (UInt16.ofNat x.toNat).toNat = x.toNat := by rw [UInt16.toNat_ofNat']; exact Nat.mod_eq_of_lt (by omega)
    exact ⟨[⟨t, UInt16.ofNat x.toNat, some d⟩], .cut (.inr ⟨d, by simp [leBytes], by rw [e]; exact hx, rfl, hd⟩)⟩
  · exact ⟨[], .nil⟩
  · rintro hdr data rest hh _ _ ⟨l, ih1⟩ ⟨m, ih2⟩
    obtain ⟨r, hr, hR⟩ := header_record hh
    exact ⟨{ r with RecordDataSet := l } :: m, .cons (hR l) hr.symm ih1 ih2⟩
  · rintro hdr n hh hn
    obtain ⟨r, hr, hR⟩ := header_record hh
    exact ⟨[{ r with RecordDataSet := [] }], .bare (hR []) (by show 0 < r.RecordLength.toNat; omega) rfl⟩
  · rintro hdr data n hh hne hl _ ⟨l, ih⟩
    obtain ⟨r, hr, hR⟩ := header_record hh
    refine ⟨[{ r with RecordDataSet := l }], .cut (hR l) hne (by show _ < r.RecordLength.toNat; omega) ?_⟩
    show Subs (data ++ List.replicate (r.RecordLength.toNat - data.length) 0) l
    rwa [hr]

/-! ### C127 -/

/-- C127: ServiceDataSet.Decode accepts exactly the bytes of the grammar `RecordsText`. -/
theorem readable (b : Bytes) : (∃ l, ServiceDataSet.decode [] b = .ok l) ↔ RecordsText Telematic b := by
  simp only [body_decode_iff]
  exact ⟨fun ⟨l, h⟩ => records_text _ b (Nat.le_refl _) l h, text_records⟩

theorem body_text (t : UInt8) (b : Bytes) : (∃ body, BodyOf t b body) ↔ BodyText Telematic t b := by
  have hr : ∀ b, (∃ l, Records b l) ↔ RecordsText Telematic b := fun b => by rw [← readable]; simp only [body_decode_iff]
  constructor
  · rintro ⟨body, h⟩
    cases body with
    | appdata l => exact .inl ⟨h.1, (hr b).1 ⟨l, h.2⟩⟩
    | response r =>
      obtain ⟨ht, b', rfl, h⟩ := h
      refine .inr ⟨ht, by simp [leBytes_len]; omega, ?_⟩
      have e : (leBytes 2 r.ResponsePacketID.toNat ++ [r.ProcessingResult] ++ b').drop 3 = b' := by simp [leBytes]
      rw [e]
      rcases h with ⟨rfl, -⟩ | ⟨-, l, -, hl⟩
      · exact .nil
      · exact (hr b').1 ⟨l, hl⟩
  · rintro (⟨ht, h⟩ | ⟨ht, h3, h⟩)
    · obtain ⟨l, hl⟩ := (hr b).2 h
      exact ⟨.appdata l, ht, hl⟩
    · match b, h3 with
      | x :: y :: z :: b', _ =>
        obtain ⟨l, hl⟩ := (hr b').2 h
        have e : [x, y] = leBytes 2 (u16 [x, y]).toNat := by
          have := leBytes_leValue [x, y]
          rw [u16_toNat]
          simpa [leValue] using this.symm
        by_cases h0 : b' = []
        · refine ⟨.response ⟨u16 [x, y], z, none⟩, ht, b', ?_, .inl ⟨h0, rfl⟩⟩
          show _ = leBytes 2 (u16 [x, y]).toNat ++ [z] ++ b'
          rw [← e]; rfl
        · refine ⟨.response ⟨u16 [x, y], z, some l⟩, ht, b', ?_, .inr ⟨h0, l, rfl, hl⟩⟩
          show _ = leBytes 2 (u16 [x, y]).toNat ++ [z] ++ b'
          rw [← e]; rfl

theorem accepted_some_body {p q : Package} {c spare : Bytes} (h : Package.decode p c spare = .ret 0 none q) : ∃ body, q.ServicesFrameData = some body := by
  by_cases hc : headerSize c ≤ c.length
  · rw [decode_verdict p c spare hc] at h
    obtain ⟨b, w, hvd, rfl⟩ := apply_ret h
    obtain ⟨-, hd, body, b', -, -, -, -, hb, rfl, -⟩ := verdict_accept hvd
    exact ⟨_, rfl⟩
  · obtain ⟨q', hq⟩ := decode_short p c spare (by omega)
    rw [hq] at h; cases h

/-- C127: exactly which bytes `Package.Decode` accepts, whatever the receiver and the spare capacity of the slice: the header and its checksum are right (`HeaderOk`),
something follows the body, the body is in the grammar, and its checksum is right. -/
theorem packet_readable (p : Package) (c spare : Bytes) :
    (∃ q, Package.decode p c spare = .ret 0 none q) ↔
      HeaderOk c spare ∧ headerSize c + declaredFDL c < c.length ∧ BodyText Telematic (byteAt c 9) (decodedBody c) ∧
        declaredHL c ≤ checkedEnd c ∧ checkedEnd c ≤ (c ++ spare).length ∧
        sentChecksum c = (crc16 (((c ++ spare).drop (declaredHL c)).take (checkedEnd c - declaredHL c))).toNat := by
  rw [← body_text]
  constructor
  · rintro ⟨q, h⟩
    obtain ⟨body, hb⟩ := accepted_some_body h
    obtain ⟨h1, h2, h3, h4⟩ := (decode_accept_iff p c spare body).1 ⟨q, h, hb⟩
    exact ⟨h1, h2, ⟨body, h3⟩, h4⟩
  · rintro ⟨h1, h2, ⟨body, h3⟩, h4⟩
    obtain ⟨q, h, -⟩ := (decode_accept_iff p c spare body).2 ⟨h1, h2, h3, h4⟩
    exact ⟨q, h⟩

/-- C127: for a complete frame whose header length field is right: accepted exactly if header, checksums and body are right. -/
theorem frame_readable (c : Bytes) (hf : Framed c) (hl : declaredHL c = headerSize c) (p : Package) (spare : Bytes) :
    (∃ q, Package.decode p c spare = .ret 0 none q) ↔
      ∃ hdr b, c = packet hdr b ∧ RightHeader hdr (byteAt c 9) (word16At c 7) b.length ∧ BodyText Telematic (byteAt c 9) b := by
  constructor
  · rintro ⟨q, h⟩
    obtain ⟨body, hb⟩ := accepted_some_body h
    obtain ⟨hdr, b, h1, h2, h3⟩ := (accepted_iff c hf hl p spare body).1 ⟨q, h, hb⟩
    exact ⟨hdr, b, h1, h2, (body_text _ _).1 ⟨body, h3⟩⟩
  · rintro ⟨hdr, b, h1, h2, h3⟩
    obtain ⟨body, hb⟩ := (body_text _ _).2 h3
    obtain ⟨q, h, -⟩ := (accepted_iff c hf hl p spare body).2 ⟨hdr, b, h1, h2, hb⟩
    exact ⟨q, h⟩

omit P in
/-- C127: with the protobuf library as modelled, the telematic contents of the grammar are the texts of messages (Spec/ProtoGrammar) that have the required fields: the
whole language is then given without reference to the code. -/
theorem telematic_text (f2u32OutOfRange : F64 → UInt32) (c : Bytes) : letI : Platform := protobufPlatform f2u32OutOfRange
    Telematic c ↔ ∃ m, Grammar.StorageText c m ∧ Grammar.HasRequired m := by
  unfold Telematic
  constructor
  · rintro ⟨m, h⟩; exact ⟨m, (storage_grammar c m).1 h⟩
  · rintro ⟨m, h⟩; exact ⟨m, (storage_grammar c m).2 h⟩

/-! A body in the grammar: a record whose data are an extended position that announces VDOP, of which only one of two bytes is there, and a confirmation that contains the
header of a record without data; then a record that announces two bytes of data but ends after its header. -/
example : RecordsText Telematic ([18, 0, 1, 0, 0, 2, 2] ++ [17, 2, 0, 1, 5, 0, 10, 0, 9, 9, 0, 0, 0, 1, 0, 0, 2, 2] ++ [2, 0, 7, 0, 0, 2, 2]) := by
  have r1 : RecordsText Telematic ([0, 0, 1, 0, 0, 2, 2] ++ [] ++ []) := .cons ⟨by decide, by decide, by decide⟩ .nil .nil
  have c2 : ContentText Telematic 0 10 ([9, 9, 0] ++ ([0, 0, 1, 0, 0, 2, 2] ++ [] ++ [])) := .response rfl r1
  have s2 := SubsText.cons (c := [9, 9, 0] ++ ([0, 0, 1, 0, 0, 2, 2] ++ [] ++ [])) (by decide) c2 .nil
  have c1 : ContentText Telematic 17 2 [1, 5] := by
    refine .plain (.inr (.inr (.inr (.inr (.inr (.inr (.inl ⟨rfl, by decide, ?_⟩)))))))
    simp only [Begin]
    decide
  have s1 := SubsText.cons (c := [1, 5]) (by decide) c1 s2
  have s1' : SubsText Telematic [17, 2, 0, 1, 5, 0, 10, 0, 9, 9, 0, 0, 0, 1, 0, 0, 2, 2] := by
    convert s1 using 1
    decide +kernel
  exact .cons ⟨by decide, by decide, by decide⟩ s1' (.bare (n := 2) ⟨by decide, by decide, by decide⟩ (by decide))

/-- three bytes are not enough for one analog sensor -/
example : ¬ RecordsText Telematic [6, 0, 1, 0, 0, 2, 2, 24, 3, 0, 1, 2, 3] := by
  rw [← readable]
  rintro ⟨l, h⟩
  have : ServiceDataSet.decode [] [6, 0, 1, 0, 0, 2, 2, 24, 3, 0, 1, 2, 3] ≠ .ok l := by
    intro h
    have e : ServiceDataSet.decode [] [6, 0, 1, 0, 0, 2, 2, 24, 3, 0, 1, 2, 3] = .err .badSize [] := by kernel_rfl
    rw [e] at h
    cases h
  exact this h

end Egts
