import Verif.Model.SrIdentity
import Verif.Props.Counters
set_option autoImplicit false
/- C30: identification subrecords. -/
namespace Egts

theorem readNul_append {σ : Type} (s : σ) (a r : Bytes) (h : (0 : UInt8) ∉ a) :
    readNul s (a ++ 0 :: r) = .ok a s r := by
  have h1 : ∀ x ∈ a, (decide (x ≠ 0)) = true := by
    intro x hx; simp; rintro rfl; exact h hx
  simp only [readNul]
  rw [if_pos (by simp), List.takeWhile_append_of_pos h1, List.dropWhile_append_of_pos h1]
  simp

/-- C30 (login): user name and password without NUL bytes (and the optional server sequence)
survive Encode/Decode. -/
theorem auth_roundtrip (e : SrAuthInfo) (hU : (0 : UInt8) ∉ e.UserName) (hP : (0 : UInt8) ∉ e.UserPassword)
    (hS : (0 : UInt8) ∉ e.ServerSequence) :
    ∃ b, e.encode = .ok b ∧ SrAuthInfo.decode {} b = .ok e := by
  obtain ⟨u, p, s⟩ := e
  simp only at hU hP hS
  refine ⟨_, rfl, ?_⟩
  simp only [List.append_assoc, List.cons_append, List.nil_append]
  by_cases h0 : s = []
  · subst h0
    apply Dec.run_of_ok (u := ()) (r := [])
    unfold SrAuthInfo.decodeM
    refine Dec.step (readNul_append _ u _ hU) ?_
    refine Dec.step (Dec.upd_apply _ _ _) ?_
    refine Dec.step (readNul_append _ p _ hP) ?_
    simp [Dec.bind_apply]
  · apply Dec.run_of_ok (u := ()) (r := [])
    unfold SrAuthInfo.decodeM
    refine Dec.step (readNul_append _ u _ hU) ?_
    refine Dec.step (Dec.upd_apply _ _ _) ?_
    refine Dec.step (readNul_append _ p _ hP) ?_
    refine Dec.step (Dec.upd_apply _ _ _) ?_
    refine Dec.step (Dec.unread_apply _ _) ?_
    have : decide ((if s ≠ [] then s ++ [0] else []).length > 0) = true := by simp [h0]
    rw [this, if_pos h0]
    refine Dec.step (readNul_append _ s [] hS) ?_
    simp

example : let e : SrAuthInfo := ⟨[55, 55], [49, 50, 51], []⟩
    (0 : UInt8) ∉ e.UserName ∧ (0 : UInt8) ∉ e.UserPassword ∧ (0 : UInt8) ∉ e.ServerSequence ∧
    e.encode = .ok [55, 55, 0, 49, 50, 51, 0] := by decide

/-- The NUL hypothesis is necessary: a password containing a NUL byte is silently truncated and its
tail is delivered as the server sequence. -/
theorem auth_nul_truncates : ∃ e b e', SrAuthInfo.encode e = .ok b ∧ SrAuthInfo.decode {} b = .ok e' ∧
    e.UserPassword = [1, 0, 2] ∧ e'.UserPassword = [1] ∧ e'.ServerSequence = [2] :=
  ⟨⟨[5], [1, 0, 2], []⟩, [5, 0, 1, 0, 2, 0], _, by decide, rfl, rfl, by decide⟩

/-- C30 (dispatcher): every dispatcher identity (any description) survives Encode/Decode. -/
theorem dispatcher_roundtrip (e : SrDispatcherIdentity) :
    ∃ b, e.encode = .ok b ∧ SrDispatcherIdentity.decode {} b = .ok e := by
  obtain ⟨t, i, d⟩ := e
  refine ⟨_, rfl, ?_⟩
  simp only [List.cons_append, List.nil_append]
  apply Dec.run_of_ok (u := ()) (r := d)
  unfold SrDispatcherIdentity.decodeM
  refine Dec.step (Dec.readByteTo_cons _ _ _ _) ?_
  refine Dec.step (Dec.read_le32 _ _ _ i rfl) ?_
  simp [Dec.bind_apply]

/-- a terminal identity whose flags are one-bit strings and whose present strings have their
fixed widths (IMEI 15, IMSI 16, language 3, network id 3, phone 15). -/
structure SrTermIdentity.WellFormed (e : SrTermIdentity) : Prop where
  mne : IsBit e.MNE
  bse : IsBit e.BSE
  nide : IsBit e.NIDE
  ssra : IsBit e.SSRA
  lngce : IsBit e.LNGCE
  imsie : IsBit e.IMSIE
  imeie : IsBit e.IMEIE
  hdide : IsBit e.HDIDE
  imei : e.IMEIE = [49] → e.IMEI.length = 15
  imsi : e.IMSIE = [49] → e.IMSI.length = 16
  lang : e.LNGCE = [49] → e.LanguageCode.length = 3
  nid : e.NIDE = [49] → e.NetworkIdentifier.length = 3
  phone : e.MNE = [49] → e.MobileNumber.length = 15

theorem Dec.optRead_step' {σ τ : Type} (get : σ → τ) (b : Bool) (a : Bytes) {cond : σ → Bytes} {p : Bytes}
    {conv : Bytes → τ} {set : σ → τ → σ} {e : σ} {r : Bytes}
    (ha : b = true → a.length = p.length) (h0 : p ≠ [] := by simp [zeros])
    (hs : ∀ e, set e (get e) = e := by exact fun _ => rfl) (hc : cond e = bitS b := by exact rfl) :
    Dec.optRead cond p conv set e ((if b then a else []) ++ r) =
      .ok (if b then a else p) (set e (if b then conv a else get e)) r := by
  cases b
  · simp [optRead, bind_apply, hc, hs]
  · have hl := ha rfl
    have : a ≠ [] := by
      rintro rfl
      exact h0 (List.length_eq_zero_iff.mp hl.symm)
    simp [optRead, bind_apply, hc, read_append p a r _ hl this]

/-- C30 (terminal): every well-formed terminal identity, with every combination of the optional
fields, survives Encode/Decode (absent fields come back empty/zero). -/
theorem term_roundtrip (e : SrTermIdentity) (h : e.WellFormed) :
    ∃ b, e.encode = .ok b ∧ SrTermIdentity.decode {} b = .ok { e with
      HomeDispatcherIdentifier := if e.HDIDE = [49] then e.HomeDispatcherIdentifier else 0
      IMEI := if e.IMEIE = [49] then e.IMEI else []
      IMSI := if e.IMSIE = [49] then e.IMSI else []
      LanguageCode := if e.LNGCE = [49] then e.LanguageCode else []
      NetworkIdentifier := if e.NIDE = [49] then e.NetworkIdentifier else []
      BufferSize := if e.BSE = [49] then e.BufferSize else 0
      MobileNumber := if e.MNE = [49] then e.MobileNumber else [] } := by
  obtain ⟨h1, h2, h3, h4, h5, h6, h7, h8, k1, k2, k3, k4, k5⟩ := h
  obtain ⟨tid, mn, bs, ni, ss, ln, im, ie, hd, hdid, imei, imsi, lang, nid, bsz, phone⟩ := e
  simp only at h1 h2 h3 h4 h5 h6 h7 h8 k1 k2 k3 k4 k5 ⊢
  obtain ⟨mn, rfl⟩ := isBit_iff.mp h1
  obtain ⟨bs, rfl⟩ := isBit_iff.mp h2
  obtain ⟨ni, rfl⟩ := isBit_iff.mp h3
  obtain ⟨ss, rfl⟩ := isBit_iff.mp h4
  obtain ⟨ln, rfl⟩ := isBit_iff.mp h5
  obtain ⟨im, rfl⟩ := isBit_iff.mp h6
  obtain ⟨ie, rfl⟩ := isBit_iff.mp h7
  obtain ⟨hd, rfl⟩ := isBit_iff.mp h8
  simp only [bitS_eq49] at k1 k2 k3 k4 k5 ⊢
  have hf : UInt8.ofNat (parseUint2 (bitS mn ++ bitS bs ++ bitS ni ++ bitS ss ++ bitS ln ++ bitS im ++ bitS ie ++ bitS hd) 8).1
    = flagByte mn bs ni ss ln im ie hd := by
    have := parse_bits mn bs ni ss ln im ie hd
    revert this
    show parseFlags (bitS mn ++ bitS bs ++ bitS ni ++ bitS ss ++ bitS ln ++ bitS im ++ bitS ie ++ bitS hd) = _ → _
    unfold parseFlags
    split <;> simp_all
  refine ⟨_, by simp only [SrTermIdentity.encode, hf]; rfl, ?_⟩
  simp only [SrTermIdentity.decode, bitS_eq_one, List.append_assoc, List.cons_append, List.nil_append]
  have p1 : (if ie = true then padTo 15 imei else []) = if ie = true then imei else [] := by
    cases ie <;> simp_all [padTo, zeros]
  have p2 : (if im = true then padTo 16 imsi else []) = if im = true then imsi else [] := by
    cases im <;> simp_all [padTo, zeros]
  rw [p1, p2]
  apply Dec.run_of_ok (u := ()) (r := [])
  unfold SrTermIdentity.decodeM
  refine Dec.step (Dec.read_le32 _ _ _ tid rfl) ?_
  refine Dec.step (Dec.upd_apply _ _ _) ?_
  refine Dec.step (Dec.readByte_cons _ _ _) ?_
  rw [fmt_flagByte]
  refine Dec.step (Dec.upd_apply _ _ _) ?_; dsimp only [sl, List.drop, List.take]
  refine Dec.step (Dec.optRead_step (·.HomeDispatcherIdentifier) hd (le16 hdid)) ?_; dsimp only
  refine Dec.step (Dec.optRead_step' (·.IMEI) ie imei k1) ?_; dsimp only
  refine Dec.step (Dec.optRead_step' (·.IMSI) im imsi k2) ?_; dsimp only
  refine Dec.step (Dec.optRead_step' (·.LanguageCode) ln lang k3) ?_; dsimp only
  refine Dec.step (Dec.optRead_step' (·.NetworkIdentifier) ni nid k4) ?_; dsimp only
  refine Dec.step (Dec.optRead_step (·.BufferSize) bs (le16 bsz)) ?_; dsimp only
  rw [← List.append_nil (if mn = true then _ else _)]
  refine Dec.step (Dec.optRead_step' (·.MobileNumber) mn phone k5) ?_; dsimp only
  simp [bitS]

/-- a well-formed terminal identity with IMEI and buffer size (test). -/
example : let e : SrTermIdentity := { TerminalIdentifier := 133552,
                                      MNE := [48], BSE := [49], NIDE := [48], SSRA := [49], LNGCE := [48], IMSIE := [48],
                                      IMEIE := [49], HDIDE := [48],
                                      IMEI := [51, 51, 51, 51, 51, 51, 51, 51, 51, 51, 51, 51, 51, 51, 51], BufferSize := 1024 }
    e.WellFormed := by
  constructor <;> simp [IsBit]

/-- The width hypotheses are necessary: a 16-digit IMEI is written in full (no truncation), so
Decode cuts it and misreads the fields that follow. -/
theorem term_long_imei_corrupts : ∃ e b e', SrTermIdentity.encode e = .ok b ∧
    SrTermIdentity.decode {} b = .ok e' ∧ e.IMEI.length = 16 ∧ e.BSE = [49] ∧ e'.BSE = [49] ∧
    e.BufferSize = 1024 ∧ e'.BufferSize ≠ 1024 := by
  refine ⟨{ TerminalIdentifier := 1,
            MNE := [48], BSE := [49], NIDE := [48], SSRA := [49], LNGCE := [48], IMSIE := [48],
            IMEIE := [49], HDIDE := [48],
            IMEI := [51, 51, 51, 51, 51, 51, 51, 51, 51, 51, 51, 51, 51, 51, 51, 51], BufferSize := 1024 }, _, _, rfl, rfl, ?_⟩
  decide


/-! ### C83: identifiers shorter than their fields -/

/-- IMEI and IMSI filled up with NUL bytes at the end to the 15 and 16 bytes they have on the wire -/
def SrTermIdentity.padded (e : SrTermIdentity) : SrTermIdentity := { e with
  IMEI := e.IMEI ++ List.replicate (15 - e.IMEI.length) 0
  IMSI := e.IMSI ++ List.replicate (16 - e.IMSI.length) 0 }

/-- C83 (partial): a terminal identity with a short IMEI or IMSI is encoded as the one with the padded ones, and that is what
comes back: the identifier followed by NUL bytes. (Missing from C83: that the identifier itself comes back, which is false.) -/
theorem term_short_partial (e : SrTermIdentity) (h : e.padded.WellFormed) :
    ∃ b, e.encode = .ok b ∧ SrTermIdentity.decode {} b = .ok { e with
      HomeDispatcherIdentifier := if e.HDIDE = [49] then e.HomeDispatcherIdentifier else 0
      IMEI := if e.IMEIE = [49] then e.IMEI ++ List.replicate (15 - e.IMEI.length) 0 else []
      IMSI := if e.IMSIE = [49] then e.IMSI ++ List.replicate (16 - e.IMSI.length) 0 else []
      LanguageCode := if e.LNGCE = [49] then e.LanguageCode else []
      NetworkIdentifier := if e.NIDE = [49] then e.NetworkIdentifier else []
      BufferSize := if e.BSE = [49] then e.BufferSize else 0
      MobileNumber := if e.MNE = [49] then e.MobileNumber else [] } := by
  obtain ⟨b, hb, hd⟩ := term_roundtrip e.padded h
  refine ⟨b, ?_, hd⟩
  rw [← hb]
  have pad : ∀ (n : Nat) (s : Bytes), padTo n s = padTo n (s ++ List.replicate (n - s.length) 0) := by
    intro n s
    have : n - (s.length + (n - s.length)) = 0 := by omega
    simp [padTo, zeros, this]
  simp only [SrTermIdentity.encode, SrTermIdentity.padded]
  rw [← pad 15 e.IMEI, ← pad 16 e.IMSI]
  rfl

/-- fourteen characters "1" as IMEI, no other optional field -/
def exShort : SrTermIdentity where
  IMEIE := [49]
  HDIDE := [48]
  IMSIE := [48]
  LNGCE := [48]
  SSRA := [48]
  NIDE := [48]
  BSE := [48]
  MNE := [48]
  IMEI := List.replicate 14 49

/-- the hypothesis of `term_short_partial` holds for it -/
example : exShort.padded.WellFormed := by
  constructor <;> first | exact .inl rfl | exact .inr rfl | (intro h; first | rfl | exact absurd h (by decide))

/-- C83 is false of the code: an IMEI of 14 characters comes back with a NUL byte at the end. -/
theorem term_short_wrong : ∃ e : SrTermIdentity, e.IMEIE = [49] ∧ e.IMEI = List.replicate 14 49 ∧ ∃ b, e.encode = .ok b ∧
    ∃ e', SrTermIdentity.decode {} b = .ok e' ∧ e'.IMEI = List.replicate 14 49 ++ [0] := by
  refine ⟨exShort, rfl, rfl, _, rfl, _, rfl, ?_⟩
  decide

/-- C83 is false of the code: one character too much in the IMEI and the fields after it are read from the wrong place. -/
theorem term_long_wrong : ∃ e : SrTermIdentity, e.IMEIE = [49] ∧ e.IMEI = List.replicate 16 49 ∧ e.BSE = [49] ∧
    e.BufferSize = 1024 ∧ ∃ b, e.encode = .ok b ∧ ∃ e', SrTermIdentity.decode {} b = .ok e' ∧ e'.BufferSize ≠ 1024 := by
  refine ⟨{ exShort with IMEI := List.replicate 16 49, BSE := [49], BufferSize := 1024 }, rfl, rfl, rfl, rfl, _, rfl, _, rfl, ?_⟩
  decide

end Egts
