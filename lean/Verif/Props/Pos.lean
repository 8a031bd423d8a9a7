import Verif.Lemmas.Pos
import Verif.Lemmas.Float
import Verif.Lemmas.Wire
import Verif.Lemmas.KernelRfl
set_option autoImplicit false
/- C20-C25: position subrecord. -/
namespace Egts
open Frame

/-- 2^32 - 1, the wire value of 90 (180) degrees -/
def fullScale : ℚ := 4294967295

theorem leValue_lt (b : Bytes) : leValue b < 256 ^ b.length := by
  induction b with
  | nil => simp [leValue]
  | cons a b ih =>
    have := a.toNat_lt
    simp only [leValue, List.length_cons, Nat.pow_succ]; omega

theorem wireNat_lt (b : Bytes) (o n : Nat) : wireNat b o n < 256 ^ n :=
  (leValue_lt _).trans_le (Nat.pow_le_pow_right (by omega) (by simp))

/-- the decoder succeeds exactly on strings of at least 21 bytes that, if the altitude exists, have at
least one more byte; the result is then given by the wire offsets. -/
theorem pos_decode_iff (b : Bytes) (e : SrPosData) : SrPosData.decode {} b = .ok e ↔
    (21 ≤ b.length ∧ (hasAlt b = true → 22 ≤ b.length)) ∧ e = posOf {} b := by
  constructor
  · intro h
    by_cases h1 : 21 ≤ b.length
    · by_cases h2 : hasAlt b = true → 22 ≤ b.length
      · rw [pos_decode_ok _ _ h1 h2] at h; exact ⟨⟨h1, h2⟩, (Out.ok.inj h).symm⟩
      · have h3 : hasAlt b = true ∧ b.length = 21 := by
          constructor
          · by_contra hc; exact h2 (fun h => absurd h hc)
          · by_contra hc; exact h2 (fun _ => by omega)
        obtain ⟨q, hq⟩ := pos_decode_noalt {} b h3.2 h3.1
        rw [hq] at h; simp at h
    · obtain ⟨q, hq⟩ := pos_decode_short {} b (by omega)
      rw [hq] at h; simp at h
  · rintro ⟨⟨h1, h2⟩, rfl⟩; exact pos_decode_ok _ _ h1 h2

/-! ### C20 -/

theorem u32_ofNat_toNat {n : Nat} (h : n < 4294967296) : (UInt32.ofNat n).toNat = n := by
  rw [UInt32.toNat_ofNat']; exact Nat.mod_eq_of_lt h

/-- C20: the navigation time of every decoded position is 2010-01-01T00:00:00Z plus the 32-bit number of
seconds in its first four bytes. -/
theorem navtime_decoded (b : Bytes) (e : SrPosData) (h : SrPosData.decode {} b = .ok e) :
    e.NavigationTime = (ntm b : Int) * 1000000000 := by
  obtain ⟨-, rfl⟩ := (pos_decode_iff b e).mp h
  simp only [posOf, navTimeOfRaw]
  rw [show (UInt32.ofNat (ntm b)).toNat = ntm b from u32_ofNat_toNat (wireNat_lt b 0 4)]

theorem rawOfNavTime_sec [Platform] (n : Nat) (hn : n < 2 ^ 32) :
    rawOfNavTime ((n : Int) * 1000000000) = UInt32.ofNat n := by
  unfold rawOfNavTime satDuration
  rw [if_neg (by omega), if_neg (by omega)]
  unfold durSeconds
  have h1 : ((n : Int) * 1000000000).tdiv 1000000000 = n := by
    exact Int.mul_tdiv_cancel _ (by norm_num)
  have h2 : ((n : Int) * 1000000000).tmod 1000000000 = 0 := by
    exact Int.mul_tmod_left _ _
  rw [h1, h2, f64OfInt_nat (by omega)]
  have h3 : fdiv (f64OfInt 0) 1000000000 = 0 := by
    simp [fdiv, f64OfInt, rnd_zero]
  rw [h3]
  unfold fadd
  rw [add_zero, rnd_nat (by omega)]
  unfold f2u32
  have h4 : ratTrunc (n : ℚ) = n := by
    rw [ratTrunc_nonneg (by positivity)]; simp
  simp only [h4]
  rw [if_pos ⟨by omega, by omega⟩]
  simp

theorem pos_encode_eq [Platform] (e : SrPosData) (b : Bytes) (h : e.encode = .ok b) : ∃ fl : UInt8,
    parseFlags (e.ALTE ++ e.LOHS ++ e.LAHS ++ e.MV ++ e.BB ++ e.CS ++ e.FIX ++ e.VLD) = .ok fl ∧
    b = le32 (rawOfNavTime e.NavigationTime) ++ (le32 (rawOfLat e.Latitude) ++ (le32 (rawOfLon e.Longitude) ++
      (fl :: (le16 e.speedWord ++ ((e.Direction &&& ~~~(e.DirectionHighestBit <<< 7)) ::
      ((le32 e.Odometer).take 3 ++ (e.DigitalInputs :: e.Source ::
      (if e.ALTE == [49] then (le32 e.Altitude).take 3 else [])))))))) := by
  unfold SrPosData.encode at h
  revert h
  cases hf : parseFlags (e.ALTE ++ e.LOHS ++ e.LAHS ++ e.MV ++ e.BB ++ e.CS ++ e.FIX ++ e.VLD) with
  | ok fl => 
    intro h
    refine ⟨fl, rfl, ?_⟩
    simp only [Go.ok_bind, Go.pure_def, Go.ok.injEq] at h
    rw [← h]; simp
  | err e => intro h; simp at h
  | panic => intro h; simp at h

/-- C20: encoding the instant 2010-01-01T00:00:00Z + n seconds writes the 32-bit value n. -/
theorem navtime_encoded [Platform] (e : SrPosData) (n : Nat) (hn : n < 2 ^ 32)
    (ht : e.NavigationTime = (n : Int) * 1000000000) (b : Bytes) (h : e.encode = .ok b) :
    ntm b = n ∧ b.take 4 = leBytes 4 n := by
  obtain ⟨fl, -, rfl⟩ := pos_encode_eq e b h
  rw [ht, rawOfNavTime_sec n hn, le32_eq, u32_ofNat_toNat hn]
  refine ⟨?_, rfl⟩
  simp only [ntm, wireNat, leBytes, List.cons_append, List.nil_append, List.drop, List.take, leValue]
  simp only [u8_ofNat_toNat]
  omega

/-- the seconds of a duration of `n` seconds and `f` nanoseconds, as a float64, are not below `n`, at most `n + 1`, and below `n + 1` unless the
duration is within 500 ns of it -/
theorem durSeconds_sub (n f : Nat) (hn : n < 2 ^ 32) (hf : f < 1000000000) :
    (n : ℚ) ≤ durSeconds ((n : Int) * 1000000000 + f) ∧ durSeconds ((n : Int) * 1000000000 + f) ≤ n + 1 ∧
    (f ≤ 999999500 → durSeconds ((n : Int) * 1000000000 + f) < n + 1) := by
  unfold durSeconds
  have e0 : ((n : Int) * 1000000000 + f) = (((n * 1000000000 + f : Nat)) : Int) := by push_cast; ring
  have h1 : ((n : Int) * 1000000000 + f).tdiv 1000000000 = (n : Nat) := by
    rw [e0, Int.tdiv_eq_ediv_of_nonneg (by omega)]; omega
  have h2 : ((n : Int) * 1000000000 + f).tmod 1000000000 = (f : Nat) := by
    rw [e0, Int.tmod_eq_emod_of_nonneg (by omega)]; omega
  rw [h1, h2, f64OfInt_nat (by omega), f64OfInt_nat (by omega)]
  unfold fadd fdiv
  have hnq : (n : ℚ) ≤ 4294967295 := by exact_mod_cast (by omega : n ≤ 4294967295)
  have hfq : (f : ℚ) ≤ 1000000000 := by exact_mod_cast hf.le
  have f0 : (0 : ℚ) ≤ (f : ℚ) / 1000000000 := by positivity
  have f1 : (f : ℚ) / 1000000000 ≤ 1 := by linarith
  have g0 := rnd_nonneg f0
  have g1 : rnd ((f : ℚ) / 1000000000) ≤ 1 := by
    calc rnd ((f : ℚ) / 1000000000) ≤ rnd ((1 : Nat) : ℚ) := rnd_mono f0 (by simpa using f1)
      _ = ((1 : Nat) : ℚ) := rnd_nat (by norm_num)
      _ = 1 := by norm_num
  have n0 : (0 : ℚ) ≤ n := by positivity
  have s0 : (0 : ℚ) ≤ (n : ℚ) + rnd ((f : ℚ) / 1000000000) := by positivity
  refine ⟨?_, ?_, fun hle => ?_⟩
  · calc (n : ℚ) = rnd (n : ℚ) := (rnd_nat (by omega)).symm
      _ ≤ _ := rnd_mono n0 (by linarith)
  · calc rnd ((n : ℚ) + rnd ((f : ℚ) / 1000000000)) ≤ rnd ((n + 1 : Nat) : ℚ) := rnd_mono s0 (by push_cast; linarith)
      _ = ((n + 1 : Nat) : ℚ) := rnd_nat (by omega)
      _ = n + 1 := by push_cast; ring
  · have a := rnd_error f0
    have b := rnd_error s0
    have hle' : (f : ℚ) ≤ 999999500 := by exact_mod_cast hle
    rw [abs_le] at a b
    norm_num at a b ⊢
    linarith [a.1, a.2, b.1, b.2]

/-- C20: an instant between two seconds is written as the second before it (truncation), except that within the last 500 ns before a second the
float64 arithmetic may give that second; instants before 2^32 seconds after 2010-01-01T00:00:00Z. -/
theorem navtime_subsecond [Platform] (e : SrPosData) (n f : Nat) (hn : n < 2 ^ 32) (hf : f < 1000000000)
    (ht : e.NavigationTime = (n : Int) * 1000000000 + f) (b : Bytes) (h : e.encode = .ok b) :
    (f ≤ 999999500 → ntm b = n) ∧ (n + 1 < 2 ^ 32 → ntm b = n ∨ ntm b = n + 1) := by
  obtain ⟨fl, -, rfl⟩ := pos_encode_eq e b h
  have e1 : ∀ r : Bytes, ntm (le32 (rawOfNavTime e.NavigationTime) ++ r) = (rawOfNavTime e.NavigationTime).toNat := by
    intro r
    rw [le32_eq]
    generalize hv : rawOfNavTime e.NavigationTime = v
    have := v.toNat_lt
    simp only [ntm, wireNat, leBytes, List.cons_append, List.nil_append, List.drop, List.take, leValue]
    simp only [u8_ofNat_toNat]
    omega
  rw [e1]
  obtain ⟨d1, d2, d3⟩ := durSeconds_sub n f hn hf
  have d0 : 0 ≤ durSeconds ((n : Int) * 1000000000 + f) := le_trans (by positivity) d1
  have hr : rawOfNavTime e.NavigationTime = f2u32 (durSeconds ((n : Int) * 1000000000 + f)) := by
    unfold rawOfNavTime satDuration
    rw [ht, if_neg (by omega), if_neg (by omega)]
  rw [hr]
  have key : ∀ m : Nat, m < 2 ^ 32 → (m : ℚ) ≤ durSeconds ((n : Int) * 1000000000 + f) →
      durSeconds ((n : Int) * 1000000000 + f) < m + 1 → (f2u32 (durSeconds ((n : Int) * 1000000000 + f))).toNat = m := by
    intro m hm l1 l2
    have fl : ⌊durSeconds ((n : Int) * 1000000000 + f)⌋ = (m : Int) := by
      rw [Int.floor_eq_iff]; push_cast; exact ⟨l1, l2⟩
    unfold f2u32
    rw [ratTrunc_nonneg d0, fl]
    simp only
    rw [if_pos ⟨by omega, by omega⟩, Int.toNat_natCast, u32_ofNat_toNat (by omega)]
  refine ⟨fun hle => key n hn d1 (d3 hle), fun hn1 => ?_⟩
  rcases lt_or_eq_of_le d2 with hlt | heq
  · exact Or.inl (key n hn d1 hlt)
  · refine Or.inr (key (n + 1) hn1 (by push_cast; linarith) (by push_cast; linarith))

/-- 2010-01-01T00:00:01.5Z is written as 1 -/
example [Platform] : rawOfNavTime 1500000000 = 1 := by kernel_rfl
/-- the exception exists: 1 ns before 2^32 - 2 seconds is written as that second -/
example [Platform] : rawOfNavTime 4294967293999999999 = 4294967294 := by kernel_rfl

/-! ### C21 -/

theorem latOfRaw_eq (v : UInt32) : latOfRaw v = rnd ((v.toNat : ℚ) * 90 / 4294967295) := by
  have hv := v.toNat_lt
  unfold latOfRaw fdiv fmul
  rw [f64OfInt_nat (by omega)]
  have h : ((v.toNat : ℚ) * 90) = ((v.toNat * 90 : Nat) : ℚ) := by push_cast; ring
  have h2 : v.toNat * 90 < 2 ^ 53 := by omega
  change rnd (rnd ((v.toNat : ℚ) * 90) / 4294967295) = _
  rw [h, rnd_nat h2]

theorem lonOfRaw_eq (v : UInt32) : lonOfRaw v = rnd ((v.toNat : ℚ) * 180 / 4294967295) := by
  have hv := v.toNat_lt
  unfold lonOfRaw fdiv fmul
  rw [f64OfInt_nat (by omega)]
  have h : ((v.toNat : ℚ) * 180) = ((v.toNat * 180 : Nat) : ℚ) := by push_cast; ring
  have h2 : v.toNat * 180 < 2 ^ 53 := by omega
  change rnd (rnd ((v.toNat : ℚ) * 180) / 4294967295) = _
  rw [h, rnd_nat h2]

/-- decoded raw value `x` with full scale `K` degrees -/
theorem coord_close (x K : ℚ) (h0 : 0 ≤ x) (hx : x ≤ 4294967295) (hK0 : 0 ≤ K) :
    |rnd (x * K / 4294967295) - x * K / 4294967295| ≤ K / 2 ^ 53 := by
  refine (rnd_error (by positivity)).trans ?_
  have : x * K / 4294967295 ≤ K := by
    rw [div_le_iff₀ (by norm_num)]; nlinarith
  gcongr

theorem coord_range (x : ℚ) (K : Nat) (h0 : 0 ≤ x) (hx : x ≤ 4294967295) (hK : K < 2 ^ 53) :
    0 ≤ rnd (x * K / 4294967295) ∧ rnd (x * K / 4294967295) ≤ K := by
  refine ⟨rnd_nonneg (by positivity), ?_⟩
  have : x * K / 4294967295 ≤ K := by
    have : (0 : ℚ) ≤ K := by positivity
    rw [div_le_iff₀ (by norm_num)]; nlinarith
  calc rnd (x * K / 4294967295) ≤ rnd (K : ℚ) := rnd_mono (by positivity) this
    _ = K := rnd_nat hK

theorem u32_le_full (n : Nat) : ((UInt32.ofNat n).toNat : ℚ) ≤ 4294967295 := by
  have := (UInt32.ofNat n).toNat_lt
  have h : (UInt32.ofNat n).toNat ≤ 4294967295 := by omega
  exact_mod_cast h

/-- C21: every decoded coordinate is the wire value scaled to 90 (180) degrees, up to the rounding error of
one float64 operation, and lies in [0, 90] ([0, 180]). -/
theorem coord_decoded (b : Bytes) (e : SrPosData) (h : SrPosData.decode {} b = .ok e) :
    |e.Latitude - rawLat b * 90 / fullScale| ≤ 90 / 2 ^ 53 ∧ 0 ≤ e.Latitude ∧ e.Latitude ≤ 90 ∧
    |e.Longitude - rawLong b * 180 / fullScale| ≤ 180 / 2 ^ 53 ∧ 0 ≤ e.Longitude ∧ e.Longitude ≤ 180 := by
  obtain ⟨-, rfl⟩ := (pos_decode_iff b e).mp h
  have h1 := u32_le_full (rawLat b)
  have h2 := u32_le_full (rawLong b)
  have e1 : (UInt32.ofNat (rawLat b)).toNat = rawLat b := u32_ofNat_toNat (wireNat_lt b 4 4)
  have e2 : (UInt32.ofNat (rawLong b)).toNat = rawLong b := u32_ofNat_toNat (wireNat_lt b 8 4)
  simp only [posOf, latOfRaw_eq, lonOfRaw_eq, e1, e2, fullScale] at *
  have c1 := coord_close (rawLat b) 90 (by positivity) h1 (by norm_num)
  have c2 := coord_close (rawLong b) 180 (by positivity) h2 (by norm_num)
  have r1 := coord_range (rawLat b) 90 (by positivity) h1 (by norm_num)
  have r2 := coord_range (rawLong b) 180 (by positivity) h2 (by norm_num)
  exact ⟨c1, r1.1, r1.2, c2, r2.1, r2.2⟩

/-- C21: a larger wire value decodes to a strictly larger coordinate. -/
theorem coord_strict_mono (b b' : Bytes) (e e' : SrPosData) (h : SrPosData.decode {} b = .ok e)
    (h' : SrPosData.decode {} b' = .ok e') :
    (rawLat b < rawLat b' → e.Latitude < e'.Latitude) ∧ (rawLong b < rawLong b' → e.Longitude < e'.Longitude) := by
  obtain ⟨c1, -, -, c2, -, -⟩ := coord_decoded b e h
  obtain ⟨d1, -, -, d2, -, -⟩ := coord_decoded b' e' h'
  unfold fullScale at *
  rw [abs_le] at c1 c2 d1 d2
  constructor
  · intro hlt
    have : (rawLat b : ℚ) + 1 ≤ rawLat b' := by exact_mod_cast hlt
    norm_num at c1 d1 ⊢
    linarith [c1.1, c1.2, d1.1, d1.2]
  · intro hlt
    have : (rawLong b : ℚ) + 1 ≤ rawLong b' := by exact_mod_cast hlt
    norm_num at c2 d2 ⊢
    linarith [c2.1, c2.2, d2.1, d2.2]

/-- raw value written for a coordinate in range: below full scale, at most one unit below the exact value -/
theorem f2u32_range [Platform] (y : ℚ) (h0 : 0 ≤ y) (h1 : y ≤ 4294967295) :
    ((f2u32 y).toNat : ℚ) ≤ y ∧ y < (f2u32 y).toNat + 1 := by
  unfold f2u32
  rw [ratTrunc_nonneg h0]
  have f0 : 0 ≤ ⌊y⌋ := Int.floor_nonneg.mpr h0
  have f1 : ⌊y⌋ ≤ 4294967295 := by
    have := Int.floor_le_floor h1
    have e : ⌊(4294967295 : ℚ)⌋ = 4294967295 := by norm_num
    rw [e] at this; exact this
  simp only
  rw [if_pos ⟨f0, by omega⟩]
  obtain ⟨m, hm⟩ := Int.eq_ofNat_of_zero_le f0
  rw [hm]
  have hm2 : m < 4294967296 := by omega
  rw [Int.toNat_natCast, u32_ofNat_toNat hm2]
  have a1 := Int.floor_le y
  have a2 := Int.lt_floor_add_one y
  rw [hm] at a1 a2
  exact ⟨by exact_mod_cast a1, by exact_mod_cast a2⟩

theorem enc_close (x : ℚ) (K : Nat) (hK : 0 < K) (h0 : 0 ≤ x) (h1 : x ≤ K) :
    0 ≤ fmul (fdiv x K) 4294967295 ∧ fmul (fdiv x K) 4294967295 ≤ 4294967295 ∧
    |fmul (fdiv x K) 4294967295 - x / K * 4294967295| ≤ 4294967295 / 2 ^ 52 := by
  have hKq : (0 : ℚ) < K := by exact_mod_cast hK
  have t0 : 0 ≤ x / K := by positivity
  have t1 : x / K ≤ 1 := by rw [div_le_one hKq]; exact h1
  unfold fmul fdiv
  have r0 : 0 ≤ rnd (x / K) := rnd_nonneg t0
  have r1 : rnd (x / K) ≤ 1 := by
    calc rnd (x / K) ≤ rnd ((1 : Nat) : ℚ) := rnd_mono t0 (by simpa using t1)
      _ = ((1 : Nat) : ℚ) := rnd_nat (by norm_num)
      _ = 1 := by norm_num
  have re := rnd_error t0
  have m0 : 0 ≤ rnd (x / K) * 4294967295 := by positivity
  have m1 : rnd (x / K) * 4294967295 ≤ ((4294967295 : Nat) : ℚ) := by push_cast; linarith
  have me := rnd_error m0
  refine ⟨rnd_nonneg m0, ?_, ?_⟩
  · calc rnd (rnd (x / K) * 4294967295) ≤ rnd ((4294967295 : Nat) : ℚ) := rnd_mono m0 m1
      _ = ((4294967295 : Nat) : ℚ) := rnd_nat (by norm_num)
      _ = 4294967295 := by norm_num
  · rw [abs_le] at re me ⊢
    push_cast at m1
    norm_num at re me ⊢
    constructor <;> linarith [re.1, re.2, me.1, me.2]

theorem coord_rt [Platform] (x : ℚ) (K : Nat) (hK : 0 < K) (h0 : 0 ≤ x) (h1 : x ≤ K) :
    |rnd ((f2u32 (fmul (fdiv x K) 4294967295)).toNat * K / 4294967295) - x| ≤ K / 4294967295 + K / 2 ^ 51 := by
  obtain ⟨y0, y1, y2⟩ := enc_close x K hK h0 h1
  obtain ⟨z1, z2⟩ := f2u32_range _ y0 y1
  have hKq : (0 : ℚ) < K := by exact_mod_cast hK
  have zz : ((f2u32 (fmul (fdiv x K) 4294967295)).toNat : ℚ) ≤ 4294967295 := z1.trans y1
  have c := coord_close _ (K : ℚ) (by positivity) zz hKq.le
  generalize (fmul (fdiv x K) 4294967295 : ℚ) = y at *
  generalize ((f2u32 y).toNat : ℚ) = r at *
  rw [abs_le] at y2 c ⊢
  obtain ⟨t, rfl⟩ : ∃ t, x = t * K := ⟨x / K, by field_simp⟩
  have e : t * K / K = t := by field_simp
  rw [e] at y2
  have l1 : r - t * 4294967295 ≤ 4294967295 / 2 ^ 52 := by linarith [y2.2]
  have l2 : -1 - 4294967295 / 2 ^ 52 ≤ r - t * 4294967295 := by linarith [y2.1]
  have m1 := mul_le_mul_of_nonneg_right l1 hKq.le
  have m2 := mul_le_mul_of_nonneg_right l2 hKq.le
  norm_num at c m1 m2 ⊢
  constructor <;> linarith [c.1, c.2]

/-- flag strings of a position are one bit each -/
def SrPosData.FlagsOk (e : SrPosData) : Prop :=
  IsBit e.ALTE ∧ IsBit e.LOHS ∧ IsBit e.LAHS ∧ IsBit e.MV ∧ IsBit e.BB ∧ IsBit e.CS ∧ IsBit e.FIX ∧ IsBit e.VLD

theorem bitText_flagByte : ∀ b7 b6 b5 b4 b3 b2 b1 b0 : Bool,
    bitText (flagByte b7 b6 b5 b4 b3 b2 b1 b0) 7 = bitS b7 ∧ bitText (flagByte b7 b6 b5 b4 b3 b2 b1 b0) 6 = bitS b6 ∧
    bitText (flagByte b7 b6 b5 b4 b3 b2 b1 b0) 5 = bitS b5 ∧ bitText (flagByte b7 b6 b5 b4 b3 b2 b1 b0) 4 = bitS b4 ∧
    bitText (flagByte b7 b6 b5 b4 b3 b2 b1 b0) 3 = bitS b3 ∧ bitText (flagByte b7 b6 b5 b4 b3 b2 b1 b0) 2 = bitS b2 ∧
    bitText (flagByte b7 b6 b5 b4 b3 b2 b1 b0) 1 = bitS b1 ∧ bitText (flagByte b7 b6 b5 b4 b3 b2 b1 b0) 0 = bitS b0 ∧
    (flagByte b7 b6 b5 b4 b3 b2 b1 b0).toNat.testBit 7 = b7 := by
  decide +kernel

theorem ofNat_leValue_le32 (x : UInt32) (r : Bytes) : UInt32.ofNat (leValue ((le32 x ++ r).take 4)) = x := by
  have h : (le32 x ++ r).take 4 = le32 x := rfl
  rw [h]; have := u32_le32' x; rw [le32, u32_word] at this; exact this

/-- what decoding the encoding of a position gives, for all values of all fields -/
theorem pos_behaviour [Platform] (e : SrPosData) (hf : e.FlagsOk) : ∃ b, e.encode = .ok b ∧
    SrPosData.decode {} b = .ok { e with
      NavigationTime := navTimeOfRaw (rawOfNavTime e.NavigationTime)
      Latitude := latOfRaw (rawOfLat e.Latitude)
      Longitude := lonOfRaw (rawOfLon e.Longitude)
      DirectionHighestBit := ((e.speedWord >>> 15) &&& 1).toUInt8
      AltitudeSign := ((e.speedWord >>> 14) &&& 1).toUInt8
      Speed := UInt16.ofNat (e.speedWord.toNat % 16384) / 10
      Direction := (e.Direction &&& ~~~(e.DirectionHighestBit <<< 7)) ||| (((e.speedWord >>> 15) &&& 1).toUInt8 <<< 7)
      Odometer := UInt32.ofNat (e.Odometer.toNat % 16777216)
      Altitude := if e.ALTE = [49] then UInt32.ofNat (e.Altitude.toNat % 16777216) else 0
      SourceData := 0 } := by
  obtain ⟨nt, lat, lon, a, lo, la, mv, bb, cs, fx, vl, dh, as, sp, di, od, din, src, al, sd⟩ := e
  obtain ⟨h0, h1, h2, h3, h4, h5, h6, h7⟩ := hf
  simp only at h0 h1 h2 h3 h4 h5 h6 h7
  obtain ⟨a, rfl⟩ := isBit_iff.mp h0
  obtain ⟨lo, rfl⟩ := isBit_iff.mp h1
  obtain ⟨la, rfl⟩ := isBit_iff.mp h2
  obtain ⟨mv, rfl⟩ := isBit_iff.mp h3
  obtain ⟨bb, rfl⟩ := isBit_iff.mp h4
  obtain ⟨cs, rfl⟩ := isBit_iff.mp h5
  obtain ⟨fx, rfl⟩ := isBit_iff.mp h6
  obtain ⟨vl, rfl⟩ := isBit_iff.mp h7
  have hp : parseFlags (bitS a ++ bitS lo ++ bitS la ++ bitS mv ++ bitS bb ++ bitS cs ++ bitS fx ++ bitS vl) =
      .ok (flagByte a lo la mv bb cs fx vl) := parse_bits a lo la mv bb cs fx vl
  obtain ⟨f7, f6, f5, f4, f3, f2, f1, f0, ft⟩ := bitText_flagByte a lo la mv bb cs fx vl
  refine ⟨_, by simp only [SrPosData.encode, hp, Go.ok_bind]; rfl, ?_⟩
  generalize flagByte a lo la mv bb cs fx vl = fl at *
  generalize hw : SrPosData.speedWord _ = w
  generalize rawOfNavTime nt = n
  generalize rawOfLat lat = x
  generalize rawOfLon lon = y
  have W : UInt16.ofNat (leValue (le16 w)) = w := by
    have := u16_le16' w; rw [le16, u16_word] at this; exact this
  have W' : leValue (le16 w) = w.toNat := by
    have := w.toNat_lt
    simp only [le16, leValue, u8_ofNat_toNat]; omega
  have T : ∀ z : UInt32, leValue ((le32 z).take 3) = z.toNat % 16777216 := by
    intro z; have := z.toNat_lt
    simp only [le32, List.take, leValue, u8_ofNat_toNat]; omega
  simp only [bitS_eq_one, bitS_eq49]
  have key : ∀ tail : Bytes, (a = true → tail ≠ []) → SrPosData.decode {} (le32 n ++ le32 x ++ le32 y ++ [fl] ++ le16 w ++
      [di &&& ~~~(dh <<< 7)] ++ (le32 od).take 3 ++ [din, src] ++ tail) = .ok
      { NavigationTime := navTimeOfRaw n, Latitude := latOfRaw x, Longitude := lonOfRaw y,
        ALTE := bitS a, LOHS := bitS lo, LAHS := bitS la, MV := bitS mv, BB := bitS bb, CS := bitS cs, FIX := bitS fx, VLD := bitS vl,
        DirectionHighestBit := ((w >>> 15) &&& 1).toUInt8, AltitudeSign := ((w >>> 14) &&& 1).toUInt8,
        Speed := UInt16.ofNat (w.toNat % 16384) / 10,
        Direction := (di &&& ~~~(dh <<< 7)) ||| (((w >>> 15) &&& 1).toUInt8 <<< 7),
        Odometer := UInt32.ofNat (od.toNat % 16777216), DigitalInputs := din, Source := src,
        Altitude := if a then UInt32.ofNat (leValue (tail.take 4)) else 0 } := by
    intro tail ht
    rw [pos_decode_iff]
    have hA : hasAlt (le32 n ++ le32 x ++ le32 y ++ [fl] ++ le16 w ++
      [di &&& ~~~(dh <<< 7)] ++ (le32 od).take 3 ++ [din, src] ++ tail) = a := ft
    refine ⟨⟨by simp; omega, fun h => ?_⟩, ?_⟩
    · rw [hA] at h
      have := List.length_pos_iff.mpr (ht h)
      simp; omega
    · unfold posOf
      rw [hA]
      have e1 : UInt32.ofNat (ntm (le32 n ++ le32 x ++ le32 y ++ [fl] ++ le16 w ++
        [di &&& ~~~(dh <<< 7)] ++ (le32 od).take 3 ++ [din, src] ++ tail)) = n := ofNat_leValue_le32 n []
      have e2 : UInt32.ofNat (rawLat (le32 n ++ le32 x ++ le32 y ++ [fl] ++ le16 w ++
        [di &&& ~~~(dh <<< 7)] ++ (le32 od).take 3 ++ [din, src] ++ tail)) = x := ofNat_leValue_le32 x []
      have e3 : UInt32.ofNat (rawLong (le32 n ++ le32 x ++ le32 y ++ [fl] ++ le16 w ++
        [di &&& ~~~(dh <<< 7)] ++ (le32 od).take 3 ++ [din, src] ++ tail)) = y := ofNat_leValue_le32 y []
      have e4 : spdWord (le32 n ++ le32 x ++ le32 y ++ [fl] ++ le16 w ++
        [di &&& ~~~(dh <<< 7)] ++ (le32 od).take 3 ++ [din, src] ++ tail) = leValue (le16 w) := rfl
      have e5 : posFlags (le32 n ++ le32 x ++ le32 y ++ [fl] ++ le16 w ++
        [di &&& ~~~(dh <<< 7)] ++ (le32 od).take 3 ++ [din, src] ++ tail) = fl := rfl
      have e6 : odm (le32 n ++ le32 x ++ le32 y ++ [fl] ++ le16 w ++
        [di &&& ~~~(dh <<< 7)] ++ (le32 od).take 3 ++ [din, src] ++ tail) = leValue ((le32 od).take 3) := rfl
      have e7 : dirByte (le32 n ++ le32 x ++ le32 y ++ [fl] ++ le16 w ++
        [di &&& ~~~(dh <<< 7)] ++ (le32 od).take 3 ++ [din, src] ++ tail) = di &&& ~~~(dh <<< 7) := rfl
      rw [e1, e2, e3, e4, e5, e6, e7, W, W', T, f7, f6, f5, f4, f3, f2, f1, f0]
      rfl
  cases a with
  | false =>
    have := key [] (by simp)
    simpa using this
  | true =>
    have := key ((le32 al).take 3) (by simp [le32])
    have e : ((le32 al).take 3).take 4 = (le32 al).take 3 := rfl
    rw [e, T] at this
    simpa using this

/-- C21: coordinates in range survive Encode followed by Decode up to one wire unit plus the rounding error
of the four float64 operations. -/
theorem coord_roundtrip [Platform] (e : SrPosData) (hf : e.FlagsOk) (hlat : 0 ≤ e.Latitude ∧ e.Latitude ≤ 90)
    (hlon : 0 ≤ e.Longitude ∧ e.Longitude ≤ 180) : ∃ b e', e.encode = .ok b ∧ SrPosData.decode {} b = .ok e' ∧
    |e'.Latitude - e.Latitude| ≤ 90 / fullScale + 90 / 2 ^ 51 ∧
    |e'.Longitude - e.Longitude| ≤ 180 / fullScale + 180 / 2 ^ 51 := by
  obtain ⟨b, hb, hd⟩ := pos_behaviour e hf
  refine ⟨b, _, hb, hd, ?_, ?_⟩
  · have := coord_rt e.Latitude 90 (by norm_num) hlat.1 hlat.2
    simp only [latOfRaw_eq, rawOfLat, fullScale]
    push_cast at this
    exact this
  · have := coord_rt e.Longitude 180 (by norm_num) hlon.1 hlon.2
    simp only [lonOfRaw_eq, rawOfLon, fullScale]
    push_cast at this
    exact this

/-! ### C22 -/

theorem reencode_core [Platform] (v : UInt32) (K : Nat) (hK : 0 < K) (hK2 : K < 2 ^ 53) :
    (f2u32 (fmul (fdiv (rnd ((v.toNat : ℚ) * K / 4294967295)) K) 4294967295)).toNat = v.toNat ∨
    (f2u32 (fmul (fdiv (rnd ((v.toNat : ℚ) * K / 4294967295)) K) 4294967295)).toNat + 1 = v.toNat := by
  have hKq : (0 : ℚ) < K := by exact_mod_cast hK
  have hv : (v.toNat : ℚ) ≤ 4294967295 := by
    have := v.toNat_lt
    have h : v.toNat ≤ 4294967295 := by omega
    exact_mod_cast h
  obtain ⟨g0, g1⟩ := coord_range (v.toNat : ℚ) K (by positivity) hv hK2
  have gc := coord_close (v.toNat : ℚ) (K : ℚ) (by positivity) hv hKq.le
  obtain ⟨y0, y1, y2⟩ := enc_close _ K hK g0 g1
  obtain ⟨z1, z2⟩ := f2u32_range _ y0 y1
  generalize rnd ((v.toNat : ℚ) * K / 4294967295) = lat at *
  generalize (fmul (fdiv lat K) 4294967295 : ℚ) = y at *
  generalize (f2u32 y).toNat = r at *
  obtain ⟨t, rfl⟩ : ∃ t, lat = t * K := ⟨lat / K, by field_simp⟩
  have e : t * K / K = t := by field_simp
  rw [e] at y2
  have gc' : |t - v.toNat / 4294967295| ≤ 1 / 2 ^ 53 := by
    have e2 : t * K - (v.toNat : ℚ) * K / 4294967295 = (t - v.toNat / 4294967295) * K := by ring
    rw [e2, abs_mul, abs_of_pos hKq] at gc
    have e3 : (K : ℚ) / 2 ^ 53 = 1 / 2 ^ 53 * K := by ring
    rw [e3] at gc
    exact le_of_mul_le_mul_right gc hKq
  rw [abs_le] at y2 gc'
  norm_num at y2 gc'
  have l1 : (r : ℚ) < v.toNat + 1 := by linarith [y2.1, y2.2, gc'.1, gc'.2]
  have l2 : (v.toNat : ℚ) < r + 2 := by linarith [y2.1, y2.2, gc'.1, gc'.2]
  have l1' : r < v.toNat + 1 := by exact_mod_cast l1
  have l2' : v.toNat < r + 2 := by exact_mod_cast l2
  omega

/-- C22 (partial): re-encoding a decoded coordinate writes the same wire value or the one below; the full
property (always the same value) is false, see `coord_reencode_wrong`. -/
theorem coord_reencode_partial [Platform] (b b' : Bytes) (e : SrPosData)
    (h : SrPosData.decode {} b = .ok e) (h' : e.encode = .ok b') :
    (rawLat b' = rawLat b ∨ rawLat b' + 1 = rawLat b) ∧ (rawLong b' = rawLong b ∨ rawLong b' + 1 = rawLong b) := by
  obtain ⟨-, rfl⟩ := (pos_decode_iff b e).mp h
  obtain ⟨fl, -, rfl⟩ := pos_encode_eq _ _ h'
  have V : ∀ z : UInt32, leValue (le32 z) = z.toNat := by
    intro z; have := z.toNat_lt
    simp only [le32, leValue, u8_ofNat_toNat]; omega
  have e1 : (UInt32.ofNat (rawLat b)).toNat = rawLat b := u32_ofNat_toNat (wireNat_lt b 4 4)
  have e2 : (UInt32.ofNat (rawLong b)).toNat = rawLong b := u32_ofNat_toNat (wireNat_lt b 8 4)
  constructor
  · change leValue (le32 (rawOfLat (latOfRaw _))) = _ ∨ leValue (le32 (rawOfLat (latOfRaw _))) + 1 = _
    rw [V]
    have := reencode_core (UInt32.ofNat (rawLat b)) 90 (by norm_num) (by norm_num)
    rw [latOfRaw_eq, rawOfLat]
    push_cast at this
    rw [e1] at this ⊢
    exact this
  · change leValue (le32 (rawOfLon (lonOfRaw _))) = _ ∨ leValue (le32 (rawOfLon (lonOfRaw _))) + 1 = _
    rw [V]
    have := reencode_core (UInt32.ofNat (rawLong b)) 180 (by norm_num) (by norm_num)
    rw [lonOfRaw_eq, rawOfLon]
    push_cast at this
    rw [e2] at this ⊢
    exact this

/-- C22 is false of the code: a position with wire latitude and longitude 186415 (bytes 2F D8 02 00) decodes
successfully, and encoding the decoded position writes 186414 (2E D8 02 00) for both. -/
theorem coord_reencode_wrong [Platform] : ∃ e,
    SrPosData.decode {} [0, 0, 0, 0, 0x2F, 0xD8, 2, 0, 0x2F, 0xD8, 2, 0, 1, 0, 0, 0, 0, 0, 0, 0, 0] = .ok e ∧
    e.encode = .ok [0, 0, 0, 0, 0x2E, 0xD8, 2, 0, 0x2E, 0xD8, 2, 0, 1, 0, 0, 0, 0, 0, 0, 0, 0] :=
  ⟨posOf {} [0, 0, 0, 0, 0x2F, 0xD8, 2, 0, 0x2F, 0xD8, 2, 0, 1, 0, 0, 0, 0, 0, 0, 0, 0],
    pos_decode_ok _ _ (by decide) (by decide), by kernel_rfl⟩

/-! ### C23 -/

theorem speedWord_parts : ∀ (d s : Bool) (v : UInt16), v.toNat < 1639 →
    ((v * (10 : UInt16) ||| (d.toUInt8.toUInt16 <<< 15)) ||| (s.toUInt8.toUInt16 <<< 14)).toNat =
      v.toNat * 10 + 32768 * d.toNat + 16384 * s.toNat := by
  intro d s v hv
  have h10 : (v * (10 : UInt16)).toNat = v.toNat * 10 := by
    rw [UInt16.toNat_mul]; exact Nat.mod_eq_of_lt (by simp; omega)
  have hlt : v.toNat * 10 < 2 ^ 14 := by omega
  have a1 : ∀ d : Bool, (d.toUInt8.toUInt16 <<< 15).toNat = 2 ^ 15 * d.toNat := by decide
  have a2 : ∀ d : Bool, (d.toUInt8.toUInt16 <<< 14).toNat = 2 ^ 14 * d.toNat := by decide
  rw [UInt16.toNat_or, UInt16.toNat_or, a1, a2, h10, Nat.or_comm (v.toNat * 10), Nat.or_assoc, Nat.or_comm (v.toNat * 10),
    ← Nat.two_pow_add_eq_or_of_lt hlt, ← Nat.two_pow_add_eq_or_of_lt (by cases s <;> simp <;> omega)]
  omega

/-- a position whose fields fit the wire format -/
structure SrPosData.Fits (e : SrPosData) : Prop where
  flags : e.FlagsOk
  speed : e.Speed.toNat * 10 < 2 ^ 14
  dirh : e.DirectionHighestBit = 0 ∨ e.DirectionHighestBit = 1
  alts : e.AltitudeSign = 0 ∨ e.AltitudeSign = 1
  odometer : e.Odometer.toNat < 2 ^ 24
  altitude : e.Altitude.toNat < 2 ^ 24

theorem bit_bool {x : UInt8} (h : x = 0 ∨ x = 1) : ∃ b : Bool, x = b.toUInt8 := by
  rcases h with rfl | rfl
  · exact ⟨false, rfl⟩
  · exact ⟨true, rfl⟩

/-- C23 (partial): a position whose fields fit the wire format survives Encode and Decode in its flags, speed,
odometer, digital inputs, source, altitude sign, altitude (if marked as existing, 0 otherwise), and in its
direction unless the high course bit is set while bit 7 of Direction is clear (see `pos_direction_wrong`:
without this exception the property is false). Navigation time: C20, coordinates: C21. -/
theorem pos_roundtrip_partial [Platform] (e : SrPosData) (hf : e.Fits) : ∃ b e', e.encode = .ok b ∧
    SrPosData.decode {} b = .ok e' ∧
    e'.ALTE = e.ALTE ∧ e'.LOHS = e.LOHS ∧ e'.LAHS = e.LAHS ∧ e'.MV = e.MV ∧ e'.BB = e.BB ∧ e'.CS = e.CS ∧
    e'.FIX = e.FIX ∧ e'.VLD = e.VLD ∧ e'.DirectionHighestBit = e.DirectionHighestBit ∧
    e'.AltitudeSign = e.AltitudeSign ∧ e'.Speed = e.Speed ∧ e'.Odometer = e.Odometer ∧
    e'.DigitalInputs = e.DigitalInputs ∧ e'.Source = e.Source ∧
    e'.Altitude = (if e.ALTE = [49] then e.Altitude else 0) ∧
    (e.DirectionHighestBit = 1 → 128 ≤ e.Direction.toNat → e'.Direction = e.Direction) ∧
    (e.DirectionHighestBit = 0 → e'.Direction = e.Direction) := by
  obtain ⟨b, hb, hd⟩ := pos_behaviour e hf.flags
  obtain ⟨d, hdd⟩ := bit_bool hf.dirh
  obtain ⟨s, hs⟩ := bit_bool hf.alts
  have hw : e.speedWord.toNat = e.Speed.toNat * 10 + 32768 * d.toNat + 16384 * s.toNat := by
    unfold SrPosData.speedWord; rw [hdd, hs]
    exact speedWord_parts d s e.Speed (by have := hf.speed; omega)
  have hsp := hf.speed
  have hs16 : s.toNat ≤ 1 := by cases s <;> simp
  have hd16 : d.toNat ≤ 1 := by cases d <;> simp
  have D : ((e.speedWord >>> 15) &&& 1).toUInt8 = e.DirectionHighestBit := by
    rw [hdd]; apply UInt8.toNat_inj.mp
    have : d.toUInt8.toNat = d.toNat := by cases d <;> rfl
    rw [this]
    simp only [UInt16.toNat_toUInt8, UInt16.toNat_and, UInt16.toNat_shiftRight]
    have q : e.speedWord.toNat >>> 15 = d.toNat := by rw [Nat.shiftRight_eq_div_pow, hw]; omega
    have q' : (15 : UInt16).toNat % 16 = 15 := rfl
    rw [q', q]; cases d <;> rfl
  have S : ((e.speedWord >>> 14) &&& 1).toUInt8 = e.AltitudeSign := by
    rw [hs]; apply UInt8.toNat_inj.mp
    have : s.toUInt8.toNat = s.toNat := by cases s <;> rfl
    rw [this]
    simp only [UInt16.toNat_toUInt8, UInt16.toNat_and, UInt16.toNat_shiftRight]
    have q : e.speedWord.toNat >>> 14 = 2 * d.toNat + s.toNat := by rw [Nat.shiftRight_eq_div_pow, hw]; omega
    have q' : (14 : UInt16).toNat % 16 = 14 := rfl
    rw [q', q]; cases d <;> cases s <;> rfl
  refine ⟨b, _, hb, hd, rfl, rfl, rfl, rfl, rfl, rfl, rfl, rfl, D, S, ?_, ?_, rfl, rfl, ?_, ?_, ?_⟩
  · apply UInt16.toNat_inj.mp
    have q : e.speedWord.toNat % 16384 = e.Speed.toNat * 10 := by rw [hw]; omega
    simp only [q, UInt16.toNat_div, UInt16.toNat_ofNat']
    rw [Nat.mod_eq_of_lt (by omega)]
    exact Nat.mul_div_cancel _ (by norm_num)
  · apply UInt32.toNat_inj.mp
    have := hf.odometer
    simp; omega
  · have : UInt32.ofNat (e.Altitude.toNat % 16777216) = e.Altitude := by
      apply UInt32.toNat_inj.mp
      have := hf.altitude
      simp; omega
    simp only [this]
  · intro h1 h2
    simp only [D, h1]
    have K : ∀ n : Fin 128, (UInt8.ofNat (128 + n.val) &&& ~~~((1 : UInt8) <<< 7)) ||| ((1 : UInt8) <<< 7) =
      UInt8.ofNat (128 + n.val) := by decide +kernel
    have := K ⟨e.Direction.toNat - 128, by have := e.Direction.toNat_lt; omega⟩
    simp only [Nat.add_sub_of_le h2, UInt8.ofNat_toNat] at this
    exact this
  · intro h1
    simp only [D, h1]
    have K : ∀ n : Fin 256, (UInt8.ofNat n.val &&& ~~~((0 : UInt8) <<< 7)) ||| ((0 : UInt8) <<< 7) =
      UInt8.ofNat n.val := by decide +kernel
    simpa using K ⟨e.Direction.toNat, e.Direction.toNat_lt⟩

/-- a position with every flag 0 except VLD -/
def plainPos : SrPosData :=
  { ALTE := [48], LOHS := [48], LAHS := [48], MV := [48], BB := [48], CS := [48], FIX := [48], VLD := [49],
    NavigationTime := 0 }

theorem plainPos_flags : plainPos.FlagsOk := by
  simp [SrPosData.FlagsOk, IsBit, plainPos]

/-- C23 is false of the code for the direction: high course bit set and Direction 5 comes back as 133. -/
theorem pos_direction_wrong [Platform] : ∃ b e',
    ({ plainPos with DirectionHighestBit := 1, Direction := 5 } : SrPosData).encode = .ok b ∧
    SrPosData.decode {} b = .ok e' ∧ e'.DirectionHighestBit = 1 ∧ e'.Direction = 133 := by
  obtain ⟨b, hb, hd⟩ := pos_behaviour { plainPos with DirectionHighestBit := 1, Direction := 5 } plainPos_flags
  exact ⟨b, _, hb, hd, by kernel_rfl, by kernel_rfl⟩

/-- the hypotheses of C21 and C23 are met by a non-trivial position (test). -/
example : let e : SrPosData := { plainPos with
      ALTE := [49], Latitude := 55, Longitude := 37, Speed := 1638, DirectionHighestBit := 1, Direction := 200, Odometer := 77,
      Altitude := 300 }
    e.Fits ∧ 0 ≤ e.Latitude ∧ e.Latitude ≤ 90 ∧ 0 ≤ e.Longitude ∧ e.Longitude ≤ 180 := by
  refine ⟨⟨?_, by decide, by decide, by decide, by decide, by decide⟩, by norm_num, by norm_num, by norm_num, by norm_num⟩
  simp [SrPosData.FlagsOk, IsBit, plainPos]

/-! ### C24 -/

/-- the 9-bit course on the wire: DIRH is the most significant bit of the speed word -/
def course (b : Bytes) : Nat := 256 * (spdWord b / 32768) + (dirByte b).toNat

/-- C24 (partial): the decoded Direction is the course on the wire if DIRH is 0; if it is 1, Direction is the
low byte with bit 7 forced to 1 (so for no course of 256 or more it is the course, and bit 7 of the low byte
is lost). -/
theorem direction_decoded_partial (b : Bytes) (e : SrPosData) (h : SrPosData.decode {} b = .ok e) :
    (spdWord b < 32768 → e.Direction.toNat = course b ∧ e.DirectionHighestBit = 0) ∧
    (32768 ≤ spdWord b → e.Direction.toNat = 128 + course b % 128 ∧ e.DirectionHighestBit = 1) := by
  obtain ⟨-, rfl⟩ := (pos_decode_iff b e).mp h
  have hw : spdWord b < 65536 := wireNat_lt b 13 2
  have hw2 : (UInt16.ofNat (spdWord b)).toNat = spdWord b := by
    rw [UInt16.toNat_ofNat']; exact Nat.mod_eq_of_lt hw
  have D : ((UInt16.ofNat (spdWord b) >>> 15) &&& 1).toUInt8 = UInt8.ofNat (spdWord b / 32768) := by
    apply UInt8.toNat_inj.mp
    simp only [UInt16.toNat_toUInt8, UInt16.toNat_and, UInt16.toNat_shiftRight, hw2]
    have q' : (15 : UInt16).toNat % 16 = 15 := rfl
    have q1 : (1 : UInt16).toNat = 1 := rfl
    rw [q', q1, Nat.shiftRight_eq_div_pow, Nat.and_one_is_mod, UInt8.toNat_ofNat']
    omega
  simp only [posOf, D, course]
  constructor
  · intro h
    have : spdWord b / 32768 = 0 := by omega
    rw [this]
    have K : ∀ n : Fin 256, (UInt8.ofNat n.val ||| (UInt8.ofNat 0 <<< 7)).toNat = n.val := by decide +kernel
    have := K ⟨(dirByte b).toNat, (dirByte b).toNat_lt⟩
    simp only [UInt8.ofNat_toNat] at this
    exact ⟨by rw [this]; omega, rfl⟩
  · intro h
    have : spdWord b / 32768 = 1 := by omega
    rw [this]
    have K : ∀ n : Fin 256, (UInt8.ofNat n.val ||| (UInt8.ofNat 1 <<< 7)).toNat = 128 + n.val % 128 := by decide +kernel
    have := K ⟨(dirByte b).toNat, (dirByte b).toNat_lt⟩
    simp only [UInt8.ofNat_toNat] at this
    exact ⟨by rw [this]; omega, rfl⟩

/-- C24 is false of the code: two positions with courses 256 and 384 decode to the same value. -/
theorem direction_wrong :
    let b := fun d : UInt8 => ([0, 0, 0, 0, 0, 0, 0, 0, 0, 0, 0, 0, 1, 0, 128, d, 0, 0, 0, 0, 0] : Bytes)
    course (b 0) = 256 ∧ course (b 128) = 384 ∧ SrPosData.decode {} (b 0) = SrPosData.decode {} (b 128) ∧
    ∃ e, SrPosData.decode {} (b 0) = .ok e := by
  intro b
  refine ⟨by decide, by decide, ?_, posOf {} (b 0), pos_decode_ok _ _ (by decide) (by decide)⟩
  rw [pos_decode_ok {} (b 0) (by decide) (by decide), pos_decode_ok {} (b 128) (by decide) (by decide)]
  kernel_rfl

/-! ### C25 -/

/-- C25 (partial): if the subrecord ends with the altitude field, the decoded altitude is the 3-byte wire value. -/
theorem altitude_decoded_partial (b : Bytes) (e : SrPosData) (h : SrPosData.decode {} b = .ok e)
    (ha : hasAlt b = true) (hl : b.length ≤ 24) : e.Altitude.toNat = alt b := by
  obtain ⟨-, rfl⟩ := (pos_decode_iff b e).mp h
  simp only [posOf, ha, if_true]
  rw [u32_ofNat_toNat (wireNat_lt b 21 4)]
  unfold alt wireNat
  congr 1
  rw [List.take_of_length_le (by simp; omega), List.take_of_length_le (by simp; omega)]

/-- for a longer subrecord, the byte after the altitude is added as its most significant byte. -/
theorem altitude_behaviour (b : Bytes) (e : SrPosData) (h : SrPosData.decode {} b = .ok e)
    (ha : hasAlt b = true) (hl : 25 ≤ b.length) : e.Altitude.toNat = alt b + 16777216 * (byteAt b 24).toNat := by
  obtain ⟨-, rfl⟩ := (pos_decode_iff b e).mp h
  simp only [posOf, ha, if_true]
  rw [u32_ofNat_toNat (wireNat_lt b 21 4)]
  unfold alt wireNat byteAt
  have h24 : b.getD 24 0 = (b.drop 21).getD 3 0 := by simp
  rw [h24]
  have hr : 4 ≤ (b.drop 21).length := by simp; omega
  generalize b.drop 21 = r at *
  match r, hr with
  | a :: b :: c :: d :: r, _ => simp [leValue]; omega

/-- C25 is false of the code: SRCD (two bytes after the altitude, here 1) ends up in the altitude. -/
theorem altitude_wrong : ∃ b e, hasAlt b = true ∧ b.length = 26 ∧ SrPosData.decode {} b = .ok e ∧ alt b = 300 ∧
    e.Altitude = 16777516 :=
  ⟨[0, 0, 0, 0, 0, 0, 0, 0, 0, 0, 0, 0, 129, 0, 0, 0, 0, 0, 0, 0, 0, 44, 1, 0, 1, 0], posOf {} _,
    by decide, by decide, pos_decode_ok _ _ (by decide) (by decide), by decide, by decide⟩

end Egts
