import Verif.Props.TimeStamp
import Verif.Props.GenBytes
import Verif.Props.Main
set_option autoImplicit false
/- C111: from the command line to the server -/
namespace Egts

theorem sameLetter_iff (c d : UInt8) (hd : 97 ≤ d.toNat ∧ d.toNat ≤ 122) : lowerByte c = d ↔ SameLetter c d := by
  constructor
  · rintro rfl
    exact bytes_all (P := fun c => 97 ≤ (lowerByte c).toNat ∧ (lowerByte c).toNat ≤ 122 → SameLetter c (lowerByte c))
      (by unfold SameLetter; decide +kernel) c hd
  · rintro (rfl | h)
    · exact bytes_all (P := fun c => 97 ≤ c.toNat ∧ c.toNat ≤ 122 → lowerByte c = c) (by decide +kernel) c hd
    · have e : d = UInt8.ofNat (c.toNat + 32) := by
        rw [h]; exact UInt8.toNat_inj.mp (by simp)
      rw [e] at hd ⊢
      exact bytes_all (P := fun c => c.toNat + 32 < 256 → 97 ≤ (UInt8.ofNat (c.toNat + 32)).toNat ∧ (UInt8.ofNat (c.toNat + 32)).toNat ≤ 122 →
        lowerByte c = UInt8.ofNat (c.toNat + 32)) (by decide +kernel) c (by rw [h]; exact d.toNat_lt) hd

theorem lowerText_iff (s w : Bytes) (h : ∀ d ∈ w, 97 ≤ d.toNat ∧ d.toNat ≤ 122) : lowerText s = w ↔ List.Forall₂ SameLetter s w := by
  induction w generalizing s with
  | nil => simp [lowerText]
  | cons d w ih =>
    rw [List.forall_mem_cons] at h
    cases s with
    | nil => simp [lowerText]
    | cons c s =>
      rw [List.forall₂_cons, ← ih s h.2, ← sameLetter_iff c d h.1]
      simp [lowerText]

theorem special_iff (s : Bytes) : specialFloat s ≠ none ↔ SpecialText s := by
  have w1 : ∀ d ∈ asc "nan", 97 ≤ d.toNat ∧ d.toNat ≤ 122 := by decide
  have w2 : ∀ d ∈ asc "inf", 97 ≤ d.toNat ∧ d.toNat ≤ 122 := by decide
  have w3 : ∀ d ∈ asc "infinity", 97 ≤ d.toNat ∧ d.toNat ≤ 122 := by decide
  have e : specialFloat s ≠ none ↔ lowerText s = asc "nan" ∨ lowerText (dropSign s) = asc "inf" ∨ lowerText (dropSign s) = asc "infinity" := by
    unfold specialFloat
    by_cases h1 : lowerText s = asc "nan"
    · simp [h1]
    · rw [if_neg h1]
      by_cases h2 : lowerText (dropSign s) = asc "inf" ∨ lowerText (dropSign s) = asc "infinity"
      · simp [h2]
      · simp [h1, h2]
  rw [e]
  unfold SpecialText
  rw [lowerText_iff s _ w1]
  refine or_congr_right ?_
  constructor
  · intro h
    refine ⟨dropSign s, ?_, by rwa [← lowerText_iff _ _ w2, ← lowerText_iff _ _ w3]⟩
    rcases dropSign_cases s with ⟨h, -⟩ | h | h
    · exact .inl h.symm
    · exact .inr (.inl h)
    · exact .inr (.inr h)
  · rintro ⟨t, ht, h⟩
    rw [← lowerText_iff _ _ w2, ← lowerText_iff _ _ w3] at h
    have : dropSign s = t := by
      rcases ht with rfl | rfl | rfl
      · -- a word begins with a letter
        match s with
        | [] => rfl
        | c :: u =>
          have k : ∀ c : UInt8, lowerByte c = 105 → c ≠ 43 ∧ c ≠ 45 := bytes_all (by decide +kernel)
          have hc : lowerByte c = 105 := by rcases h with h | h <;> exact (List.cons.inj h).1
          unfold dropSign
          split
          · rename_i e; exact absurd (List.cons.inj e).1 (k c hc).1
          · rename_i e; exact absurd (List.cons.inj e).1 (k c hc).2
          · rfl
      · rfl
      · rfl
    rwa [this]

/-- the values of flags -/
theorem readable_set (n v : Bytes) : (∃ k x, genFlags.lookup n = some k ∧ k.set v = some x) → GenReadable n v := by
  rintro ⟨k, x, hk, hx⟩
  have hn : (n = asc "pid" ∨ n = asc "oid" ∨ n = asc "liquid" ∨ n = asc "timeout") ∧ k = .int ∨ (n = asc "lat" ∨ n = asc "lon") ∧ k = .float ∨
      (n = asc "time" ∨ n = asc "server") ∧ k = .str := by
    unfold genFlags at hk
    simp only [List.lookup_cons, List.lookup_nil] at hk
    repeat' (split at hk)
    all_goals (first | (cases hk; rename_i h; simp only [beq_iff_eq] at h; subst h; simp) | cases hk)
  rcases hn with ⟨hn, rfl⟩ | ⟨hn, rfl⟩ | ⟨hn, rfl⟩
  · refine .inl ⟨hn, ?_⟩
    cases hi : goParseInt v with
    | none => simp [FlagKind.set, hi] at hx
    | some i =>
      exact ⟨i.toInt, (parseInt_iff v i).mp hi, by have := i.le_toInt; simpa using this, by have := i.toInt_lt; simpa using this⟩
  · refine .inr (.inl ⟨hn, ?_⟩)
    cases hf : goParseFloat v with
    | none => simp [FlagKind.set, hf] at hx
    | some f =>
      cases hs : specialFloat v with
      | some y => exact .inr ((special_iff v).mp (by rw [hs]; simp))
      | none =>
        left
        have : ∃ y, f = .fin y := by
          unfold goParseFloat at hf
          rw [hs] at hf
          dsimp only at hf
          split at hf
          · cases hf
          · split at hf
            · cases hf
            · split at hf
              · cases hf
              · exact ⟨_, (Option.some.inj hf).symm⟩
        obtain ⟨y, rfl⟩ := this
        exact parseFloat_only v y hf
  · exact .inr (.inr hn)

variable [P : Platform]

/-- **C111.** A command line that does not consist of known flags with values that fit them: the usage is printed, and nothing is sent. -/
theorem command_refused (strict : Bool) (special : FloatArg → F64) (net : Bytes → GenNet) (args : List Bytes)
    (h : ¬ ∃ l, CommandLine args l ∧ ∀ p ∈ l, GenReadable p.1 p.2) :
    ∃ status, genCommand strict special net args = (none, .usage status) := by
  unfold genCommand
  cases hp : flagParse genFlags args with
  | help => exact ⟨0, rfl⟩
  | bad => exact ⟨2, rfl⟩
  | ok sets rest =>
    exfalso
    apply h
    obtain ⟨l, hl, hs⟩ := (flags_taken genFlags args sets).mp ⟨rest, hp⟩
    refine ⟨l, hl, ?_⟩
    clear hp hl
    induction hs with
    | nil => simp
    | cons hq _ ih =>
      rw [List.forall_mem_cons]
      obtain ⟨he, k, hk, hx⟩ := hq
      exact ⟨readable_set _ _ ⟨k, _, hk, hx⟩, ih⟩

/-- a value that is taken for certain: as `GenReadable`, numbers in range and with an exponent of at most five digits -/
def GenSure (n v : Bytes) : Prop :=
  (n = asc "pid" ∨ n = asc "oid" ∨ n = asc "liquid" ∨ n = asc "timeout") ∧ (∃ i : Int, IntText v i ∧ -2 ^ 63 ≤ i ∧ i < 2 ^ 63) ∨
  (n = asc "lat" ∨ n = asc "lon") ∧ (∃ x e, FloatText v x e ∧ e.natAbs < 100000 ∧ |x| < float64Limit) ∨
  (n = asc "time" ∨ n = asc "server")

omit P in
theorem intText_read {s : Bytes} {i : Int} (h : IntText s i) (h1 : -2 ^ 63 ≤ i) (h2 : i < 2 ^ 63) : ∃ v : Int64, goParseInt s = some v ∧ v.toInt = i := by
  have e : (Int64.ofInt i).toInt = i := Int64.toInt_ofInt_of_le (by norm_num at h1; exact h1) (by norm_num at h2; exact h2)
  exact ⟨Int64.ofInt i, (parseInt_iff s _).mpr (by rwa [e]), e⟩

omit P in
theorem sure_set (n v : Bytes) (h : GenSure n v) : ∃ k x, genFlags.lookup n = some k ∧ k.set v = some x := by
  rcases h with ⟨hn, i, hi, h1, h2⟩ | ⟨hn, x, e, hx, he, hl⟩ | hn
  · obtain ⟨w, hw, -⟩ := intText_read hi h1 h2
    refine ⟨.int, .int w, ?_, by simp [FlagKind.set, hw]⟩
    rcases hn with rfl | rfl | rfl | rfl <;> decide
  · obtain ⟨y, hy, -⟩ := parseFloat_reads v x e hx he hl
    refine ⟨.float, .float (.fin y), ?_, by simp [FlagKind.set, hy]⟩
    rcases hn with rfl | rfl <;> decide
  · refine ⟨.str, .str v, ?_, rfl⟩
    rcases hn with rfl | rfl <;> decide

omit P in
theorem sure_sets (l : List (Bytes × Bytes)) (h : ∀ p ∈ l, GenSure p.1 p.2) : ∃ sets, SetsOf genFlags l sets := by
  induction l with
  | nil => exact ⟨[], .nil⟩
  | cons p l ih =>
    rw [List.forall_mem_cons] at h
    obtain ⟨k, x, hk, hx⟩ := sure_set p.1 p.2 h.1
    obtain ⟨sets, hs⟩ := ih h.2
    exact ⟨(p.1, x) :: sets, .cons ⟨rfl, k, hk, hx⟩ hs⟩

omit P in
theorem intFlag_of {l : List (Bytes × Bytes)} {sets : List (Bytes × FlagVal)} (hs : SetsOf genFlags l sets) {n : Bytes} {i : Int}
    (hk : genFlags.lookup n = some .int) (h : IntArg l n i) (hr : -2 ^ 63 ≤ i ∧ i < 2 ^ 63) : (intFlag sets n).toInt = i := by
  unfold intFlag
  rcases h with ⟨s, hl, ht⟩ | ⟨hn, rfl⟩
  · obtain ⟨k, x, hk', hx, hlast⟩ := hs.last hl
    rw [hk] at hk'
    cases hk'
    rw [lastSet_of hlast]
    cases hi : goParseInt s with
    | none => simp [FlagKind.set, hi] at hx
    | some v =>
      simp only [FlagKind.set, hi, Option.map_some, Option.some.injEq] at hx
      subst hx
      obtain ⟨v', hv', e⟩ := intText_read ht hr.1 hr.2
      rw [hi] at hv'
      rw [Option.some.inj hv']
      exact e
  · rw [lastSet_none (hs.none hn)]
    rfl

omit P in
/-- the correctly rounded number of a number between 0 and `b`, a power of two with `b ≤ 2^k` -/
theorem rounds_range {v y : ℚ} (h : RoundsTo64 v y) (b : Nat) (hb : b < 2 ^ 53) (h0 : 0 ≤ v) (h1 : v ≤ b) : 0 ≤ y ∧ y ≤ b := by
  have z0 : IsFloat64 0 := ⟨0, 0, by norm_num, by norm_num, by norm_num, by norm_num⟩
  have zb : IsFloat64 (b : ℚ) := ⟨b, 0, by rw [abs_of_nonneg (by positivity)]; exact_mod_cast hb, by norm_num, by norm_num, by norm_num⟩
  have a := h.1.2 0 z0
  have c := h.1.2 b zb
  constructor
  · by_contra hy
    rw [not_le] at hy
    rw [abs_of_nonpos (by linarith), abs_of_nonpos (by linarith)] at a
    linarith
  · by_contra hy
    rw [not_le] at hy
    rw [abs_of_nonneg (by linarith), abs_of_nonneg (by linarith)] at c
    linarith

omit P in
theorem rounds_close {v y : ℚ} (h : RoundsTo64 v y) (k : Nat) (hk : k ≤ 52) (h0 : 0 ≤ v) (h1 : v < 2 ^ k) : |y - v| ≤ 1 / 2 ^ (52 - k) := by
  have p : (0 : ℚ) < 2 ^ (52 - k) := by positivity
  have f1 := Int.floor_le (v * 2 ^ (52 - k))
  have f2 := Int.lt_floor_add_one (v * 2 ^ (52 - k))
  have f0 : 0 ≤ ⌊v * 2 ^ (52 - k)⌋ := Int.floor_nonneg.mpr (by positivity)
  have z : IsFloat64 ((⌊v * 2 ^ (52 - k)⌋ : ℚ) * 2 ^ (-((52 - k : Nat) : ℤ))) := by
    refine ⟨_, _, ?_, by omega, by omega, rfl⟩
    rw [abs_of_nonneg f0]
    have : (⌊v * 2 ^ (52 - k)⌋ : ℚ) < 2 ^ 53 := by
      refine f1.trans_lt ?_
      calc v * 2 ^ (52 - k) < 2 ^ k * 2 ^ (52 - k) := by nlinarith
        _ = 2 ^ 52 := by rw [← pow_add, Nat.add_sub_cancel' hk]
        _ < 2 ^ 53 := by norm_num
    exact_mod_cast this
  refine (h.1.2 _ z).trans ?_
  rw [zpow_neg, zpow_natCast, ← div_eq_mul_inv, abs_sub_comm]
  rw [abs_of_nonneg (by rw [sub_nonneg, div_le_iff₀ p]; exact f1), sub_le_iff_le_add, ← add_div, le_div_iff₀ p]
  linarith

omit P in
theorem floatFlag_of {l : List (Bytes × Bytes)} {sets : List (Bytes × FlagVal)} (hs : SetsOf genFlags l sets) {n : Bytes} {v : ℚ} (special : FloatArg → F64)
    (hn : n = asc "lat" ∨ n = asc "lon") (h : RealArg l n v) (hlim : |v| < float64Limit) : RoundsTo64 v (floatFlag special sets n) := by
  have hk : genFlags.lookup n = some .float := by rcases hn with rfl | rfl <;> decide
  unfold floatFlag
  rcases h with ⟨s, e, hl, ht, he⟩ | ⟨hno, rfl⟩
  · obtain ⟨k, x, hk', hx, hlast⟩ := hs.last hl
    rw [hk] at hk'
    cases hk'
    rw [lastSet_of hlast]
    obtain ⟨y, hy, hr⟩ := parseFloat_reads s v e ht he hlim
    simp only [FlagKind.set, hy, Option.map_some, Option.some.injEq] at hx
    subst hx
    exact hr
  · rw [lastSet_none (hs.none hno)]
    exact rnd64_zero ▸ rnd64_rounds (le_refl 0) (by rw [limit_eq]; decide +kernel)

omit P in
theorem strFlag_of {l : List (Bytes × Bytes)} {sets : List (Bytes × FlagVal)} (hs : SetsOf genFlags l sets) {n s : Bytes}
    (hk : genFlags.lookup n = some .str) (h : LastValue l n s) (dflt : Bytes) : strFlag sets n dflt = s := by
  obtain ⟨k, x, hk', hx, hlast⟩ := hs.last h
  rw [hk] at hk'
  cases hk'
  unfold strFlag
  rw [lastSet_of hlast]
  cases hx
  rfl

omit P in
theorem strFlag_none {l : List (Bytes × Bytes)} {sets : List (Bytes × FlagVal)} (hs : SetsOf genFlags l sets) {n : Bytes}
    (h : NoValue l n) (dflt : Bytes) : strFlag sets n dflt = dflt := by
  unfold strFlag
  rw [lastSet_none (hs.none h)]

/-- **C111.** From the command line to the server: the values typed are those that the server saves. The arguments are flags with values, up to the
first other argument; the flag given last counts; the time stamp is in RFC 3339 format. Then packet-gen sends a packet, and from this packet the server,
however it is split into reads, saves exactly one record: with the object and packet identifiers typed, the position typed up to the resolution of
the wire format and the rounding of float64, and the liquid level typed (0 if none is). -/
theorem command_end_to_end (strict : Bool) (special : FloatArg → F64) (args : List Bytes) (l : List (Bytes × Bytes)) (hc : CommandLine args l)
    (hall : ∀ p ∈ l, GenSure p.1 p.2)
    (pid oid liquid : Int) (lat lon t : ℚ) (st : Bytes)
    (hpid : IntArg l (asc "pid") pid) (hpid' : 1 ≤ pid ∧ pid < 65536)
    (hoid : IntArg l (asc "oid") oid) (hoid' : 1 ≤ oid ∧ oid < 4294967296)
    (hliq : IntArg l (asc "liquid") liquid) (hliq' : 0 ≤ liquid ∧ liquid < 4294967296)
    (hlat : RealArg l (asc "lat") lat) (hlat' : 0 ≤ lat ∧ lat ≤ 90)
    (hlon : RealArg l (asc "lon") lon) (hlon' : 0 ≤ lon ∧ lon ≤ 180)
    (htime : LastValue l (asc "time") st) (htime' : IsStamp rfcCapital st t)
    (server : Bytes) (hserver : LastValue l (asc "server") server ∨ NoValue l (asc "server") ∧ server = asc "localhost:5555") (env : Env) :
    ∃ sent, (∀ net : Bytes → GenNet, (net server).resolves = true → (net server).dials = true → (net server).writes = true →
        (genCommand strict special net args).1 = some sent ∧ ∃ e, (genCommand strict special net args).2 = .ran e) ∧
      ∀ chunks : List Bytes, chunks.flatten = sent →
        ∃ effects r ack s, handleConn env true .silent chunks = (effects, .waiting) ∧ savesOf effects = [r] ∧ writesOf effects = [ack] ∧
          (r.ClientID.toNat : Int) = oid ∧ (r.PacketID.toNat : Int) = pid ∧ r.LocStates = [s] ∧
          |s.Latitude - lat| ≤ 90 / fullScale + 90 / 2 ^ 51 + 1 / 2 ^ 45 ∧ |s.Longitude - lon| ≤ 180 / fullScale + 180 / 2 ^ 51 + 1 / 2 ^ 44 ∧
          (∃ q, r.LiquidSensors = [q] ∧ q.SensorNumber = 1 ∧ (q.ValueMm.toNat : Int) = liquid) ∧ r.AnSensors = [] := by
  obtain ⟨sets, hs⟩ := sure_sets l hall
  obtain ⟨rest, hp⟩ := (flags_taken genFlags args sets).mpr ⟨l, hc, hs⟩
  have lim : ∀ x : ℚ, 0 ≤ x → x ≤ 180 → |x| < float64Limit := by
    intro x h0 h1
    rw [abs_of_nonneg h0]
    refine h1.trans_lt ?_
    rw [limit_eq]
    decide +kernel
  have r1 := floatFlag_of hs special (.inl rfl) hlat (lim _ hlat'.1 (by linarith [hlat'.2]))
  have r2 := floatFlag_of hs special (.inr rfl) hlon (lim _ hlon'.1 hlon'.2)
  have g1 := rounds_range r1 90 (by norm_num) hlat'.1 (by exact_mod_cast hlat'.2)
  have g2 := rounds_range r2 180 (by norm_num) hlon'.1 (by exact_mod_cast hlon'.2)
  have c1 := rounds_close r1 7 (by norm_num) hlat'.1 (by linarith [hlat'.2])
  have c2 := rounds_close r2 8 (by norm_num) hlon'.1 (by linarith [hlon'.2])
  have i1 := intFlag_of hs (n := asc "pid") (by decide) hpid (by omega)
  have i2 := intFlag_of hs (n := asc "oid") (by decide) hoid (by omega)
  have i3 := intFlag_of hs (n := asc "liquid") (by decide) hliq (by omega)
  have i4 := strFlag_of hs (n := asc "time") (by decide) htime []
  have i5 : strFlag sets (asc "server") (asc "localhost:5555") = server := by
    rcases hserver with h | ⟨h, rfl⟩
    · exact strFlag_of hs (by decide) h _
    · exact strFlag_none hs h _
  have hts : st ≠ [] := by
    rintro rfl
    have := rfc3339_taken_partial strict [] t htime'
    cases this
  have hv : (GenArgs.ofFlags special sets).Valid := {
    pid := by show _ ∧ _; rw [show (GenArgs.ofFlags special sets).pid.toInt = pid from i1]; exact hpid'
    oid := by show _ ∧ _; rw [show (GenArgs.ofFlags special sets).oid.toInt = oid from i2]; exact hoid'
    liquid := by show _ ∧ _; rw [show (GenArgs.ofFlags special sets).liquid.toInt = liquid from i3]; exact hliq'
    lat := g1
    lon := g2
    ts := by rw [show (GenArgs.ofFlags special sets).ts = st from i4]; exact hts }
  obtain ⟨sent, h1, h2⟩ := gen_end_to_end (GenArgs.ofFlags special sets) hv env
  refine ⟨sent, ?_, ?_⟩
  · intro net n1 n2 n3
    have e : genCommand strict special net args = ((genMain (GenArgs.ofFlags special sets) { net server with parsed := timeParse strict }).1,
        .ran (genMain (GenArgs.ofFlags special sets) { net server with parsed := timeParse strict }).2) := by
      unfold genCommand
      rw [hp]
      dsimp only
      rw [i5]
    rw [e]
    refine ⟨h1 _ ⟨?_, n1, n2, n3⟩, _, rfl⟩
    show (timeParse strict (GenArgs.ofFlags special sets).ts).isSome = true
    rw [show (GenArgs.ofFlags special sets).ts = st from i4, rfc3339_taken_partial strict st t htime']
    rfl
  · intro chunks hch
    obtain ⟨effects, r, ack, s, a1, a2, a3, a4, a5, a6, -, a8, a9, ⟨q, b1, b2, -, b4⟩, a11, -⟩ := h2 chunks hch
    refine ⟨effects, r, ack, s, a1, a2, a3, ?_, ?_, a6, ?_, ?_, ⟨q, b1, b2, ?_⟩, a11⟩
    · rw [a4]; exact i2
    · rw [a5]; exact i1
    · have : s.Latitude - lat = (s.Latitude - (GenArgs.ofFlags special sets).lat) + ((GenArgs.ofFlags special sets).lat - lat) := by ring
      rw [this]
      exact (abs_add_le _ _).trans (add_le_add a8 c1)
    · have : s.Longitude - lon = (s.Longitude - (GenArgs.ofFlags special sets).lon) + ((GenArgs.ofFlags special sets).lon - lon) := by ring
      rw [this]
      exact (abs_add_le _ _).trans (add_le_add a9 c2)
    · rw [b4]; exact i3

/-- the command line of the documentation -/
def docCommand : List Bytes := [asc "--pid", asc "1", asc "--oid", asc "12", asc "--time", asc "2021-12-16T09:12:00Z", asc "--lat", asc "45",
  asc "--lon", asc "60.344", asc "--server", asc "localhost:5555"]

/-- its flags -/
def docFlags : List (Bytes × Bytes) := [(asc "pid", asc "1"), (asc "oid", asc "12"), (asc "time", asc "2021-12-16T09:12:00Z"), (asc "lat", asc "45"),
  (asc "lon", asc "60.344"), (asc "server", asc "localhost:5555")]

omit P in
theorem word2 (name : Bytes) (hn : name ≠ []) (h61 : 61 ∉ name) (h45 : name.head? ≠ some 45) : FlagWord (45 :: 45 :: name) name := ⟨.inr rfl, hn, h61, h45⟩

omit P in
theorem docCommand_line : CommandLine docCommand docFlags :=
  .apart (word2 (asc "pid") (by decide) (by decide) (by decide)) <| .apart (word2 (asc "oid") (by decide) (by decide) (by decide)) <|
  .apart (word2 (asc "time") (by decide) (by decide) (by decide)) <| .apart (word2 (asc "lat") (by decide) (by decide) (by decide)) <|
  .apart (word2 (asc "lon") (by decide) (by decide) (by decide)) <| .apart (word2 (asc "server") (by decide) (by decide) (by decide)) .nil

omit P in
theorem digit10 (n : Nat) (h : n < 10) : DigitOf 10 (UInt8.ofNat (48 + n)) n := ⟨h, .inl ⟨h, by rw [UInt8.toNat_ofNat']; omega⟩⟩

omit P in
theorem int_one : IntText (asc "1") 1 := .plain (n := 1) (.dec (.one (digit10 1 (by decide))) (by decide))
omit P in
theorem int_twelve : IntText (asc "12") 12 := .plain (n := 12) (.dec (.next (.one (digit10 1 (by decide))) (digit10 2 (by decide))) (by decide))
omit P in
theorem real_45 : FloatText (asc "45") 45 0 := by
  have := FloatText.plain (.dec (.int (.next (.one (digit10 4 (by decide))) (digit10 5 (by decide)))))
  norm_num at this
  exact this
omit P in
theorem real_60 : FloatText (asc "60.344") (60344 / 1000) 0 := by
  have := FloatText.plain (.dec (.both (.next (.one (digit10 6 (by decide))) (digit10 0 (by decide)))
    (.next (.next (.one (digit10 3 (by decide))) (digit10 4 (by decide))) (digit10 4 (by decide)))))
  norm_num at this
  rw [show (60344 / 1000 : ℚ) = 7543 / 125 by norm_num]
  exact this

/-- The example of the documentation: the server saves client 12, packet 1 and the position 45, 60.344. -/
theorem command_documented (strict : Bool) (special : FloatArg → F64) (env : Env) :
    ∃ sent, (∀ net : Bytes → GenNet, (net (asc "localhost:5555")).resolves = true → (net (asc "localhost:5555")).dials = true →
        (net (asc "localhost:5555")).writes = true → (genCommand strict special net docCommand).1 = some sent) ∧
      ∀ chunks : List Bytes, chunks.flatten = sent →
        ∃ effects r ack s, handleConn env true .silent chunks = (effects, .waiting) ∧ savesOf effects = [r] ∧ writesOf effects = [ack] ∧
          r.ClientID.toNat = 12 ∧ r.PacketID.toNat = 1 ∧ r.LocStates = [s] ∧ |s.Latitude - 45| ≤ 1 / 10000000 ∧ |s.Longitude - 60344 / 1000| ≤ 1 / 10000000 := by
  have e : docFlags = [(asc "pid", asc "1"), (asc "oid", asc "12"), (asc "time", asc "2021-12-16T09:12:00Z"), (asc "lat", asc "45"),
    (asc "lon", asc "60.344"), (asc "server", asc "localhost:5555")] := rfl
  have lim : ∀ x : ℚ, 0 ≤ x → x ≤ 180 → |x| < float64Limit := by
    intro x h0 h1
    rw [abs_of_nonneg h0]
    refine h1.trans_lt ?_
    rw [limit_eq]
    decide +kernel
  have hst : IsStamp rfcCapital (asc "2021-12-16T09:12:00Z") 1639645920 := by
    refine ⟨2021, 12, 16, 9, 12, 0, 0, 0, ⟨asc "2021", asc "12", asc "16", 84, asc "09", asc "12", asc "00", [], asc "Z", by decide +kernel, ⟨rfl, by decide⟩,
      ⟨rfl, by decide⟩, ⟨rfl, by decide⟩, rfl, ⟨2, rfl, rfl, by decide⟩, ⟨rfl, by decide⟩, ⟨rfl, by decide⟩, .inl ⟨rfl, rfl⟩, .inl ⟨rfl, rfl⟩⟩, ?_, by decide, by decide,
      by decide, ?_⟩
    · unfold IsDate; decide
    · unfold stampInstant; decide +kernel
  obtain ⟨sent, h1, h2⟩ := command_end_to_end strict special docCommand docFlags docCommand_line
    (by
      rw [e]
      simp only [List.forall_mem_cons, List.not_mem_nil, false_imp_iff, implies_true, and_true]
      refine ⟨.inl ⟨.inl rfl, 1, int_one, by norm_num⟩, .inl ⟨.inr (.inl rfl), 12, int_twelve, by norm_num⟩, .inr (.inr (.inl rfl)),
        .inr (.inl ⟨.inl rfl, _, _, real_45, by decide, lim _ (by norm_num) (by norm_num)⟩),
        .inr (.inl ⟨.inr rfl, _, _, real_60, by decide, lim _ (by norm_num) (by norm_num)⟩), .inr (.inr (.inr rfl))⟩)
    1 12 0 45 (60344 / 1000) 1639645920 (asc "2021-12-16T09:12:00Z")
    (.inl ⟨_, ⟨[], _, rfl, by decide⟩, int_one⟩) (by norm_num)
    (.inl ⟨_, ⟨docFlags.take 1, _, rfl, by decide⟩, int_twelve⟩) (by norm_num)
    (.inr ⟨by unfold NoValue; decide, rfl⟩) (by norm_num)
    (.inl ⟨_, _, ⟨docFlags.take 3, _, rfl, by decide⟩, real_45, by decide⟩) (by norm_num)
    (.inl ⟨_, _, ⟨docFlags.take 4, _, rfl, by decide⟩, real_60, by decide⟩) (by norm_num)
    ⟨docFlags.take 2, _, rfl, by decide⟩ hst (asc "localhost:5555") (.inl ⟨docFlags.take 5, _, rfl, by decide⟩) env
  refine ⟨sent, fun net a b c => (h1 net a b c).1, fun chunks hch => ?_⟩
  obtain ⟨effects, r, ack, s, a1, a2, a3, a4, a5, a6, a7, a8, -⟩ := h2 chunks hch
  refine ⟨effects, r, ack, s, a1, a2, a3, by omega, by omega, a6, a7.trans ?_, a8.trans ?_⟩ <;> norm_num [fullScale]

omit P in
/-- numbers with a leading zero are octal: `-pid 010` is the packet 8, and `-pid 08` is refused -/
theorem leading_zero : goParseInt (asc "010") = some 8 ∧ goParseInt (asc "08") = none := by decide +kernel

/-! ### The receiver -/

omit P in
/-- **C111.** The receiver reads the file named last with -c; any other flag prints the usage. -/
theorem receiver_command {W : Type} (read : Bytes → Option (List (Bytes × YamlValue)))
    (order : List (Bytes × Option Params) → List (Bytes × Option Params)) (D : Drivers W) (listen : Bytes → Bool) (args : List Bytes) (w : W) :
    (∀ l path, CommandLine args l → (∀ p ∈ l, p.1 = asc "c") → (LastValue l (asc "c") path ∨ l = [] ∧ path = []) →
      receiverCommand read order D listen args w = some (receiverMain read order D listen path w)) ∧
    ((¬ ∃ l, CommandLine args l ∧ ∀ p ∈ l, p.1 = asc "c") → receiverCommand read order D listen args w = none) := by
  constructor
  · intro l path hc hall hlast
    have hs : SetsOf [(asc "c", .str)] l (l.map fun p => (p.1, .str p.2)) := by
      clear hc hlast
      induction l with
      | nil => exact .nil
      | cons p l ih =>
        rw [List.forall_mem_cons] at hall
        exact .cons ⟨rfl, .str, by rw [hall.1]; decide, rfl⟩ (ih hall.2)
    obtain ⟨rest, hp⟩ := (flags_taken _ args _).mpr ⟨l, hc, hs⟩
    unfold receiverCommand
    rw [hp]
    dsimp only
    congr 2
    unfold strFlag
    rcases hlast with h | ⟨rfl, rfl⟩
    · obtain ⟨k, x, hk, hx, hl⟩ := hs.last h
      have : k = .str := by
        have e : ([(asc "c", FlagKind.str)] : List (Bytes × FlagKind)).lookup (asc "c") = some .str := by decide
        rw [e] at hk
        exact (Option.some.inj hk).symm
      subst this
      rw [lastSet_of hl]
      cases hx
      rfl
    · rfl
  · intro hn
    unfold receiverCommand
    cases hp : flagParse [(asc "c", FlagKind.str)] args with
    | help => rfl
    | bad => rfl
    | ok sets rest =>
      exfalso
      obtain ⟨l, hl, hs⟩ := (flags_taken _ args sets).mp ⟨rest, hp⟩
      refine hn ⟨l, hl, ?_⟩
      clear hp hl
      induction hs with
      | nil => simp
      | cons hq _ ih =>
        rw [List.forall_mem_cons]
        obtain ⟨he, k, hk, hx⟩ := hq
        refine ⟨?_, ih⟩
        rw [List.lookup_cons] at hk
        split at hk
        · rename_i h; simpa using h
        · cases hk

end Egts
