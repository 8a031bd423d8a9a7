import Verif.Spec.PackageJson
import Verif.Model.PackageJson
import Verif.Props.JsonText
import Verif.Props.Time
set_option autoImplicit false
/- C105: the text `ToBytes` makes of a package is JSON and is read as its document. -/
namespace Egts
open JsonP

/-! ### the texts of the values -/

theorem writes_bool (b : Bool) : Writes (if b then asc "true" else asc "false") (.bool b) := by
  cases b
  · refine ⟨⟨102, asc "alse", rfl, by decide⟩, ?_⟩
    intro f rest _ hf
    obtain ⟨f, rfl⟩ : ∃ g, f = g + 1 := ⟨f - 1, by have : (asc "false").length = 5 := rfl; simp only [Bool.false_eq_true, if_false] at hf; omega⟩
    rw [getValue]
    have : ws ((if false = true then asc "true" else asc "false") ++ rest) = 102 :: 97 :: 108 :: 115 :: 101 :: rest := rfl
    rw [this]
    rfl
  · refine ⟨⟨116, asc "rue", rfl, by decide⟩, ?_⟩
    intro f rest _ hf
    obtain ⟨f, rfl⟩ : ∃ g, f = g + 1 := ⟨f - 1, by have : (asc "true").length = 4 := rfl; simp only [if_true] at hf; omega⟩
    rw [getValue]
    have : ws ((if true = true then asc "true" else asc "false") ++ rest) = 116 :: 114 :: 117 :: 101 :: rest := rfl
    rw [this]
    rfl

/-- a text without characters to be escaped -/
theorem writes_plain (t : Bytes) (h : ∀ c ∈ t, Plain c) : Writes ([34] ++ t ++ [34]) (.str t) where
  head := ⟨34, t ++ [34], by simp, by decide⟩
  read f rest _ hf := by
    obtain ⟨f, rfl⟩ : ∃ g, f = g + 1 := ⟨f - 1, by simp at hf; omega⟩
    have hg := getString_key t rest h
    rw [getValue]
    simp only [List.cons_append, List.nil_append, List.append_assoc]
    rw [ws_id (by decide)]
    simp only [hg]
    rfl

theorem writes_arr (l : List (Bytes × Json)) (h : ∀ p ∈ l, Writes p.1 p.2) :
    Writes ([91] ++ commaSep (l.map (·.1)) ++ [93]) (.arr (l.map (·.2))) := by
  match l, h with
  | [], _ =>
    refine ⟨⟨91, [93], rfl, by decide⟩, ?_⟩
    intro f rest _ hf
    obtain ⟨f, rfl⟩ : ∃ g, f = g + 1 := ⟨f - 1, by simp at hf; omega⟩
    rw [getValue]
    have : ws ([91] ++ commaSep (([] : List (Bytes × Json)).map (·.1)) ++ [93] ++ rest) = 91 :: 93 :: rest := rfl
    rw [this]
    simp only [ws_arr]
    rfl
  | p :: l, h =>
    have := writes_slice (·.1) (·.2) (p :: l) h
    simpa [sliceText, jslice] using this

theorem writes_obj' (l : List (Bytes × Bytes × Json)) (h : ∀ p ∈ l, (∀ c ∈ p.1, Plain c) ∧ Writes p.2.1 p.2.2) :
    Writes (objText (l.map fun p => (p.1, p.2.1))) (.obj (l.map fun p => (p.1, p.2.2))) := by
  match l, h with
  | [], _ =>
    refine ⟨⟨123, [125], rfl, by decide⟩, ?_⟩
    intro f rest _ hf
    obtain ⟨f, rfl⟩ : ∃ g, f = g + 1 := ⟨f - 1, by simp [objText, commaSep] at hf; omega⟩
    rw [getValue]
    have : ws (objText (([] : List (Bytes × Bytes × Json)).map fun p => (p.1, p.2.1)) ++ rest) = 123 :: 125 :: rest := rfl
    rw [this]
    simp only [ws_obj]
    rfl
  | p :: l, h => exact writes_obj (p :: l) (by simp) h

theorem digits_plain (w n : Nat) : ∀ c ∈ digits w n, Plain c := by
  induction w generalizing n with
  | zero => simp [digits]
  | succ w ih =>
    intro c hc
    rw [digits, List.mem_append] at hc
    rcases hc with hc | hc
    · exact ih _ c hc
    · rw [List.mem_singleton] at hc
      have : c.toNat = 48 + n % 10 := by rw [hc, UInt8.toNat_ofNat']; omega
      refine ⟨by omega, ?_, ?_⟩ <;> rintro rfl <;> simp at this <;> omega

theorem trim_mem {s : Bytes} {c : UInt8} (h : c ∈ trimZeros s) : c ∈ s := by
  unfold trimZeros at h
  rw [List.mem_reverse] at h
  exact List.mem_reverse.mp ((List.dropWhile_sublist _).subset h)

theorem frac_plain (n : Nat) : ∀ c ∈ fracText n, Plain c := by
  intro c hc
  unfold fracText at hc
  split at hc
  · simp at hc
  · rcases List.mem_cons.mp hc with rfl | hc
    · decide
    · exact digits_plain _ _ c (trim_mem hc)

theorem time_plain {ns : Int} {t : Bytes} (h : timeText ns = some t) : ∀ c ∈ t, Plain c := by
  unfold timeText at h
  rcases hc : civil (unixOf ns / 86400 + 730485).toNat with ⟨y, m, d⟩
  simp only [hc] at h
  split at h
  · obtain rfl := (Option.some.inj h).symm
    intro c hc
    simp only [List.mem_append, List.mem_singleton] at hc
    rcases hc with (((((((((((((hc | rfl) | hc) | rfl) | hc) | rfl) | hc) | rfl) | hc) | rfl) | hc) | hc) | rfl))
    all_goals first | exact digits_plain _ _ c hc | exact frac_plain _ c hc | decide
  · cases h

theorem b64Digit_val : ∀ n < 64, b64Val (b64Digit n) = some n := by decide +kernel
theorem b64Digit_plain : ∀ n < 64, Plain (b64Digit n) ∧ b64Digit n ≠ 61 := by decide +kernel

theorem base64_plain (s : Bytes) : ∀ c ∈ base64 s, Plain c := by
  have lt : ∀ a : UInt8, a.toNat < 256 := fun a => a.toNat_lt
  induction s using base64.induct with
  | case1 => simp [base64]
  | case2 a =>
    have := lt a
    intro c hc
    simp only [base64, List.mem_cons, List.not_mem_nil, or_false] at hc
    rcases hc with rfl | rfl | rfl | rfl
    · exact (b64Digit_plain _ (by omega)).1
    · exact (b64Digit_plain _ (by omega)).1
    · decide
    · decide
  | case3 a b =>
    have := lt a; have := lt b
    intro c hc
    simp only [base64, List.mem_cons, List.not_mem_nil, or_false] at hc
    rcases hc with rfl | rfl | rfl | rfl
    · exact (b64Digit_plain _ (by omega)).1
    · exact (b64Digit_plain _ (by omega)).1
    · exact (b64Digit_plain _ (by omega)).1
    · decide
  | case4 a b c s ih =>
    have := lt a; have := lt b; have := lt c
    intro x hx
    simp only [base64, List.cons_append, List.nil_append, List.mem_cons] at hx
    rcases hx with rfl | rfl | rfl | rfl | hx
    · exact (b64Digit_plain _ (by omega)).1
    · exact (b64Digit_plain _ (by omega)).1
    · exact (b64Digit_plain _ (by omega)).1
    · exact (b64Digit_plain _ (by omega)).1
    · exact ih x hx

/-- base64 can be read back -/
theorem base64_decode (s : Bytes) : decode64 (base64 s) = some s := by
  have lt : ∀ a : UInt8, a.toNat < 256 := fun a => a.toNat_lt
  have of : ∀ (a : UInt8) (n : Nat), n % 256 = a.toNat → UInt8.ofNat n = a := by
    intro a n h
    apply UInt8.toNat_inj.mp
    rw [UInt8.toNat_ofNat']
    omega
  induction s using base64.induct with
  | case1 => rfl
  | case2 a =>
    have := lt a
    simp only [base64, decode64, b64Digit_val _ (show a.toNat / 4 < 64 by omega), b64Digit_val _ (show a.toNat % 4 * 16 < 64 by omega)]
    rw [of a _ (by omega)]
  | case3 a b =>
    have := lt a; have := lt b
    have h3 := (b64Digit_plain (b.toNat % 16 * 4) (by omega)).2
    have e : ∀ x y z : UInt8, z ≠ 61 → decode64 [x, y, z, 61] = match b64Val x, b64Val y, b64Val z with
        | some x, some y, some z => some [UInt8.ofNat ((4096 * x + 64 * y + z) / 1024), UInt8.ofNat ((4096 * x + 64 * y + z) / 4)]
        | _, _, _ => none := by
      intro x y z hz
      rw [decode64]
      · rfl
      · exact hz
    simp only [base64]
    rw [e _ _ _ h3]
    simp only [b64Digit_val _ (show a.toNat / 4 < 64 by omega), b64Digit_val _ (show a.toNat % 4 * 16 + b.toNat / 16 < 64 by omega),
      b64Digit_val _ (show b.toNat % 16 * 4 < 64 by omega)]
    rw [of a _ (by omega), of b _ (by omega)]
  | case4 a b c s ih =>
    have := lt a; have := lt b; have := lt c
    have h4 := (b64Digit_plain (c.toNat % 64) (by omega)).2
    have e : ∀ (x y z w : UInt8) (r : Bytes), w ≠ 61 → decode64 (x :: y :: z :: w :: r) = match b64Val x, b64Val y, b64Val z, b64Val w, decode64 r with
        | some x, some y, some z, some w, some r =>
          some (UInt8.ofNat ((262144 * x + 4096 * y + 64 * z + w) / 65536) :: UInt8.ofNat ((262144 * x + 4096 * y + 64 * z + w) / 256) ::
            UInt8.ofNat (262144 * x + 4096 * y + 64 * z + w) :: r)
        | _, _, _, _, _ => none := by
      intro x y z w r hw
      rw [decode64]
      · rfl
      · intro _ h; exact absurd h hw
      · intro h; exact absurd h hw
    simp only [base64, List.cons_append, List.nil_append]
    rw [e _ _ _ _ _ h4, ih]
    simp only [b64Digit_val _ (show a.toNat / 4 < 64 by omega), b64Digit_val _ (show a.toNat % 4 * 16 + b.toNat / 16 < 64 by omega),
      b64Digit_val _ (show b.toNat % 16 * 4 + c.toNat / 64 < 64 by omega), b64Digit_val _ (show c.toNat % 64 < 64 by omega)]
    rw [of a _ (by omega), of b _ (by omega), of c _ (by omega)]

/-! ### instants -/

theorem trim_spec (s : Bytes) : ∃ k, s = trimZeros s ++ List.replicate k 48 := by
  unfold trimZeros
  refine ⟨(s.reverse.takeWhile (· == 48)).length, ?_⟩
  have h := congrArg List.reverse (List.takeWhile_append_dropWhile (p := (· == (48 : UInt8))) (l := s.reverse))
  rw [List.reverse_append, List.reverse_reverse] at h
  conv_lhs => rw [← h]
  congr 1
  rw [List.eq_replicate_iff]
  refine ⟨by simp, ?_⟩
  intro b hb
  have := List.all_takeWhile (p := (· == (48 : UInt8))) (l := s.reverse)
  rw [List.all_eq_true] at this
  simpa using this b (List.mem_reverse.mp hb)

theorem foldl_zeros (k n : Nat) : (List.replicate k (48 : UInt8)).foldl (fun n b => 10 * n + (b.toNat - 48)) n = n * 10 ^ k := by
  induction k generalizing n with
  | zero => simp
  | succ k ih =>
    rw [List.replicate_succ, List.foldl_cons, ih]
    simp only [show (48 : UInt8).toNat = 48 from rfl, Nat.sub_self, Nat.add_zero, Nat.pow_succ]
    ring

theorem decimal_some {s : Bytes} {n : Nat} (h : decimal s = some n) :
    s.all (fun b => 48 ≤ b.toNat && b.toNat ≤ 57) = true ∧ s.foldl (fun n b => 10 * n + (b.toNat - 48)) 0 = n := by
  unfold decimal at h
  simp only at h
  split at h
  · next h1 => exact ⟨h1, Option.some.inj h⟩
  · cases h

/-- the fraction of a second -/
theorem frac_spec (k : Nat) (h : k < 1000000000) : (fracText k = [] ∧ k = 0) ∨
    ∃ ds n, fracText k = 46 :: ds ∧ decimal ds = some n ∧ 1 ≤ ds.length ∧ ds.length ≤ 9 ∧ k = n * 10 ^ (9 - ds.length) := by
  unfold fracText
  by_cases h0 : k = 0
  · left; simp [h0]
  right
  rw [if_neg h0]
  obtain ⟨hl, hd⟩ := digits_spec 9 k (by norm_num; omega)
  obtain ⟨z, hz⟩ := trim_spec (digits 9 k)
  obtain ⟨d1, d2⟩ := decimal_some hd
  have hlen : (trimZeros (digits 9 k)).length + z = 9 := by
    have := congrArg List.length hz
    rw [List.length_append, List.length_replicate] at this
    omega
  have hall : (trimZeros (digits 9 k)).all (fun b => 48 ≤ b.toNat && b.toNat ≤ 57) = true := by
    rw [List.all_eq_true] at d1 ⊢
    exact fun x hx => d1 x (trim_mem hx)
  have hk : k = (trimZeros (digits 9 k)).foldl (fun n (b : UInt8) => 10 * n + (b.toNat - 48)) 0 * 10 ^ z := by
    have hf : (trimZeros (digits 9 k) ++ List.replicate z 48).foldl (fun n (b : UInt8) => 10 * n + (b.toNat - 48)) 0 = k := by rw [← hz]; exact d2
    rw [List.foldl_append, foldl_zeros] at hf
    exact hf.symm
  refine ⟨trimZeros (digits 9 k), (trimZeros (digits 9 k)).foldl (fun n (b : UInt8) => 10 * n + (b.toNat - 48)) 0, rfl, ?_, ?_, by omega, ?_⟩
  · unfold decimal; rw [if_pos hall]
  · by_contra hn
    have : trimZeros (digits 9 k) = [] := List.eq_nil_of_length_eq_zero (by omega)
    rw [this] at hk
    simp at hk
    exact h0 hk
  · have e : 9 - (trimZeros (digits 9 k)).length = z := by omega
    rw [e]
    exact hk

/-- every instant of the years 0 to 9999 has a text, and it denotes that instant -/
theorem time_denotes (ns : Int) (h : YearOk ns) : ∃ t, timeText ns = some t ∧ DenotesNs t (ns + 1262304000 * 1000000000) := by
  obtain ⟨h0, h1⟩ := h
  have hu : (ns + 1262304000 * 1000000000) / 1000000000 = unixOf ns := by unfold unixOf; omega
  have hr : (ns + 1262304000 * 1000000000) % 1000000000 = ns % 1000000000 := by omega
  have hu' : ns / 1000000000 = unixOf ns - 1262304000 := by unfold unixOf; omega
  unfold timeText
  generalize unixOf ns = u at *
  rcases hc : civil (u / 86400 + 730485).toNat with ⟨Y, m, d⟩
  have hday : -719528 ≤ u / 86400 ∧ u / 86400 ≤ 2932896 := by omega
  obtain ⟨c1, c2, c3, c4, c5⟩ := civil_early _ hday.1 hday.2 _ _ _ hc
  simp only [hc, if_pos hday]
  refine ⟨_, rfl, digits 4 (Y - 2000) ++ [45] ++ digits 2 m ++ [45] ++ digits 2 d ++ [84] ++ digits 2 ((u % 86400).toNat / 3600) ++ [58] ++
      digits 2 ((u % 86400).toNat / 60 % 60) ++ [58] ++ digits 2 ((u % 86400).toNat % 60), fracText (ns % 1000000000).toNat,
      (ns % 1000000000).toNat, rfl, ?_, by rw [hr]; omega, frac_spec _ (by omega)⟩
  have hm := c1.2.1
  obtain ⟨l1, p1⟩ := digits_spec 4 (Y - 2000) (by norm_num; omega)
  obtain ⟨l2, p2⟩ := digits_spec 2 m (by norm_num; omega)
  obtain ⟨l3, p3⟩ := digits_spec 2 d (by norm_num; omega)
  obtain ⟨l4, p4⟩ := digits_spec 2 ((u % 86400).toNat / 3600) (by norm_num; omega)
  obtain ⟨l5, p5⟩ := digits_spec 2 ((u % 86400).toNat / 60 % 60) (by norm_num; omega)
  obtain ⟨l6, p6⟩ := digits_spec 2 ((u % 86400).toNat % 60) (by norm_num; omega)
  refine ⟨_, m, d, _, _, _, ⟨_, _, _, _, _, _, rfl, l1, l2, l3, l4, l5, l6, p1, p2, p3, p4, p5, p6⟩, c1, by omega, by omega, by omega, ?_⟩
  rw [c2, hu]
  omega

/-- other instants have no text -/
theorem time_none (ns : Int) (h : ¬ YearOk ns) : timeText ns = none := by
  unfold timeText
  rcases hc : civil (unixOf ns / 86400 + 730485).toNat with ⟨Y, m, d⟩
  simp only
  rw [if_neg]
  unfold YearOk at h
  unfold unixOf
  omega

/-- a text denotes at most one instant -/
theorem denotesNs_unique (text : Bytes) (a b : Int) (ha : DenotesNs text a) (hb : DenotesNs text b) : a = b := by
  obtain ⟨s, f, k, e, h1, h2, h3⟩ := ha
  obtain ⟨s', f', k', e', h1', h2', h3'⟩ := hb
  have len : ∀ {s : Bytes} {x : Int}, Denotes (s ++ [90]) x → s.length = 19 := by
    rintro s x ⟨_, _, _, _, _, _, ⟨_, _, _, _, _, _, e, l1, l2, l3, l4, l5, l6, -⟩, -⟩
    have := congrArg List.length e
    simp only [List.length_append, List.length_cons, List.length_nil] at this
    omega
  rw [e, List.append_assoc, List.append_assoc] at e'
  obtain ⟨rfl, e2⟩ := List.append_inj e' ((len h1).trans (len h1').symm)
  obtain ⟨rfl, -⟩ := List.append_inj' e2 rfl
  have hs := denotes_unique _ _ _ h1 h1'
  have hk : k = k' := by
    rcases h3 with ⟨rfl, rfl⟩ | ⟨ds, n, rfl, hd, -, -, rfl⟩
    · rcases h3' with ⟨-, rfl⟩ | ⟨ds', n', hf, -⟩
      · rfl
      · cases hf
    · rcases h3' with ⟨hf, -⟩ | ⟨ds', n', hf, hd', -, -, rfl⟩
      · cases hf
      · cases hf
        rw [Option.some.inj (hd.symm.trans hd')]
  omega

/-! ### documents of Go values -/

mutual
/-- the document of a value -/
def GoVal.json (D : DocFmt) : GoVal → Json
  | .nul => .null
  | .bool b => .bool b
  | .int n => .num n
  | .flt x => .num (D.num x)
  | .f32 b => .num (D.num32 b)
  | .str s => jstr s
  | .b64 s => .str (D.bin s)
  | .time ns => .str (D.time ns)
  | .arr l => .arr (GoVal.jsons D l)
  | .obj m => .obj (GoVal.jmembers D m)
def GoVal.jsons (D : DocFmt) : List GoVal → List Json
  | [] => []
  | v :: l => GoVal.json D v :: GoVal.jsons D l
def GoVal.jmembers (D : DocFmt) : List (Bytes × GoVal) → List (Bytes × Json)
  | [] => []
  | (k, v) :: l => (k, GoVal.json D v) :: GoVal.jmembers D l
end

mutual
/-- the names of the members need no escaping -/
def GoVal.Keyed : GoVal → Prop
  | .arr l => GoVal.KeyedL l
  | .obj m => GoVal.KeyedM m
  | _ => True
def GoVal.KeyedL : List GoVal → Prop
  | [] => True
  | v :: l => GoVal.Keyed v ∧ GoVal.KeyedL l
def GoVal.KeyedM : List (Bytes × GoVal) → Prop
  | [] => True
  | (k, v) :: l => (∀ c ∈ k, Plain c) ∧ GoVal.Keyed v ∧ GoVal.KeyedM l
end

mutual
/-- the value has a text -/
def GoVal.Writable : GoVal → Prop
  | .f32 b => f32Finite b = true
  | .time ns => YearOk ns
  | .arr l => GoVal.WritableL l
  | .obj m => GoVal.WritableM m
  | _ => True
def GoVal.WritableL : List GoVal → Prop
  | [] => True
  | v :: l => GoVal.Writable v ∧ GoVal.WritableL l
def GoVal.WritableM : List (Bytes × GoVal) → Prop
  | [] => True
  | (_, v) :: l => GoVal.Writable v ∧ GoVal.WritableM l
end

/-- what is assumed of the formatting of floats: JSON numbers are written, those of `D` -/
structure FmtOk (F : PkgFmt) (D : DocFmt) : Prop where
  float : ∀ x, getNumber (F.float x) = some (D.num x, [])
  float32 : ∀ b, f32Finite b = true → getNumber (F.float32 b) = some (D.num32 b, [])
  time : ∀ ns t, timeText ns = some t → D.time ns = t
  bin : ∀ s, D.bin s = base64 s

section
variable {F : PkgFmt} {D : DocFmt} (hF : FmtOk F D)
include hF

mutual
theorem text_writes (v : GoVal) (hk : v.Keyed) (t : Bytes) (h : GoVal.text F v = some t) : Writes t (v.json D) := by
  match v with
  | .nul => simp only [GoVal.text, Option.some.injEq] at h; subst h; exact writes_null
  | .bool b => simp only [GoVal.text, Option.some.injEq] at h; subst h; exact writes_bool b
  | .int n => simp only [GoVal.text, Option.some.injEq] at h; subst h; exact writes_int n
  | .flt x => simp only [GoVal.text, Option.some.injEq] at h; subst h; exact writes_number (hF.float x)
  | .f32 b =>
    simp only [GoVal.text] at h
    split at h
    · next hb => simp only [Option.some.injEq] at h; subst h; exact writes_number (hF.float32 b hb)
    · cases h
  | .str s => simp only [GoVal.text, Option.some.injEq] at h; subst h; exact writes_string _ s
  | .b64 s =>
    simp only [GoVal.text, Option.some.injEq] at h; subst h
    simp only [GoVal.json, hF.bin]
    exact writes_plain _ (base64_plain s)
  | .time ns =>
    simp only [GoVal.text, Option.map_eq_some_iff] at h
    obtain ⟨u, hu, rfl⟩ := h
    simp only [GoVal.json, hF.time ns u hu]
    exact writes_plain _ (time_plain hu)
  | .arr l =>
    simp only [GoVal.text, Option.map_eq_some_iff] at h
    obtain ⟨ts, hts, rfl⟩ := h
    simp only [GoVal.Keyed] at hk
    obtain ⟨p, h1, h2, h3⟩ := texts_writes l hk ts hts
    simp only [GoVal.json]
    rw [h1, h2]
    exact writes_arr p h3
  | .obj m =>
    simp only [GoVal.text, Option.map_eq_some_iff] at h
    obtain ⟨ts, hts, rfl⟩ := h
    simp only [GoVal.Keyed] at hk
    obtain ⟨p, h1, h2, h3⟩ := members_writes m hk ts hts
    simp only [GoVal.json]
    rw [h1, h2]
    exact writes_obj' p h3
theorem texts_writes (l : List GoVal) (hk : GoVal.KeyedL l) (ts : List Bytes) (h : GoVal.texts F l = some ts) :
    ∃ p : List (Bytes × Json), ts = p.map (·.1) ∧ GoVal.jsons D l = p.map (·.2) ∧ ∀ x ∈ p, Writes x.1 x.2 := by
  match l with
  | [] => simp only [GoVal.texts, Option.some.injEq] at h; subst h; exact ⟨[], rfl, rfl, by simp⟩
  | v :: l =>
    simp only [GoVal.texts] at h
    split at h
    · next t ts' hv hl =>
      simp only [Option.some.injEq] at h; subst h
      simp only [GoVal.KeyedL] at hk
      obtain ⟨p, h1, h2, h3⟩ := texts_writes l hk.2 ts' hl
      refine ⟨(t, v.json D) :: p, by simp [h1], by simp [GoVal.jsons, h2], ?_⟩
      intro x hx
      rcases List.mem_cons.mp hx with rfl | hx
      · exact text_writes v hk.1 t hv
      · exact h3 x hx
    · cases h
theorem members_writes (l : List (Bytes × GoVal)) (hk : GoVal.KeyedM l) (ts : List (Bytes × Bytes)) (h : GoVal.members F l = some ts) :
    ∃ p : List (Bytes × Bytes × Json), ts = p.map (fun x => (x.1, x.2.1)) ∧ GoVal.jmembers D l = p.map (fun x => (x.1, x.2.2)) ∧
      ∀ x ∈ p, (∀ c ∈ x.1, Plain c) ∧ Writes x.2.1 x.2.2 := by
  match l with
  | [] => simp only [GoVal.members, Option.some.injEq] at h; subst h; exact ⟨[], rfl, rfl, by simp⟩
  | (k, v) :: l =>
    simp only [GoVal.members] at h
    split at h
    · next t ts' hv hl =>
      simp only [Option.some.injEq] at h; subst h
      simp only [GoVal.KeyedM] at hk
      obtain ⟨p, h1, h2, h3⟩ := members_writes l hk.2.2 ts' hl
      refine ⟨(k, t, v.json D) :: p, by simp [h1], by simp [GoVal.jmembers, h2], ?_⟩
      intro x hx
      rcases List.mem_cons.mp hx with rfl | hx
      · exact ⟨hk.1, text_writes v hk.2.1 t hv⟩
      · exact h3 x hx
    · cases h
end
end

mutual
theorem text_writable (F : PkgFmt) (v : GoVal) : (GoVal.text F v).isSome = true ↔ v.Writable := by
  match v with
  | .nul | .bool _ | .int _ | .flt _ | .str _ | .b64 _ => simp [GoVal.text, GoVal.Writable]
  | .f32 b => simp only [GoVal.text, GoVal.Writable]; split <;> simp_all
  | .time ns =>
    simp only [GoVal.text, GoVal.Writable, Option.isSome_map]
    by_cases h : YearOk ns
    · obtain ⟨t, ht, -⟩ := time_denotes ns h
      simp [ht, h]
    · simp [time_none ns h, h]
  | .arr l => simp only [GoVal.text, GoVal.Writable, Option.isSome_map]; exact texts_writable F l
  | .obj m => simp only [GoVal.text, GoVal.Writable, Option.isSome_map]; exact members_writable F m
theorem texts_writable (F : PkgFmt) (l : List GoVal) : (GoVal.texts F l).isSome = true ↔ GoVal.WritableL l := by
  match l with
  | [] => simp [GoVal.texts, GoVal.WritableL]
  | v :: l =>
    simp only [GoVal.texts, GoVal.WritableL]
    rw [← text_writable F v, ← texts_writable F l]
    cases GoVal.text F v <;> cases GoVal.texts F l <;> simp
theorem members_writable (F : PkgFmt) (l : List (Bytes × GoVal)) : (GoVal.members F l).isSome = true ↔ GoVal.WritableM l := by
  match l with
  | [] => simp [GoVal.members, GoVal.WritableM]
  | (k, v) :: l =>
    simp only [GoVal.members, GoVal.WritableM]
    rw [← text_writable F v, ← members_writable F l]
    cases GoVal.text F v <;> cases GoVal.members F l <;> simp
end

end Egts
