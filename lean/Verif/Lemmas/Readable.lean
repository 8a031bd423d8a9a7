import Verif.Spec.Readable
import Verif.Props.SubWire
import Verif.Props.Body
import Verif.Props.Pos
set_option autoImplicit false
/- When the decoders of the subrecords succeed. -/
namespace Egts
open Frame

/-- the rest of a decoder succeeds -/
def Dec.Succ {σ : Type} (m : Dec σ Unit) (s : σ) (r : Bytes) : Prop := ∃ e r', m s r = .ok () e r'

theorem run_succ {σ : Type} {m : Dec σ Unit} {s : σ} {c : Bytes} : (∃ e, m.run s c = .ok e) ↔ m.Succ s c := by
  unfold Dec.run Dec.Succ
  cases h : m s c <;> simp

theorem succ_readByteTo {σ : Type} {set : σ → UInt8 → σ} {f : Unit → Dec σ Unit} {s : σ} {b : Bytes} {o : Nat} {R : Prop}
    (hf : o < b.length → ((f ()).Succ (set s (byteAt b o)) (b.drop (o + 1)) ↔ R)) :
    (Dec.readByteTo set >>= f).Succ s (b.drop o) ↔ o < b.length ∧ R := by
  by_cases h : o < b.length
  · unfold Dec.Succ
    rw [Dec.bind_ok (readByteTo_at set s b o h)]
    have := hf h
    unfold Dec.Succ at this
    rw [this]
    simp [h]
  · rw [List.drop_eq_nil_of_le (by omega)]
    simp only [h, false_and, iff_false]
    rintro ⟨e, r', h⟩
    obtain ⟨_, _, _, h1, -⟩ := Dec.bind_inv h
    cases h1

theorem succ_readByte {σ : Type} {f : UInt8 → Dec σ Unit} {s : σ} {b : Bytes} {o : Nat} {R : Prop}
    (hf : o < b.length → ((f (byteAt b o)).Succ s (b.drop (o + 1)) ↔ R)) :
    (Dec.readByte >>= f).Succ s (b.drop o) ↔ o < b.length ∧ R := by
  by_cases h : o < b.length
  · unfold Dec.Succ
    rw [Dec.bind_ok (readByte_at s b o h)]
    have := hf h
    unfold Dec.Succ at this
    rw [this]
    simp [h]
  · rw [List.drop_eq_nil_of_le (by omega)]
    simp only [h, false_and, iff_false]
    rintro ⟨e, r', h⟩
    obtain ⟨_, _, _, h1, -⟩ := Dec.bind_inv h
    cases h1

theorem read_some {σ : Type} (p : Bytes) (s : σ) (b : Bytes) (o n : Nat) (hp : p.length = n) (h : o < b.length) :
    ∃ a, a.length = n ∧ Dec.read p s (b.drop o) = .ok a s (b.drop (o + n)) := by
  rcases read_props p s (b.drop o) with ⟨h0, -⟩ | ⟨hne, hr⟩
  · rw [List.drop_eq_nil_iff] at h0; omega
  · rw [hr]
    refine ⟨(b.drop o).take p.length ++ p.drop (b.drop o).length, ?_, ?_⟩
    · simp; omega
    · rw [List.drop_drop, hp]

theorem read_none {σ : Type} (p : Bytes) (s : σ) (b : Bytes) (o : Nat) (h : ¬ o < b.length) : ∀ a s1 r1, Dec.read p s (b.drop o) ≠ .ok a s1 r1 := by
  intro a s1 r1 h1
  rw [List.drop_eq_nil_of_le (by omega)] at h1
  rcases read_props p s [] with ⟨-, hr⟩ | ⟨hne, hr⟩
  · rw [hr] at h1; cases h1
  · exact absurd rfl hne

theorem succ_read {σ : Type} {f : Bytes → Dec σ Unit} {s : σ} {b p : Bytes} {o n : Nat} {R : Prop} (hp : p.length = n)
    (hf : ∀ a, a.length = n → ((f a).Succ s (b.drop (o + n)) ↔ R)) :
    (Dec.read p >>= f).Succ s (b.drop o) ↔ o < b.length ∧ R := by
  by_cases h : o < b.length
  · obtain ⟨a, ha, hr⟩ := read_some p s b o n hp h
    unfold Dec.Succ
    rw [Dec.bind_ok hr]
    have := hf a ha
    unfold Dec.Succ at this
    rw [this]
    simp [h]
  · simp only [h, false_and, iff_false]
    rintro ⟨e, r', h'⟩
    obtain ⟨_, _, _, h1, -⟩ := Dec.bind_inv h'
    exact read_none p s b o h _ _ _ h1

theorem Dec.bind_assoc' {σ α β γ : Type} (m : Dec σ α) (f : α → Dec σ β) (g : β → Dec σ γ) : (m >>= f) >>= g = m >>= fun a => f a >>= g := by
  funext s r
  simp only [Dec.bind_apply]
  cases m s r <;> rfl

theorem succ_upd {σ : Type} {g : σ → σ} {f : Unit → Dec σ Unit} {s : σ} {r : Bytes} : (Dec.upd g >>= f).Succ s r ↔ (f ()).Succ (g s) r := by
  unfold Dec.Succ
  rw [Dec.bind_ok (Dec.upd_apply g s r)]

theorem succ_pure {σ α : Type} {a : α} {f : α → Dec σ Unit} {s : σ} {r : Bytes} : ((pure a : Dec σ α) >>= f).Succ s r ↔ (f a).Succ s r := by
  unfold Dec.Succ
  rw [Dec.bind_apply]
  rfl

/-- an optional field: `I` is what is known of the flags -/
theorem succ_optRead {σ τ : Type} (I : σ → Prop) (fl : UInt8) (i n : Nat) {cond : σ → Bytes} {p : Bytes} {conv : Bytes → τ} {set : σ → τ → σ}
    {f : Bytes → Dec σ Unit} {s : σ} {b : Bytes} {o : Nat} {l : List (Nat × Nat)} {R : Prop} (hI : I s) (hp : p.length = n) (hc : ∀ s, I s → cond s = bitText fl i)
    (hset : ∀ s v, I s → I (set s v))
    (hf : ∀ a s', a.length = n → I s' → ((f a).Succ s' (b.drop (o + if fl.toNat.testBit i then n else 0)) ↔
      Begin b fl (o + if fl.toNat.testBit i then n else 0) l ∧ R)) :
    (Dec.optRead cond p conv set >>= f).Succ s (b.drop o) ↔ Begin b fl o ((i, n) :: l) ∧ R := by
  have hcc : (cond s == [49]) = fl.toNat.testBit i := by rw [hc s hI, bitText_eq_one]
  unfold Dec.optRead
  rw [Dec.bind_assoc']
  unfold Dec.Succ
  rw [Dec.bind_ok (Dec.get_apply s _)]
  unfold Begin
  cases hb : fl.toNat.testBit i with
  | false =>
    rw [hb] at hcc hf
    simp only [hcc, Bool.false_eq_true, if_false, false_implies, true_and]
    exact hf p s hp hI
  | true =>
    rw [hb] at hcc hf
    simp only [hcc, if_true, true_implies]
    rw [Dec.bind_assoc', and_assoc]
    refine succ_read (R := Begin b fl (o + n) l ∧ R) hp fun a ha => ?_
    exact hf a _ ha (hset _ _ hI)

theorem succ_optByte {σ : Type} (I : σ → Prop) (fl : UInt8) (i : Nat) {cond : σ → Bytes} {set : σ → UInt8 → σ}
    {f : Unit → Dec σ Unit} {s : σ} {b : Bytes} {o : Nat} {l : List (Nat × Nat)} {R : Prop} (hI : I s) (hc : ∀ s, I s → cond s = bitText fl i)
    (hset : ∀ s v, I s → I (set s v))
    (hf : ∀ s', I s' → ((f ()).Succ s' (b.drop (o + if fl.toNat.testBit i then 1 else 0)) ↔
      Begin b fl (o + if fl.toNat.testBit i then 1 else 0) l ∧ R)) :
    (Dec.optByte cond set >>= f).Succ s (b.drop o) ↔ Begin b fl o ((i, 1) :: l) ∧ R := by
  have hcc : (cond s == [49]) = fl.toNat.testBit i := by rw [hc s hI, bitText_eq_one]
  unfold Dec.optByte
  rw [Dec.bind_assoc']
  unfold Dec.Succ
  rw [Dec.bind_ok (Dec.get_apply s _)]
  unfold Begin
  cases hb : fl.toNat.testBit i with
  | false =>
    rw [hb] at hcc hf
    simp only [hcc, Bool.false_eq_true, if_false, false_implies, true_and]
    exact hf s hI
  | true =>
    rw [hb] at hcc hf
    simp only [hcc, true_implies]
    rw [and_assoc]
    refine succ_readByteTo (R := Begin b fl (o + 1) l ∧ R) fun _ => ?_
    exact hf _ (hset _ _ hI)

/-! ### one kind after the other -/

theorem result_succ (c : Bytes) : (∃ e, SrResultCode.decode {} c = .ok e) ↔ 1 ≤ c.length := by
  cases c with
  | nil => constructor
           · rintro ⟨e, h⟩; cases h
           · intro h; simp at h
  | cons a r => exact ⟨fun _ => by simp, fun _ => ⟨_, rfl⟩⟩

theorem dispatcher_succ (c : Bytes) : (∃ e, SrDispatcherIdentity.decode {} c = .ok e) ↔ 2 ≤ c.length := by
  unfold SrDispatcherIdentity.decode
  rw [run_succ]
  unfold SrDispatcherIdentity.decodeM
  have h := succ_readByteTo (σ := SrDispatcherIdentity) (b := c) (o := 0) (R := 1 < c.length ∧ True) (s := {}) (set := fun e b => { e with DispatcherType := b })
    (f := fun _ => do
      let t ← Dec.read (zeros 4)
      Dec.upd fun e => { e with DispatcherID := u32 t }
      let r ← Dec.unread
      Dec.upd fun e => { e with Description := r })
    (fun _ => succ_read (n := 4) rfl fun a _ => by
      rw [succ_upd]
      exact iff_of_true ⟨_, _, rfl⟩ trivial)
  rw [List.drop_zero] at h
  rw [h]
  simp only [and_true]
  omega

theorem abscntr_succ (c : Bytes) : (∃ e, SrAbsCntrData.decode {} c = .ok e) ↔ 2 ≤ c.length := by
  unfold SrAbsCntrData.decode
  rw [run_succ]
  unfold SrAbsCntrData.decodeM
  rw [← List.drop_zero (l := c)]
  refine (succ_readByteTo (R := 1 < c.length ∧ True) fun _ => succ_read (n := 3) rfl fun a _ => ?_).trans (by simp only [List.drop_zero, and_true]; omega)
  exact iff_of_true ⟨_, _, rfl⟩ trivial

theorem absan_succ (c : Bytes) : (∃ e, SrAbsAnSensData.decode {} c = .ok e) ↔ 4 ≤ c.length := by
  obtain ⟨h1, h2⟩ := absan_wire c
  constructor
  · rintro ⟨e, h⟩
    by_contra hc
    rw [h2 (by omega)] at h
    cases h
  · intro h
    obtain ⟨e, he, -⟩ := h1 h
    exact ⟨e, he⟩

theorem state_succ (c : Bytes) : (∃ e, SrStateData.decode {} c = .ok e) ↔ 5 ≤ c.length := by
  unfold SrStateData.decode
  rw [run_succ]
  unfold SrStateData.decodeM
  rw [← List.drop_zero (l := c)]
  refine (succ_readByteTo (R := 1 < c.length ∧ 2 < c.length ∧ 3 < c.length ∧ 4 < c.length ∧ True) fun _ => succ_readByteTo fun _ => succ_readByteTo fun _ =>
    succ_readByteTo fun _ => succ_readByte fun _ => ?_).trans (by simp only [List.drop_zero, and_true]; omega)
  exact iff_of_true ⟨_, _, rfl⟩ trivial

theorem liquid_succ (c : Bytes) : (∃ e, SrLiquidLevelSensor.decode {} c = .ok e) ↔ 4 ≤ c.length := by
  unfold SrLiquidLevelSensor.decode
  rw [run_succ]
  unfold SrLiquidLevelSensor.decodeM
  rw [← List.drop_zero (l := c)]
  refine (succ_readByte (R := 1 < c.length ∧ 3 < c.length ∧ True) fun _ => ?_).trans (by simp only [List.drop_zero, and_true]; omega)
  generalize byteAt c 0 = fl
  rw [succ_upd]
  have hp : ∃ n, parseUint2 ((fmtBin 8 fl.toNat).drop 5) 8 = (n, none) := by
    have : ∀ k : Fin 256, (parseUint2 ((fmtBin 8 k.val).drop 5) 8).2 = none := by decide +kernel
    have h := this ⟨fl.toNat, fl.toNat_lt⟩
    exact ⟨_, Prod.ext rfl h⟩
  obtain ⟨n, hn⟩ := hp
  simp only [hn]
  rw [succ_pure, succ_upd]
  refine succ_read (n := 2) rfl fun a _ => ?_
  rw [succ_upd]
  refine succ_read (n := 4) rfl fun a _ => ?_
  exact iff_of_true ⟨_, _, rfl⟩ trivial

theorem ext_succ (c : Bytes) : (∃ e, SrExtPosData.decode {} c = .ok e) ↔ 1 ≤ c.length ∧ Begin c (byteAt c 0) 1 [(0, 2), (1, 2), (2, 2), (3, 1), (4, 2)] := by
  unfold SrExtPosData.decode
  rw [run_succ]
  unfold SrExtPosData.decodeM
  obtain ⟨f0, f1, f2, f3, f4, f5, f6, f7⟩ := fmt_text1 (byteAt c 0)
  rw [← List.drop_zero (l := c)]
  refine (succ_readByte (R := Begin c (byteAt c 0) 1 [(0, 2), (1, 2), (2, 2), (3, 1), (4, 2)] ∧ True) fun _ => ?_).trans
    (by rw [List.drop_zero, and_true]; exact Iff.rfl)
  generalize byteAt c 0 = fl at *
  rw [succ_upd]
  let I : SrExtPosData → Prop := fun e => e.VdopFieldExists = bitText fl 0 ∧ e.HdopFieldExists = bitText fl 1 ∧ e.PdopFieldExists = bitText fl 2 ∧
    e.SatellitesFieldExists = bitText fl 3 ∧ e.NavigationSystemFieldExists = bitText fl 4
  refine succ_optRead I fl 0 2 ⟨f7, f6, f5, f4, f3⟩ rfl (fun _ h => h.1) (fun _ _ h => h) fun p s hp hs => ?_
  refine succ_optRead I fl 1 2 hs hp (fun _ h => h.2.1) (fun _ _ h => h) fun p s hp hs => ?_
  refine succ_optRead I fl 2 2 hs hp (fun _ h => h.2.2.1) (fun _ _ h => h) fun p s hp hs => ?_
  refine succ_optByte I fl 3 hs (fun _ h => h.2.2.2.1) (fun _ _ h => h) fun s hs => ?_
  refine succ_optRead I fl 4 2 hs hp (fun _ h => h.2.2.2.2) (fun _ _ h => h) fun p s hp hs => ?_
  exact iff_of_true ⟨_, _, rfl⟩ ⟨trivial, trivial⟩

theorem counters_succ (c : Bytes) : (∃ e, SrCountersData.decode {} c = .ok e) ↔
    1 ≤ c.length ∧ Begin c (byteAt c 0) 1 [(0, 3), (1, 3), (2, 3), (3, 3), (4, 3), (5, 3), (6, 3), (7, 3)] := by
  unfold SrCountersData.decode
  rw [run_succ]
  unfold SrCountersData.decodeM
  obtain ⟨f0, f1, f2, f3, f4, f5, f6, f7⟩ := fmt_text1 (byteAt c 0)
  rw [← List.drop_zero (l := c)]
  refine (succ_readByte (R := Begin c (byteAt c 0) 1 [(0, 3), (1, 3), (2, 3), (3, 3), (4, 3), (5, 3), (6, 3), (7, 3)] ∧ True) fun _ => ?_).trans
    (by rw [List.drop_zero, and_true]; exact Iff.rfl)
  generalize byteAt c 0 = fl at *
  rw [succ_upd]
  let I : SrCountersData → Prop := fun e => e.CFE1 = bitText fl 0 ∧ e.CFE2 = bitText fl 1 ∧ e.CFE3 = bitText fl 2 ∧ e.CFE4 = bitText fl 3 ∧
    e.CFE5 = bitText fl 4 ∧ e.CFE6 = bitText fl 5 ∧ e.CFE7 = bitText fl 6 ∧ e.CFE8 = bitText fl 7
  refine succ_optRead I fl 0 3 ⟨f7, f6, f5, f4, f3, f2, f1, f0⟩ rfl (fun _ h => h.1) (fun _ _ h => h) fun p s hp hs => ?_
  refine succ_optRead I fl 1 3 hs hp (fun _ h => h.2.1) (fun _ _ h => h) fun p s hp hs => ?_
  refine succ_optRead I fl 2 3 hs hp (fun _ h => h.2.2.1) (fun _ _ h => h) fun p s hp hs => ?_
  refine succ_optRead I fl 3 3 hs hp (fun _ h => h.2.2.2.1) (fun _ _ h => h) fun p s hp hs => ?_
  refine succ_optRead I fl 4 3 hs hp (fun _ h => h.2.2.2.2.1) (fun _ _ h => h) fun p s hp hs => ?_
  refine succ_optRead I fl 5 3 hs hp (fun _ h => h.2.2.2.2.2.1) (fun _ _ h => h) fun p s hp hs => ?_
  refine succ_optRead I fl 6 3 hs hp (fun _ h => h.2.2.2.2.2.2.1) (fun _ _ h => h) fun p s hp hs => ?_
  refine succ_optRead I fl 7 3 hs hp (fun _ h => h.2.2.2.2.2.2.2) (fun _ _ h => h) fun p s hp hs => ?_
  exact iff_of_true ⟨_, _, rfl⟩ ⟨trivial, trivial⟩

theorem ad_succ (c : Bytes) : (∃ e, SrAdSensorsData.decode {} c = .ok e) ↔
    3 ≤ c.length ∧ Begin c (byteAt c 0) 3 [(0, 1), (1, 1), (2, 1), (3, 1), (4, 1), (5, 1), (6, 1), (7, 1)] ∧
      Begin c (byteAt c 2) (optOff (byteAt c 0) 3 [(0, 1), (1, 1), (2, 1), (3, 1), (4, 1), (5, 1), (6, 1), (7, 1)])
        [(0, 3), (1, 3), (2, 3), (3, 3), (4, 3), (5, 3), (6, 3), (7, 3)] := by
  unfold SrAdSensorsData.decode
  rw [run_succ]
  unfold SrAdSensorsData.decodeM
  obtain ⟨f0, f1, f2, f3, f4, f5, f6, f7⟩ := fmt_text1 (byteAt c 0)
  obtain ⟨g0, g1, g2, g3, g4, g5, g6, g7⟩ := fmt_text1 (byteAt c 2)
  rw [← List.drop_zero (l := c)]
  refine (succ_readByte (R := 1 < c.length ∧ 2 < c.length ∧ Begin c (byteAt c 0) 3 [(0, 1), (1, 1), (2, 1), (3, 1), (4, 1), (5, 1), (6, 1), (7, 1)] ∧
      Begin c (byteAt c 2) (optOff (byteAt c 0) 3 [(0, 1), (1, 1), (2, 1), (3, 1), (4, 1), (5, 1), (6, 1), (7, 1)])
        [(0, 3), (1, 3), (2, 3), (3, 3), (4, 3), (5, 3), (6, 3), (7, 3)] ∧ True) fun _ => ?_).trans
    (by rw [List.drop_zero, and_true, ← and_assoc, ← and_assoc]; exact and_congr (by omega) Iff.rfl)
  rw [succ_upd]
  refine succ_readByteTo fun _ => ?_
  refine succ_readByte fun _ => ?_
  rw [succ_upd]
  generalize byteAt c 0 = fl at *
  generalize byteAt c 2 = fs at *
  let I : SrAdSensorsData → Prop := fun e => (e.DIOE1 = bitText fl 0 ∧ e.DIOE2 = bitText fl 1 ∧ e.DIOE3 = bitText fl 2 ∧ e.DIOE4 = bitText fl 3 ∧
    e.DIOE5 = bitText fl 4 ∧ e.DIOE6 = bitText fl 5 ∧ e.DIOE7 = bitText fl 6 ∧ e.DIOE8 = bitText fl 7) ∧
    e.ASFE1 = bitText fs 0 ∧ e.ASFE2 = bitText fs 1 ∧ e.ASFE3 = bitText fs 2 ∧ e.ASFE4 = bitText fs 3 ∧
    e.ASFE5 = bitText fs 4 ∧ e.ASFE6 = bitText fs 5 ∧ e.ASFE7 = bitText fs 6 ∧ e.ASFE8 = bitText fs 7
  refine succ_optByte I fl 0 ⟨⟨f7, f6, f5, f4, f3, f2, f1, f0⟩, g7, g6, g5, g4, g3, g2, g1, g0⟩ (fun _ h => h.1.1) (fun _ _ h => h) fun s hs => ?_
  refine succ_optByte I fl 1 hs (fun _ h => h.1.2.1) (fun _ _ h => h) fun s hs => ?_
  refine succ_optByte I fl 2 hs (fun _ h => h.1.2.2.1) (fun _ _ h => h) fun s hs => ?_
  refine succ_optByte I fl 3 hs (fun _ h => h.1.2.2.2.1) (fun _ _ h => h) fun s hs => ?_
  refine succ_optByte I fl 4 hs (fun _ h => h.1.2.2.2.2.1) (fun _ _ h => h) fun s hs => ?_
  refine succ_optByte I fl 5 hs (fun _ h => h.1.2.2.2.2.2.1) (fun _ _ h => h) fun s hs => ?_
  refine succ_optByte I fl 6 hs (fun _ h => h.1.2.2.2.2.2.2.1) (fun _ _ h => h) fun s hs => ?_
  refine succ_optByte I fl 7 hs (fun _ h => h.1.2.2.2.2.2.2.2) (fun _ _ h => h) fun s hs => ?_
  refine Iff.trans ?_ (iff_of_eq (true_and _)).symm
  refine succ_optRead I fs 0 3 hs rfl (fun _ h => h.2.1) (fun _ _ h => h) fun p s hp hs => ?_
  refine succ_optRead I fs 1 3 hs hp (fun _ h => h.2.2.1) (fun _ _ h => h) fun p s hp hs => ?_
  refine succ_optRead I fs 2 3 hs hp (fun _ h => h.2.2.2.1) (fun _ _ h => h) fun p s hp hs => ?_
  refine succ_optRead I fs 3 3 hs hp (fun _ h => h.2.2.2.2.1) (fun _ _ h => h) fun p s hp hs => ?_
  refine succ_optRead I fs 4 3 hs hp (fun _ h => h.2.2.2.2.2.1) (fun _ _ h => h) fun p s hp hs => ?_
  refine succ_optRead I fs 5 3 hs hp (fun _ h => h.2.2.2.2.2.2.1) (fun _ _ h => h) fun p s hp hs => ?_
  refine succ_optRead I fs 6 3 hs hp (fun _ h => h.2.2.2.2.2.2.2.1) (fun _ _ h => h) fun p s hp hs => ?_
  refine succ_optRead I fs 7 3 hs hp (fun _ h => h.2.2.2.2.2.2.2.2) (fun _ _ h => h) fun p s hp hs => ?_
  exact iff_of_true ⟨_, _, rfl⟩ ⟨trivial, trivial⟩

theorem term_succ (c : Bytes) : (∃ e, SrTermIdentity.decode {} c = .ok e) ↔
    5 ≤ c.length ∧ Begin c (byteAt c 4) 5 [(0, 2), (1, 15), (2, 16), (3, 3), (5, 3), (6, 2), (7, 15)] := by
  unfold SrTermIdentity.decode
  rw [run_succ]
  unfold SrTermIdentity.decodeM
  obtain ⟨f0, f1, f2, f3, f4, f5, f6, f7⟩ := fmt_text1 (byteAt c 4)
  rw [← List.drop_zero (l := c)]
  refine (succ_read (n := 4) (R := 4 < c.length ∧ Begin c (byteAt c 4) 5 [(0, 2), (1, 15), (2, 16), (3, 3), (5, 3), (6, 2), (7, 15)] ∧ True) rfl
    fun _ _ => ?_).trans (by rw [List.drop_zero, and_true, ← and_assoc]; exact and_congr (by omega) Iff.rfl)
  rw [succ_upd]
  refine succ_readByte fun _ => ?_
  generalize byteAt c 4 = fl at *
  rw [succ_upd]
  let I : SrTermIdentity → Prop := fun e => e.HDIDE = bitText fl 0 ∧ e.IMEIE = bitText fl 1 ∧ e.IMSIE = bitText fl 2 ∧ e.LNGCE = bitText fl 3 ∧
    e.NIDE = bitText fl 5 ∧ e.BSE = bitText fl 6 ∧ e.MNE = bitText fl 7
  refine succ_optRead I fl 0 2 ⟨f7, f6, f5, f4, f2, f1, f0⟩ rfl (fun _ h => h.1) (fun _ _ h => h) fun p s hp hs => ?_
  refine succ_optRead I fl 1 15 hs rfl (fun _ h => h.2.1) (fun _ _ h => h) fun p s hp hs => ?_
  refine succ_optRead I fl 2 16 hs rfl (fun _ h => h.2.2.1) (fun _ _ h => h) fun p s hp hs => ?_
  refine succ_optRead I fl 3 3 hs rfl (fun _ h => h.2.2.2.1) (fun _ _ h => h) fun p s hp hs => ?_
  refine succ_optRead I fl 5 3 hs rfl (fun _ h => h.2.2.2.2.1) (fun _ _ h => h) fun p s hp hs => ?_
  refine succ_optRead I fl 6 2 hs rfl (fun _ h => h.2.2.2.2.2.1) (fun _ _ h => h) fun p s hp hs => ?_
  refine succ_optRead I fl 7 15 hs rfl (fun _ h => h.2.2.2.2.2.2) (fun _ _ h => h) fun p s hp hs => ?_
  exact iff_of_true ⟨_, _, rfl⟩ ⟨trivial, trivial⟩

theorem pos_succ (c : Bytes) : (∃ e, SrPosData.decode {} c = .ok e) ↔ 21 ≤ c.length ∧ ((byteAt c 12).toNat.testBit 7 = true → 22 ≤ c.length) := by
  simp only [pos_decode_iff, exists_and_left]
  constructor
  · rintro ⟨h, -⟩; exact h
  · intro h; exact ⟨h, _, rfl⟩

theorem auth_succ (c : Bytes) : (∃ e, SrAuthInfo.decode {} c = .ok e) ↔
    ∃ u p : Bytes, (0 : UInt8) ∉ u ∧ (0 : UInt8) ∉ p ∧ (c = u ++ [0] ++ p ++ [0] ∨
      ∃ s rest : Bytes, (0 : UInt8) ∉ s ∧ c = u ++ [0] ++ p ++ [0] ++ s ++ [0] ++ rest) := by
  constructor
  · rintro ⟨e, h⟩
    obtain ⟨hu, hp, ⟨hc, -⟩ | ⟨hs, rest, hc⟩⟩ := (auth_wire c e).1 h
    · exact ⟨_, _, hu, hp, .inl (by rw [hc]; simp)⟩
    · exact ⟨_, _, hu, hp, .inr ⟨_, rest, hs, by rw [hc]; simp⟩⟩
  · rintro ⟨u, p, hu, hp, hc | ⟨s, rest, hs, hc⟩⟩
    · exact ⟨⟨u, p, []⟩, (auth_wire _ _).2 ⟨hu, hp, .inl ⟨by rw [hc]; simp, rfl⟩⟩⟩
    · exact ⟨⟨u, p, s⟩, (auth_wire _ _).2 ⟨hu, hp, .inr ⟨hs, rest, by rw [hc]; simp⟩⟩⟩

end Egts
