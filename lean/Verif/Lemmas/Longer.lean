import Verif.Spec.Longer
import Verif.Lemmas.Count
import Verif.Lemmas.Pos
import Verif.Model.SrIdentity
set_option autoImplicit false
/- A decoder that finds all the bytes it announces does not look at what comes after them. -/
namespace Egts
open Frame
section
variable {σ α β : Type}

/-- from states with `E`, the successful decoder reaches `F`, and does the same if there are more unread bytes at the end -/
def Ext (E : σ → Bytes → Prop) (F : α → σ → Bytes → Prop) (m : Dec σ α) : Prop :=
  ∀ s r, E s r → ∀ a s' r', m s r = .ok a s' r' → F a s' r' ∧ ∀ x, m s (r ++ x) = .ok a s' (r' ++ x)

theorem Ext.bind {E : σ → Bytes → Prop} (F : α → σ → Bytes → Prop) {G : β → σ → Bytes → Prop} {m : Dec σ α} {k : α → Dec σ β}
    (h : Ext E F m) (hk : ∀ a, Ext (F a) G (k a)) : Ext E G (m >>= k) := by
  intro s r he b s' r' hm
  rw [Dec.bind_apply] at hm
  cases h1 : m s r with
  | ok a s1 r1 =>
    rw [h1] at hm
    obtain ⟨h2, h3⟩ := h s r he a s1 r1 h1
    obtain ⟨h4, h5⟩ := hk a s1 r1 h2 b s' r' hm
    exact ⟨h4, fun x => by rw [Dec.bind_ok (h3 x), h5 x]⟩
  | err e s1 => rw [h1] at hm; cases hm
  | panic => rw [h1] at hm; cases hm
  | diverge => rw [h1] at hm; cases hm

theorem Ext.weaken {E E' : σ → Bytes → Prop} {F : α → σ → Bytes → Prop} {m : Dec σ α} (h : Ext E F m)
    (he : ∀ s r, E' s r → E s r) : Ext E' F m := fun s r hs => h s r (he s r hs)

theorem Ext.pure {E : σ → Bytes → Prop} {F : α → σ → Bytes → Prop} {a : α} (h : ∀ s r, E s r → F a s r) : Ext E F (pure a : Dec σ α) := by
  intro s r he b s' r' hm
  cases hm
  exact ⟨h s r he, fun _ => rfl⟩

theorem Ext.fail {E : σ → Bytes → Prop} {F : α → σ → Bytes → Prop} {x : Err} : Ext E F (Dec.fail x : Dec σ α) := by
  intro s r he b s' r' hm
  cases hm

theorem Ext.upd {E : σ → Bytes → Prop} {F : Unit → σ → Bytes → Prop} {f : σ → σ} (h : ∀ s r, E s r → F () (f s) r) : Ext E F (Dec.upd f) := by
  intro s r he b s' r' hm
  cases hm
  exact ⟨h s r he, fun _ => rfl⟩

theorem Ext.readByte {E : σ → Bytes → Prop} {F : UInt8 → σ → Bytes → Prop} (h : ∀ s b r, E s (b :: r) → F b s r) : Ext E F (Dec.readByte : Dec σ UInt8) := by
  intro s r he b s' r' hm
  cases r with
  | nil => cases hm
  | cons a r => cases hm; exact ⟨h _ _ _ he, fun _ => rfl⟩

theorem Ext.readByteTo {E : σ → Bytes → Prop} {F : Unit → σ → Bytes → Prop} {f : σ → UInt8 → σ} (h : ∀ s b r, E s (b :: r) → F () (f s b) r) :
    Ext E F (Dec.readByteTo f) := by
  intro s r he b s' r' hm
  cases r with
  | nil => cases hm
  | cons a r => cases hm; exact ⟨h _ _ _ he, fun _ => rfl⟩

theorem Ext.read {E : σ → Bytes → Prop} {F : Bytes → σ → Bytes → Prop} {p : Bytes} (h0 : ∀ s r, E s r → p.length ≤ r.length)
    (h : ∀ s a r, a.length = p.length → E s (a ++ r) → F a s r) : Ext E F (Dec.read p : Dec σ Bytes) := by
  intro s r he b s' r' hm
  cases r with
  | nil => cases hm
  | cons a r =>
    have hl := h0 _ _ he
    cases hm
    have h1 : p.drop (a :: r).length = [] := List.drop_eq_nil_of_le hl
    refine ⟨?_, fun x => ?_⟩
    · rw [h1, List.append_nil]
      exact h _ _ _ (List.length_take_of_le hl) (by rw [List.take_append_drop]; exact he)
    · have h2 : p.drop ((r ++ x).length + 1) = [] := List.drop_eq_nil_of_le (by simp at hl ⊢; omega)
      show Dec.read p s (a :: (r ++ x)) = _
      rw [Dec.read_cons, h2]
      show _ = Res.ok (List.take p.length (a :: r) ++ List.drop (a :: r).length p) s (List.drop p.length (a :: r) ++ x)
      rw [h1]
      rw [show a :: (r ++ x) = (a :: r) ++ x from rfl, List.take_append_of_le_length hl, List.drop_append_of_le_length hl]

/-- the bytes that the fields announced by the flags in `s` still need -/
def need : List ((σ → Bytes) × Nat) → σ → Nat
  | [], _ => 0
  | (c, k) :: l, s => (if c s = [49] then k else 0) + need l s

theorem Ext.optRead {τ : Type} {k : Nat} {l : List ((σ → Bytes) × Nat)} {cond : σ → Bytes} {p : Bytes} {conv : Bytes → τ} {set : σ → τ → σ}
    (hs : ∀ s v, need l (set s v) = need l s) :
    Ext (fun s r => p.length = k ∧ need ((cond, k) :: l) s ≤ r.length) (fun a s r => a.length = k ∧ need l s ≤ r.length) (Dec.optRead cond p conv set) := by
  intro s r he a s' r' hm
  obtain ⟨hp, he⟩ := he
  unfold Dec.optRead at hm ⊢
  simp only [Dec.bind_apply, Dec.get] at hm ⊢
  by_cases h : cond s = [49]
  · simp only [h, beq_self_eq_true, if_true] at hm ⊢
    simp only [need, h, if_true] at he
    have key : Ext (fun s r => k + need l s ≤ r.length) (fun a s r => a.length = k ∧ need l s ≤ r.length) (Dec.read p >>= fun t => do
        Dec.upd fun e => set e (conv t)
        Pure.pure t) := by
      refine Ext.bind (fun a s r => a.length = k ∧ need l s ≤ r.length) (.read (fun s r h => by omega)
        (fun s a r ha h => ⟨by omega, by simp at h; omega⟩)) (fun a => ?_)
      refine Ext.bind (fun _ s r => a.length = k ∧ need l s ≤ r.length) (.upd fun s r h => ?_) fun _ => .pure fun s r h => h
      rw [hs]; exact h
    exact key s r he a s' r' hm
  · have hb : (cond s == [49]) = false := by simpa using h
    simp only [hb, Bool.false_eq_true, if_false] at hm ⊢
    simp only [need, h, if_false, Nat.zero_add] at he
    exact (Ext.pure (E := fun s r => need l s ≤ r.length) (F := fun a s r => a.length = k ∧ need l s ≤ r.length) fun s r h => ⟨hp, h⟩) s r he a s' r' hm

theorem Ext.optByte {q : Prop} {l : List ((σ → Bytes) × Nat)} {cond : σ → Bytes} {set : σ → UInt8 → σ} (hs : ∀ s v, need l (set s v) = need l s) :
    Ext (fun s r => q ∧ need ((cond, 1) :: l) s ≤ r.length) (fun _ s r => q ∧ need l s ≤ r.length) (Dec.optByte cond set) := by
  intro s r he a s' r' hm
  obtain ⟨hq, he⟩ := he
  unfold Dec.optByte at hm ⊢
  simp only [Dec.bind_apply, Dec.get, Dec.when] at hm ⊢
  by_cases h : cond s = [49]
  · simp only [h, beq_self_eq_true, if_true] at hm ⊢
    simp only [need, h, if_true] at he
    refine Ext.readByteTo (E := fun s r => 1 + need l s ≤ r.length) (F := fun _ s r => q ∧ need l s ≤ r.length) (fun s b r h => ⟨hq, ?_⟩) s r he a s' r' hm
    rw [hs]
    simp at h
    omega
  · have hb : (cond s == [49]) = false := by simpa using h
    simp only [hb, Bool.false_eq_true, if_false] at hm ⊢
    simp only [need, h, if_false, Nat.zero_add] at he
    exact (Ext.pure (E := fun s r => need l s ≤ r.length) (F := fun _ s r => q ∧ need l s ≤ r.length) fun s r h => ⟨hq, h⟩) s r he a s' r' hm

theorem Ext.run {E : σ → Bytes → Prop} {F : Unit → σ → Bytes → Prop} {m : Dec σ Unit} (h : Ext E F m) {s d : σ} {c : Bytes} (he : E s c)
    (hd : m.run s c = .ok d) (x : Bytes) : m.run s (c ++ x) = .ok d := by
  unfold Dec.run at hd ⊢
  cases hm : m s c with
  | ok a s' r' =>
    rw [hm] at hd
    rw [(h s c he a s' r' hm).2 x]
    exact hd
  | err e s1 => rw [hm] at hd; cases hd
  | panic => rw [hm] at hd; cases hd
  | diverge => rw [hm] at hd; cases hd

end

theorem bitText_iff (b : UInt8) (i : Nat) : bitText b i = [49] ↔ b.toNat.testBit i = true := by
  unfold bitText; cases b.toNat.testBit i <;> simp

/-! ### the decoders -/

theorem state_ext : Ext (fun _ _ => True) (fun _ _ _ => True) SrStateData.decodeM := by
  unfold SrStateData.decodeM
  refine .bind (fun _ _ _ => True) (.readByteTo fun _ _ _ _ => trivial) fun _ => ?_
  refine .bind (fun _ _ _ => True) (.readByteTo fun _ _ _ _ => trivial) fun _ => ?_
  refine .bind (fun _ _ _ => True) (.readByteTo fun _ _ _ _ => trivial) fun _ => ?_
  refine .bind (fun _ _ _ => True) (.readByteTo fun _ _ _ _ => trivial) fun _ => ?_
  refine .bind (fun _ _ _ => True) (.readByte fun _ _ _ _ => trivial) fun _ => ?_
  exact .upd fun _ _ _ => trivial

theorem abscntr_ext : Ext (fun _ r => 4 ≤ r.length) (fun _ _ _ => True) SrAbsCntrData.decodeM := by
  unfold SrAbsCntrData.decodeM
  refine .bind (fun _ _ r => 3 ≤ r.length) (.readByteTo fun _ _ _ h => by simpa using h) fun _ => ?_
  refine .bind (fun _ _ _ => True) (.read (fun _ _ h => h) fun _ _ _ _ _ => trivial) fun _ => ?_
  exact .upd fun _ _ _ => trivial

theorem liquid_ext : Ext (fun _ r => 7 ≤ r.length) (fun _ _ _ => True) SrLiquidLevelSensor.decodeM := by
  unfold SrLiquidLevelSensor.decodeM
  refine .bind (fun _ _ r => 6 ≤ r.length) (.readByte fun _ _ _ h => by simpa using h) fun fl => ?_
  refine .bind (fun _ _ r => 6 ≤ r.length) (.upd fun _ _ h => h) fun _ => ?_
  refine .bind (fun _ _ r => 6 ≤ r.length) ?_ fun _ => ?_
  · split
    · exact .pure fun _ _ h => h
    · exact .fail
  refine .bind (fun _ _ r => 6 ≤ r.length) (.upd fun _ _ h => h) fun _ => ?_
  refine .bind (fun _ _ r => 4 ≤ r.length) (.read (fun _ _ h => by simp [zeros]; omega) fun _ _ _ ha h => by simp [zeros] at ha h; omega) fun _ => ?_
  refine .bind (fun _ _ r => 4 ≤ r.length) (.upd fun _ _ h => h) fun _ => ?_
  refine .bind (fun _ _ _ => True) (.read (fun _ _ h => h) fun _ _ _ _ _ => trivial) fun _ => ?_
  exact .upd fun _ _ _ => trivial

theorem resultcode_ext : Ext (fun _ _ => True) (fun _ _ _ => True) (Dec.readByteTo fun (e : SrResultCode) b => { e with ResultCode := b }) :=
  .readByteTo fun _ _ _ _ => trivial

theorem extpos_ext : Ext (fun _ r => optOff (byteAt r 0) 1 [(0, 2), (1, 2), (2, 2), (3, 1), (4, 2)] ≤ r.length) (fun _ _ _ => True) SrExtPosData.decodeM := by
  unfold SrExtPosData.decodeM
  refine .bind (fun b _ r => optOff b 1 [(0, 2), (1, 2), (2, 2), (3, 1), (4, 2)] ≤ r.length + 1) (.readByte fun _ _ _ h => h) fun b => ?_
  obtain ⟨f0, f1, f2, f3, f4, f5, f6, f7⟩ := fmt_text1 b
  refine .bind (fun _ s r => (zeros 2).length = 2 ∧ need [(SrExtPosData.VdopFieldExists, 2), (SrExtPosData.HdopFieldExists, 2), (SrExtPosData.PdopFieldExists, 2),
    (SrExtPosData.SatellitesFieldExists, 1), (SrExtPosData.NavigationSystemFieldExists, 2)] s ≤ r.length) (.upd fun s r h => ⟨rfl, ?_⟩) fun _ => ?_
  · simp only [need, f3, f4, f5, f6, f7, bitText_iff]
    simp only [optOff, List.foldl] at h
    omega
  refine .bind _ (.optRead fun _ _ => rfl) fun _ => ?_
  refine .bind _ (.optRead fun _ _ => rfl) fun _ => ?_
  refine .bind _ (.optRead fun _ _ => rfl) fun _ => ?_
  refine .bind _ (.optByte fun _ _ => rfl) fun _ => ?_
  refine .bind _ (.optRead fun _ _ => rfl) fun _ => ?_
  exact .pure fun _ _ _ => trivial

theorem counters_ext : Ext (fun _ r => optOff (byteAt r 0) 1 [(0, 3), (1, 3), (2, 3), (3, 3), (4, 3), (5, 3), (6, 3), (7, 3)] ≤ r.length) (fun _ _ _ => True) SrCountersData.decodeM := by
  unfold SrCountersData.decodeM
  refine .bind (fun b _ r => optOff b 1 [(0, 3), (1, 3), (2, 3), (3, 3), (4, 3), (5, 3), (6, 3), (7, 3)] ≤ r.length + 1) (.readByte fun _ _ _ h => h) fun b => ?_
  obtain ⟨f0, f1, f2, f3, f4, f5, f6, f7⟩ := fmt_text1 b
  refine .bind (fun _ s r => (zeros 3).length = 3 ∧ need [(SrCountersData.CFE1, 3), (SrCountersData.CFE2, 3), (SrCountersData.CFE3, 3), (SrCountersData.CFE4, 3), (SrCountersData.CFE5, 3), (SrCountersData.CFE6, 3), (SrCountersData.CFE7, 3), (SrCountersData.CFE8, 3)] s ≤ r.length) (.upd fun s r h => ⟨rfl, ?_⟩) fun _ => ?_
  · simp only [need, f0, f1, f2, f3, f4, f5, f6, f7, bitText_iff]
    simp only [optOff, List.foldl] at h
    omega
  refine .bind _ (.optRead fun _ _ => rfl) fun _ => ?_
  refine .bind _ (.optRead fun _ _ => rfl) fun _ => ?_
  refine .bind _ (.optRead fun _ _ => rfl) fun _ => ?_
  refine .bind _ (.optRead fun _ _ => rfl) fun _ => ?_
  refine .bind _ (.optRead fun _ _ => rfl) fun _ => ?_
  refine .bind _ (.optRead fun _ _ => rfl) fun _ => ?_
  refine .bind _ (.optRead fun _ _ => rfl) fun _ => ?_
  refine .bind _ (.optRead fun _ _ => rfl) fun _ => ?_
  exact .pure fun _ _ _ => trivial

theorem adsensors_ext : Ext (fun _ r => optOff (byteAt r 2) (optOff (byteAt r 0) 3 [(0, 1), (1, 1), (2, 1), (3, 1), (4, 1), (5, 1), (6, 1), (7, 1)]) [(0, 3), (1, 3), (2, 3), (3, 3), (4, 3), (5, 3), (6, 3), (7, 3)] ≤ r.length)
    (fun _ _ _ => True) SrAdSensorsData.decodeM := by
  unfold SrAdSensorsData.decodeM
  refine .bind (fun b _ r => optOff (byteAt r 1) (optOff b 3 [(0, 1), (1, 1), (2, 1), (3, 1), (4, 1), (5, 1), (6, 1), (7, 1)]) [(0, 3), (1, 3), (2, 3), (3, 3), (4, 3), (5, 3), (6, 3), (7, 3)] ≤ r.length + 1)
    (.readByte fun _ _ _ h => h) fun b => ?_
  obtain ⟨f0, f1, f2, f3, f4, f5, f6, f7⟩ := fmt_text1 b
  refine .bind (fun _ s r => optOff (byteAt r 1) 2 [(0, 3), (1, 3), (2, 3), (3, 3), (4, 3), (5, 3), (6, 3), (7, 3)] + need [(SrAdSensorsData.DIOE1, 1), (SrAdSensorsData.DIOE2, 1), (SrAdSensorsData.DIOE3, 1), (SrAdSensorsData.DIOE4, 1), (SrAdSensorsData.DIOE5, 1), (SrAdSensorsData.DIOE6, 1), (SrAdSensorsData.DIOE7, 1), (SrAdSensorsData.DIOE8, 1)] s ≤ r.length) (.upd fun s r h => ?_) fun _ => ?_
  · simp only [need, f0, f1, f2, f3, f4, f5, f6, f7, bitText_iff]
    simp only [optOff, List.foldl] at h ⊢
    omega
  refine .bind (fun _ s r => optOff (byteAt r 0) 1 [(0, 3), (1, 3), (2, 3), (3, 3), (4, 3), (5, 3), (6, 3), (7, 3)] + need [(SrAdSensorsData.DIOE1, 1), (SrAdSensorsData.DIOE2, 1), (SrAdSensorsData.DIOE3, 1), (SrAdSensorsData.DIOE4, 1), (SrAdSensorsData.DIOE5, 1), (SrAdSensorsData.DIOE6, 1), (SrAdSensorsData.DIOE7, 1), (SrAdSensorsData.DIOE8, 1)] s ≤ r.length) (.readByteTo fun s b r h => ?_) fun _ => ?_
  · simp only [optOff, List.foldl, List.length_cons, byteAt, need] at h ⊢
    simp at h ⊢
    omega
  refine .bind (fun b s r => optOff b 0 [(0, 3), (1, 3), (2, 3), (3, 3), (4, 3), (5, 3), (6, 3), (7, 3)] + need [(SrAdSensorsData.DIOE1, 1), (SrAdSensorsData.DIOE2, 1), (SrAdSensorsData.DIOE3, 1), (SrAdSensorsData.DIOE4, 1), (SrAdSensorsData.DIOE5, 1), (SrAdSensorsData.DIOE6, 1), (SrAdSensorsData.DIOE7, 1), (SrAdSensorsData.DIOE8, 1)] s ≤ r.length) (.readByte fun s b r h => ?_) fun b2 => ?_
  · simp only [optOff, List.foldl, List.length_cons, byteAt, need] at h ⊢
    simp at h ⊢
    omega
  obtain ⟨g0, g1, g2, g3, g4, g5, g6, g7⟩ := fmt_text1 b2
  refine .bind (fun _ s r => True ∧ need [(SrAdSensorsData.DIOE1, 1), (SrAdSensorsData.DIOE2, 1), (SrAdSensorsData.DIOE3, 1), (SrAdSensorsData.DIOE4, 1), (SrAdSensorsData.DIOE5, 1), (SrAdSensorsData.DIOE6, 1), (SrAdSensorsData.DIOE7, 1), (SrAdSensorsData.DIOE8, 1), (SrAdSensorsData.ASFE1, 3), (SrAdSensorsData.ASFE2, 3), (SrAdSensorsData.ASFE3, 3), (SrAdSensorsData.ASFE4, 3), (SrAdSensorsData.ASFE5, 3), (SrAdSensorsData.ASFE6, 3), (SrAdSensorsData.ASFE7, 3), (SrAdSensorsData.ASFE8, 3)] s ≤ r.length) (.upd fun s r h => ⟨trivial, ?_⟩) fun _ => ?_
  · simp only [need, g0, g1, g2, g3, g4, g5, g6, g7, bitText_iff] at h ⊢
    simp only [optOff, List.foldl] at h
    omega
  refine .bind _ (.optByte fun _ _ => rfl) fun _ => ?_
  refine .bind _ (.optByte fun _ _ => rfl) fun _ => ?_
  refine .bind _ (.optByte fun _ _ => rfl) fun _ => ?_
  refine .bind _ (.optByte fun _ _ => rfl) fun _ => ?_
  refine .bind _ (.optByte fun _ _ => rfl) fun _ => ?_
  refine .bind _ (.optByte fun _ _ => rfl) fun _ => ?_
  refine .bind _ (.optByte fun _ _ => rfl) fun _ => ?_
  refine .bind _ (.optByte fun _ _ => rfl) fun _ => ?_
  refine .bind _ (Ext.weaken (.optRead fun _ _ => rfl) fun _ _ h => ⟨rfl, h.2⟩) fun _ => ?_
  refine .bind _ (.optRead fun _ _ => rfl) fun _ => ?_
  refine .bind _ (.optRead fun _ _ => rfl) fun _ => ?_
  refine .bind _ (.optRead fun _ _ => rfl) fun _ => ?_
  refine .bind _ (.optRead fun _ _ => rfl) fun _ => ?_
  refine .bind _ (.optRead fun _ _ => rfl) fun _ => ?_
  refine .bind _ (.optRead fun _ _ => rfl) fun _ => ?_
  refine .bind _ (.optRead fun _ _ => rfl) fun _ => ?_
  exact .pure fun _ _ _ => trivial

theorem term_ext : Ext (fun _ r => optOff (byteAt r 4) 5 [(0, 2), (1, 15), (2, 16), (3, 3), (5, 3), (6, 2), (7, 15)] ≤ r.length) (fun _ _ _ => True) SrTermIdentity.decodeM := by
  unfold SrTermIdentity.decodeM
  refine .bind (fun _ _ r => optOff (byteAt r 0) 1 [(0, 2), (1, 15), (2, 16), (3, 3), (5, 3), (6, 2), (7, 15)] ≤ r.length) (.read (fun _ r h => ?_) fun _ a r ha h => ?_) fun _ => ?_
  · simp only [optOff, List.foldl] at h
    simp [zeros]
    omega
  · match a, ha with
    | [a0, a1, a2, a3], _ =>
      simp only [optOff, List.foldl] at h ⊢
      simp [byteAt] at h ⊢
      omega
  refine .bind (fun _ _ r => optOff (byteAt r 0) 1 [(0, 2), (1, 15), (2, 16), (3, 3), (5, 3), (6, 2), (7, 15)] ≤ r.length) (.upd fun _ _ h => h) fun _ => ?_
  refine .bind (fun b _ r => optOff b 1 [(0, 2), (1, 15), (2, 16), (3, 3), (5, 3), (6, 2), (7, 15)] ≤ r.length + 1) (.readByte fun _ _ _ h => h) fun b => ?_
  obtain ⟨f0, f1, f2, f3, f4, f5, f6, f7⟩ := fmt_text1 b
  refine .bind (fun _ s r => need [(SrTermIdentity.HDIDE, 2), (SrTermIdentity.IMEIE, 15), (SrTermIdentity.IMSIE, 16), (SrTermIdentity.LNGCE, 3), (SrTermIdentity.NIDE, 3), (SrTermIdentity.BSE, 2), (SrTermIdentity.MNE, 15)] s ≤ r.length) (.upd fun s r h => ?_) fun _ => ?_
  · simp only [need, f0, f1, f2, f4, f5, f6, f7, bitText_iff]
    simp only [optOff, List.foldl] at h
    omega
  refine .bind _ (Ext.weaken (.optRead fun _ _ => rfl) fun _ _ h => ⟨rfl, h⟩) fun _ => ?_
  refine .bind _ (Ext.weaken (.optRead fun _ _ => rfl) fun _ _ h => ⟨rfl, h.2⟩) fun _ => ?_
  refine .bind _ (Ext.weaken (.optRead fun _ _ => rfl) fun _ _ h => ⟨rfl, h.2⟩) fun _ => ?_
  refine .bind _ (Ext.weaken (.optRead fun _ _ => rfl) fun _ _ h => ⟨rfl, h.2⟩) fun _ => ?_
  refine .bind _ (Ext.weaken (.optRead fun _ _ => rfl) fun _ _ h => ⟨rfl, h.2⟩) fun _ => ?_
  refine .bind _ (Ext.weaken (.optRead fun _ _ => rfl) fun _ _ h => ⟨rfl, h.2⟩) fun _ => ?_
  refine .bind _ (Ext.weaken (.optRead fun _ _ => rfl) fun _ _ h => ⟨rfl, h.2⟩) fun _ => ?_
  exact .pure fun _ _ _ => trivial

end Egts
