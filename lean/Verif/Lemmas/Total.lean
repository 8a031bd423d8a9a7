import Verif.Model.Package
import Verif.Lemmas.Basic
set_option autoImplicit false
/- Totality of the decoders: no panic, no divergence, input is only consumed. -/
namespace Egts

/-- neither a panic nor divergence -/
def Out.Safe {σ : Type} : Out σ → Prop
  | .ok _ => True
  | .err _ _ => True
  | .panic => False
  | .diverge => False

theorem Out.Safe.map {σ τ : Type} {f : σ → τ} {o : Out σ} (h : o.Safe) : (o.map f).Safe := by
  cases o <;> simp_all [Out.map, Out.Safe]

theorem Out.safe_ite {σ : Type} {c : Prop} [Decidable c] {o o' : Out σ} (h : o.Safe) (h' : o'.Safe) :
    (if c then o else o').Safe := by split <;> assumption

namespace Dec
variable {σ τ α β : Type}

/-- neither a panic nor divergence, and what is left is a suffix of the input -/
def SafeAt (m : Dec σ α) (s : σ) (r : Bytes) : Prop :=
  match m s r with
  | .ok _ _ r' => r' <:+ r
  | .err _ _ => True
  | .panic => False
  | .diverge => False

structure Safe (m : Dec σ α) : Prop where
  at' : ∀ s r, SafeAt m s r

theorem safeAt_bind {m : Dec σ α} {f : α → Dec σ β} {s : σ} {r : Bytes} (hm : SafeAt m s r)
    (hf : ∀ a s' r', m s r = .ok a s' r' → SafeAt (f a) s' r') : SafeAt (m >>= f) s r := by
  unfold SafeAt at *
  rw [bind_apply]
  revert hm hf
  cases m s r with
  | ok a s' r' =>
    intro hm hf
    have := hf a s' r' rfl
    simp only at this hm ⊢
    revert this
    cases f a s' r' <;> simp
    exact fun h => h.trans hm
  | err e s' => simp
  | panic => simp
  | diverge => simp

theorem safe_bind {m : Dec σ α} {f : α → Dec σ β} (hm : Safe m) (hf : ∀ a, Safe (f a)) : Safe (m >>= f) :=
  ⟨fun s r => safeAt_bind (hm.at' s r) fun a s' r' _ => (hf a).at' s' r'⟩

theorem safe_pure (a : α) : Safe (pure a : Dec σ α) := ⟨fun _ _ => List.suffix_refl _⟩
theorem safe_readByte : Safe (readByte : Dec σ UInt8) := ⟨fun s r => by
  cases r <;> simp [SafeAt]⟩
theorem safe_readByteTo (f : σ → UInt8 → σ) : Safe (readByteTo f) := ⟨fun s r => by
  cases r <;> simp [SafeAt]⟩
theorem safe_read (p : Bytes) : Safe (read p : Dec σ Bytes) := ⟨fun s r => by
  cases r with
  | nil => simp [SafeAt]
  | cons a r => simp only [SafeAt, read_cons]; exact List.drop_suffix _ _⟩
theorem safe_unread : Safe (unread : Dec σ Bytes) := ⟨fun _ _ => List.suffix_refl _⟩
theorem safe_next (n : Nat) : Safe (next n : Dec σ Bytes) := ⟨fun _ _ => List.drop_suffix _ _⟩
theorem safe_upd (f : σ → σ) : Safe (upd f) := ⟨fun _ _ => List.suffix_refl _⟩
theorem safe_get : Safe (get : Dec σ σ) := ⟨fun _ _ => List.suffix_refl _⟩
theorem safe_fail (e : Err) : Safe (fail e : Dec σ α) := ⟨fun _ _ => trivial⟩
theorem safe_ite {c : Prop} [Decidable c] {m m' : Dec σ α} (h : Safe m) (h' : Safe m') :
    Safe (if c then m else m') := by split <;> assumption
theorem safe_when {c : Bool} {m : Dec σ Unit} (h : Safe m) : Safe (when c m) := by
  unfold when; exact safe_ite h (safe_pure _)
theorem safe_optByte (cond : σ → Bytes) (set : σ → UInt8 → σ) : Safe (optByte cond set) :=
  safe_bind safe_get fun _ => safe_when (safe_readByteTo _)
theorem safe_optRead (cond : σ → Bytes) (p : Bytes) (conv : Bytes → τ) (set : σ → τ → σ) :
    Safe (optRead cond p conv set) :=
  safe_bind safe_get fun _ => safe_ite (safe_bind (safe_read _) fun _ => safe_bind (safe_upd _) fun _ => safe_pure _)
    (safe_pure _)
theorem safe_readNul : Safe (readNul : Dec σ Bytes) := ⟨fun s r => by
  unfold SafeAt readNul
  by_cases h : (0 : UInt8) ∈ r
  · simp only [h, ↓reduceIte]; exact (List.drop_suffix _ _).trans (List.dropWhile_suffix _)
  · simp [h]⟩
theorem safe_parse (p : Nat × Option Err) : Safe ((match p with
    | (n, none) => pure n
    | (_, some e) => fail e : Dec σ Nat)) := by
  rcases p with ⟨n, _ | e⟩
  · exact safe_pure _
  · exact safe_fail _

theorem Safe.run {m : Dec σ Unit} (h : Safe m) (s : σ) (b : Bytes) : (m.run s b).Safe := by
  have := h.at' s b
  unfold SafeAt at this
  unfold Egts.Dec.run
  revert this
  cases m s b <;> simp [Out.Safe]

end Dec

/-- closes `Dec.Safe` goals of straight-line decoders -/
macro "dec_safe" : tactic => `(tactic| repeat' (first | (with_reducible first
  | exact Dec.safe_readByte | exact Dec.safe_readByteTo _ | exact Dec.safe_read _ | exact Dec.safe_unread
  | exact Dec.safe_next _ | exact Dec.safe_upd _ | exact Dec.safe_get | exact Dec.safe_pure _
  | exact Dec.safe_optByte _ _ | exact Dec.safe_optRead _ _ _ _ | exact Dec.safe_readNul
  | exact Dec.safe_fail _ | apply Dec.safe_when | apply Dec.safe_bind | intro _) | exact Dec.safe_parse _))

theorem SrPosData.decode_safe (e b) : (SrPosData.decode e b).Safe := by
  apply Dec.Safe.run; unfold SrPosData.decodeM; dec_safe
theorem SrExtPosData.decode_safe (e b) : (SrExtPosData.decode e b).Safe := by
  apply Dec.Safe.run; unfold SrExtPosData.decodeM; dec_safe
theorem SrAdSensorsData.decode_safe (e b) : (SrAdSensorsData.decode e b).Safe := by
  apply Dec.Safe.run; unfold SrAdSensorsData.decodeM; dec_safe
theorem SrCountersData.decode_safe (e b) : (SrCountersData.decode e b).Safe := by
  apply Dec.Safe.run; unfold SrCountersData.decodeM; dec_safe
theorem SrStateData.decode_safe (e b) : (SrStateData.decode e b).Safe := by
  apply Dec.Safe.run; unfold SrStateData.decodeM; dec_safe
theorem SrLiquidLevelSensor.decode_safe (e b) : (SrLiquidLevelSensor.decode e b).Safe := by
  apply Dec.Safe.run; unfold SrLiquidLevelSensor.decodeM; dec_safe
theorem SrAbsCntrData.decode_safe (e b) : (SrAbsCntrData.decode e b).Safe := by
  apply Dec.Safe.run; unfold SrAbsCntrData.decodeM; dec_safe
theorem SrResultCode.decode_safe (e b) : (SrResultCode.decode e b).Safe := by
  apply Dec.Safe.run; dec_safe
theorem SrAuthInfo.decode_safe (e b) : (SrAuthInfo.decode e b).Safe := by
  apply Dec.Safe.run; unfold SrAuthInfo.decodeM; dec_safe
theorem SrDispatcherIdentity.decode_safe (e b) : (SrDispatcherIdentity.decode e b).Safe := by
  apply Dec.Safe.run; unfold SrDispatcherIdentity.decodeM; dec_safe
theorem SrTermIdentity.decode_safe (e b) : (SrTermIdentity.decode e b).Safe := by
  apply Dec.Safe.run; unfold SrTermIdentity.decodeM; dec_safe
theorem SrAbsAnSensData.decode_safe (e b) : (SrAbsAnSensData.decode e b).Safe := by
  match b with
  | [] | [_] | [_, _] | [_, _, _] => simp [SrAbsAnSensData.decode, Out.Safe]
  | _ :: _ :: _ :: _ :: _ => exact Out.safe_ite trivial trivial
theorem storageDecode_safe [P : Platform] (b) : (storageDecode b).Safe := by
  unfold storageDecode; split <;> trivial

/-! ### number of nonzero bytes -/

theorem nz_suffix {a b : Bytes} (h : a <:+ b) : nz a ≤ nz b := h.sublist.countP_le
theorem nz_append (a b : Bytes) : nz (a ++ b) = nz a + nz b := by simp [nz]
theorem nz_zeros (n : Nat) : nz (zeros n) = 0 := by simp [nz, zeros]
theorem nz_take_le (n : Nat) (a : Bytes) : nz (a.take n) ≤ nz a := (List.take_sublist n a).countP_le
theorem nz_drop_le (n : Nat) (a : Bytes) : nz (a.drop n) ≤ nz a := (List.drop_sublist n a).countP_le

variable [P : Platform]

/-- two nested decoders agree (and are total) on all inputs with fewer than `k` nonzero bytes -/
def NestedOk (k : Nat) (n1 n2 : Bytes → Out ServiceDataSet) : Prop :=
  ∀ c, nz c < k → n1 c = n2 c ∧ (n1 c).Safe

theorem NestedOk.mono {k k' : Nat} {n1 n2} (h : NestedOk (P := P) k n1 n2) (hk : k' ≤ k) : NestedOk k' n1 n2 :=
  fun c hc => h c (Nat.lt_of_lt_of_le hc hk)

theorem response_run {n1 n2} (b : Bytes) (s : SrResponse) (h : 0 < b.length → ∀ c, c <:+ b → n1 c = n2 c ∧ (n1 c).Safe) :
    (SrResponse.decodeM (P := P) n1).run s b = (SrResponse.decodeM n2).run s b ∧
    ((SrResponse.decodeM n1).run s b).Safe := by
  cases b with
  | nil => exact ⟨rfl, trivial⟩
  | cons x xs =>
    have h' := h (by simp)
    simp only [SrResponse.decodeM, Dec.run, Dec.bind_apply, Dec.read_cons, Dec.upd_apply]
    generalize hd : (x :: xs).drop (zeros 2).length = d
    have hsuf : d <:+ (x :: xs) := by rw [← hd]; exact List.drop_suffix _ _
    cases d with
    | nil => simp [Out.Safe]
    | cons y ys =>
      have := h' ys ((List.suffix_cons y ys).trans hsuf)
      simp only [Dec.readByteTo_cons, Dec.unread_apply]
      rw [← this.1]
      revert this
      cases n1 ys <;> simp [Dec.call, Out.Safe]

theorem decodeSub_ok {n1 n2 : Bytes → Out ServiceDataSet} (t : UInt8) (srl : UInt16) (b : Bytes)
    (h : 0 < b.length → ∀ c, c <:+ b → n1 c = n2 c ∧ (n1 c).Safe) :
    decodeSub (P := P) n1 t srl b = decodeSub n2 t srl b ∧ (decodeSub n1 t srl b).Safe := by
  by_cases ht : t = 0
  · subst ht
    have := response_run b {} h
    have e : ∀ n, decodeSub (P := P) n 0 srl b = ((SrResponse.decodeM n).run {} b).map .response := fun _ => by simp [decodeSub]
    rw [e, e, ← this.1]
    exact ⟨rfl, this.2.map⟩
  · unfold decodeSub
    simp only [ht, ↓reduceIte, true_and]
    repeat' apply Out.safe_ite
    all_goals first
      | trivial
      | exact (SrPosData.decode_safe _ _).map
      | exact (SrTermIdentity.decode_safe _ _).map
      | exact (SrResultCode.decode_safe _ _).map
      | exact (SrExtPosData.decode_safe _ _).map
      | exact (SrAdSensorsData.decode_safe _ _).map
      | exact (SrStateData.decode_safe _ _).map
      | exact (SrLiquidLevelSensor.decode_safe _ _).map
      | exact (SrAbsCntrData.decode_safe _ _).map
      | exact (SrAuthInfo.decode_safe _ _).map
      | exact (SrCountersData.decode_safe _ _).map
      | exact (storageDecode_safe _).map
      | exact (SrAbsAnSensData.decode_safe _ _).map
      | exact (SrDispatcherIdentity.decode_safe _ _).map

/-- same result on both sides, safe, and at least one byte consumed -/
def StepOk {σ : Type} (m1 m2 : Dec σ Unit) (s : σ) (r : Bytes) : Prop :=
  m1 s r = m2 s r ∧ match m1 s r with
    | .ok _ _ r' => r' <:+ r ∧ r'.length < r.length
    | .err _ _ => True
    | .panic => False
    | .diverge => False

omit P in
theorem u16_pos_nz (x y : UInt8) (h : 0 < (u16 [x, y]).toNat) : 0 < nz [x, y] := by
  rw [u16_toNat] at h
  unfold nz
  rw [List.countP_pos_iff]
  by_cases hx : x = 0
  · subst hx
    refine ⟨y, by simp, ?_⟩
    simp; rintro rfl; simp at h
  · exact ⟨x, by simp, by simpa using hx⟩

theorem rdsStep_ok {n1 n2} (s : RecordDataSet) (r : Bytes) (hr : r ≠ []) (h : NestedOk (P := P) (nz r) n1 n2) :
    StepOk (rdsStep n1) (rdsStep n2) s r := by
  match r, hr with
  | [t], _ => exact ⟨rfl, trivial⟩
  | [t, x], _ =>
    simp only [StepOk, rdsStep, Dec.bind_apply, Dec.readByte_cons, Dec.read_cons, Dec.next_apply]
    have := decodeSub_ok (n1 := n1) (n2 := n2) t
      (u16 (List.take (zeros 2).length [x] ++ List.drop (List.length ([] : Bytes) + 1) (zeros 2)))
      (List.take (u16 (List.take (zeros 2).length [x] ++ List.drop (List.length ([] : Bytes) + 1) (zeros 2))).toNat
        (List.drop (zeros 2).length [x])) (by simp)
    rw [← this.1]
    refine ⟨rfl, ?_⟩
    revert this
    generalize decodeSub n1 t _ _ = o
    rintro ⟨-, hs⟩
    revert hs
    cases o <;> simp [Out.Safe, Dec.call]
  | t :: x :: y :: rest, _ =>
    have hread : ∀ s : RecordDataSet, Dec.read (zeros 2) s (x :: y :: rest) = .ok [x, y] s rest :=
      fun s => Dec.read_append (zeros 2) [x, y] rest s rfl (by simp)
    simp only [StepOk, rdsStep, Dec.bind_apply, Dec.readByte_cons, hread, Dec.next_apply]
    have := decodeSub_ok (n1 := n1) (n2 := n2) t (u16 [x, y]) (rest.take (u16 [x, y]).toNat) (by
      intro hpos c hc
      apply h
      have h1 := nz_suffix hc
      have h2 := nz_take_le (u16 [x, y]).toNat rest
      have h3 : 0 < nz [x, y] := u16_pos_nz x y (by simp at hpos; omega)
      have h4 : nz (t :: x :: y :: rest) = nz [t] + (nz [x, y] + nz rest) := by
        rw [← nz_append, ← nz_append]; rfl
      omega)
    rw [← this.1]
    refine ⟨rfl, ?_⟩
    revert this
    generalize decodeSub n1 t (u16 [x, y]) _ = o
    rintro ⟨-, hs⟩
    revert hs
    cases o <;> simp [Out.Safe, Dec.call]
    constructor
    · exact ((List.drop_suffix _ rest).trans (List.suffix_cons y rest)).trans
        ((List.suffix_cons x _).trans (List.suffix_cons t _))
    · omega

omit P in
/-- a loop whose body makes progress is total; two such loops with equal bodies agree -/
theorem loopN_ok {σ : Type} {m1 m2 : Dec σ Unit} (r0 : Bytes)
    (h : ∀ s r, r ≠ [] → r <:+ r0 → StepOk m1 m2 s r) :
    ∀ n s r, r <:+ r0 → r.length ≤ n →
      Dec.loopN m1 n s r = Dec.loopN m2 n s r ∧ Dec.SafeAt (Dec.loopN m1 n) s r := by
  intro n
  induction n with
  | zero =>
    intro s r _ hl
    have : r = [] := by simpa using hl
    subst this
    exact ⟨rfl, List.suffix_refl _⟩
  | succ n ih =>
    intro s r hsuf hl
    by_cases hr : r = []
    · subst hr; exact ⟨rfl, by simp [Dec.SafeAt, Dec.loopN]⟩
    · obtain ⟨h1, h2⟩ := h s r hr hsuf
      simp only [Dec.SafeAt, Dec.loopN, hr, ↓reduceIte, Dec.bind_apply]
      rw [← h1]
      revert h2
      cases m1 s r with
      | ok a s' r' =>
        intro h2
        have := ih s' r' (h2.1.trans hsuf) (by omega)
        simp only
        refine ⟨this.1, ?_⟩
        have h3 := this.2
        unfold Dec.SafeAt at h3
        revert h3
        cases Dec.loopN m1 n s' r' <;> simp
        exact fun h => h.trans h2.1
      | err e s' => simp
      | panic => simp
      | diverge => simp

omit P in
/-- more fuel does not change the result of a loop that makes progress -/
theorem loopN_fuel {σ : Type} {m : Dec σ Unit} (r0 : Bytes)
    (h : ∀ s r, r ≠ [] → r <:+ r0 → StepOk m m s r) :
    ∀ n k s r, r <:+ r0 → r.length ≤ n → r.length ≤ k →
      Dec.loopN m n s r = Dec.loopN m k s r := by
  intro n
  induction n with
  | zero =>
    intro k s r _ hl _
    have : r = [] := by simpa using hl
    subst this
    cases k <;> rfl
  | succ n ih =>
    intro k s r hsuf hl hk
    by_cases hr : r = []
    · subst hr; cases k <;> rfl
    · cases k with
      | zero => simp at hk; exact absurd hk hr
      | succ k =>
        obtain ⟨-, h2⟩ := h s r hr hsuf
        simp only [Dec.loopN, hr, ↓reduceIte, Dec.bind_apply]
        revert h2
        cases m s r with
        | ok a s' r' => intro h2; exact ih k s' r' (h2.1.trans hsuf) (by omega) (by omega)
        | err e s' => simp
        | panic => simp
        | diverge => simp

omit P in
theorem run_congr {σ : Type} {m1 m2 : Dec σ Unit} {s : σ} {b : Bytes} (h : m1 s b = m2 s b) (hs : Dec.SafeAt m1 s b) :
    m1.run s b = m2.run s b ∧ (m1.run s b).Safe := by
  unfold Dec.run
  rw [← h]
  refine ⟨rfl, ?_⟩
  unfold Dec.SafeAt at hs
  revert hs
  cases m1 s b <;> simp [Out.Safe]

theorem rdsDecode_ok {n1 n2} (s : RecordDataSet) (b : Bytes) (h : NestedOk (P := P) (nz b) n1 n2) :
    rdsDecode n1 s b = rdsDecode n2 s b ∧ (rdsDecode n1 s b).Safe := by
  have := loopN_ok (m1 := rdsStep n1) (m2 := rdsStep n2) b
    (fun s r hr hs => rdsStep_ok s r hr (h.mono (nz_suffix hs))) b.length s b (List.suffix_refl _) (Nat.le_refl _)
  exact run_congr this.1 this.2

omit P in
theorem read_props {σ : Type} (p : Bytes) (s : σ) (r : Bytes) : (r = [] ∧ Dec.read p s r = .err .eof s) ∨
    (r ≠ [] ∧ Dec.read p s r = .ok (r.take p.length ++ p.drop r.length) s (r.drop p.length)) := by
  cases r with
  | nil => exact .inl ⟨rfl, rfl⟩
  | cons a r => exact .inr ⟨by simp, rfl⟩

omit P in
theorem safeEq_bind {σ α β : Type} {m : Dec σ α} {f1 f2 : α → Dec σ β} {s : σ} {r : Bytes} (hm : Dec.SafeAt m s r)
    (hf : ∀ a s' r', m s r = .ok a s' r' → r' <:+ r → f1 a s' r' = f2 a s' r' ∧ Dec.SafeAt (f1 a) s' r') :
    (m >>= f1) s r = (m >>= f2) s r ∧ Dec.SafeAt (m >>= f1) s r := by
  unfold Dec.SafeAt at *
  rw [Dec.bind_apply, Dec.bind_apply]
  revert hm hf
  cases m s r with
  | ok a s' r' =>
    intro hm hf
    have := hf a s' r' rfl hm
    simp only at this hm ⊢
    refine ⟨this.1, ?_⟩
    have h2 := this.2
    revert h2
    cases f1 a s' r' <;> simp
    exact fun h => h.trans hm
  | err e s' => simp
  | panic => simp
  | diverge => simp

omit P in
theorem safeEq_bind_lt {σ α : Type} {m : Dec σ α} {f1 f2 : α → Dec σ Unit} {s : σ} {r : Bytes} (hm : Dec.SafeAt m s r)
    (hlt : ∀ a s' r', m s r = .ok a s' r' → r'.length < r.length)
    (hf : ∀ a s' r', m s r = .ok a s' r' → r' <:+ r → f1 a s' r' = f2 a s' r' ∧ Dec.SafeAt (f1 a) s' r') :
    StepOk (m >>= f1) (m >>= f2) s r := by
  unfold Dec.SafeAt at *
  unfold StepOk
  rw [Dec.bind_apply, Dec.bind_apply]
  revert hm hf hlt
  cases m s r with
  | ok a s' r' =>
    intro hm hlt hf
    have := hf a s' r' rfl hm
    have hl := hlt a s' r' rfl
    simp only at this hm ⊢
    refine ⟨this.1, ?_⟩
    have h2 := this.2
    revert h2
    cases f1 a s' r' <;> simp
    exact fun h => ⟨h.trans hm, Nat.lt_of_le_of_lt h.length_le hl⟩
  | err e s' => simp
  | panic => simp
  | diverge => simp

omit P in
theorem nz_read {σ : Type} {n : Nat} {s s' : σ} {r b r' : Bytes}
    (h : Dec.read (zeros n) s r = .ok b s' r') : nz b ≤ nz r := by
  cases r with
  | nil => simp at h
  | cons x r =>
    rw [Dec.read_cons] at h
    injection h with h1 h2 h3
    rw [← h1, nz_append]
    have := nz_take_le (zeros n).length (x :: r)
    have h2 := nz_drop_le (r.length + 1) (zeros n)
    rw [nz_zeros] at h2
    omega

theorem sdrDecodeM_ok {n1 n2} (s : ServiceDataRecord) (r : Bytes) (hr : r ≠ []) (h : NestedOk (P := P) (nz r) n1 n2) :
    StepOk (sdrDecodeM n1) (sdrDecodeM n2) s r := by
  unfold sdrDecodeM
  refine safeEq_bind_lt ((Dec.safe_read _).at' _ _) ?_ fun a s' r1 _ h1 => ?_
  · intro a s' r1 h1
    rcases read_props (zeros 2) s r with ⟨h2, -⟩ | ⟨-, h2⟩
    · exact absurd h2 hr
    · rw [h2] at h1
      cases h1
      have : 0 < r.length := List.length_pos_iff.mpr hr
      simp; omega
  refine safeEq_bind ((Dec.safe_upd _).at' _ _) fun _ s' r1' _ h1' => ?_
  have h1 := h1'.trans h1
  refine safeEq_bind ((Dec.safe_read _).at' _ _) fun a s' r2 _ h2 => ?_
  have h2 := h2.trans h1
  refine safeEq_bind ((Dec.safe_upd _).at' _ _) fun _ s' r3 _ h3 => ?_
  have h3 := h3.trans h2
  refine safeEq_bind ((Dec.safe_readByte).at' _ _) fun _ s' r4 _ h4 => ?_
  have h4 := h4.trans h3
  refine safeEq_bind ((Dec.safe_upd _).at' _ _) fun _ s' r5 _ h5 => ?_
  have h5 := h5.trans h4
  refine safeEq_bind ((Dec.safe_optRead _ _ _ _).at' _ _) fun _ s' r6 _ h6 => ?_
  have h6 := h6.trans h5
  refine safeEq_bind ((Dec.safe_optRead _ _ _ _).at' _ _) fun _ s' r7 _ h7 => ?_
  have h7 := h7.trans h6
  refine safeEq_bind ((Dec.safe_optRead _ _ _ _).at' _ _) fun _ s' r8 _ h8 => ?_
  have h8 := h8.trans h7
  refine safeEq_bind ((Dec.safe_readByteTo _).at' _ _) fun _ s' r9 _ h9 => ?_
  have h9 := h9.trans h8
  refine safeEq_bind ((Dec.safe_readByteTo _).at' _ _) fun _ s' r10 _ h10 => ?_
  have h10 := h10.trans h9
  refine safeEq_bind ((Dec.safe_unread).at' _ _) fun rr s' r11 hrr h11 => ?_
  have h11 := h11.trans h10
  by_cases hl : decide (rr.length ≠ 0) = true
  · rw [hl]
    simp only [Dec.when_true]
    refine safeEq_bind ((Dec.safe_get).at' _ _) fun e s' r12 _ h12 => ?_
    have h12 := h12.trans h11
    refine safeEq_bind ((Dec.safe_read _).at' _ _) fun b s' r13 hb h13 => ?_
    have hnz : nz b ≤ nz r := Nat.le_trans (nz_read hb) (nz_suffix h12)
    have hrds := rdsDecode_ok (n1 := n1) (n2 := n2) [] b (h.mono hnz)
    rw [← hrds.1]
    refine ⟨rfl, ?_⟩
    refine Dec.safeAt_bind ?_ fun _ _ _ _ => (Dec.safe_upd _).at' _ _
    have := hrds.2
    revert this
    cases rdsDecode n1 [] b <;> simp [Dec.SafeAt, Dec.call, Out.Safe]
  · simp only [Bool.not_eq_true] at hl
    rw [hl]
    simp only [Dec.when_false]
    exact ⟨trivial, List.suffix_refl _⟩

theorem sdsStep_ok {n1 n2} (s : ServiceDataSet) (r : Bytes) (hr : r ≠ []) (h : NestedOk (P := P) (nz r) n1 n2) :
    StepOk (sdsStep n1) (sdsStep n2) s r := by
  have h0 := sdrDecodeM_ok (n1 := n1) (n2 := n2) {} r hr h
  unfold StepOk sdsStep at *
  rw [← h0.1]
  refine ⟨rfl, ?_⟩
  have := h0.2
  revert this
  cases sdrDecodeM n1 {} r <;> simp

theorem sdsDecodeWith_ok {n1 n2} (s : ServiceDataSet) (b : Bytes) (h : NestedOk (P := P) (nz b) n1 n2) :
    sdsDecodeWith n1 s b = sdsDecodeWith n2 s b ∧ (sdsDecodeWith n1 s b).Safe := by
  have := loopN_ok (m1 := sdsStep n1) (m2 := sdsStep n2) b
    (fun s r hr hs => sdsStep_ok s r hr (h.mono (nz_suffix hs))) b.length s b (List.suffix_refl _) (Nat.le_refl _)
  exact run_congr this.1 this.2

/-- enough levels of nesting: total, and the exact number does not matter -/
theorem sdsDecodeN_ok : ∀ n m b, nz b < n → nz b < m →
    sdsDecodeN (P := P) n b = sdsDecodeN m b ∧ (sdsDecodeN (P := P) n b).Safe := by
  intro n
  induction n with
  | zero => intro m b h; omega
  | succ n ih =>
    intro m b hn hm
    cases m with
    | zero => omega
    | succ m =>
      exact sdsDecodeWith_ok [] b fun c hc => ih m c (by omega) (by omega)

theorem nestedOk (k : Nat) : NestedOk (P := P) k nestedDecode nestedDecode :=
  fun c _ => ⟨rfl, (sdsDecodeN_ok _ _ c (Nat.lt_succ_self _) (Nat.lt_succ_self _)).2⟩

/-- the recursion equation of the Go code: service data nested in a record response is decoded by
the very same method (egts_sr_response.go:33-36 calls service_data_records.go:33). -/
theorem nestedDecode_eq (b : Bytes) : nestedDecode (P := P) b = ServiceDataSet.decode [] b := by
  unfold nestedDecode ServiceDataSet.decode
  refine (sdsDecodeWith_ok [] b fun c hc => ?_).1
  exact sdsDecodeN_ok _ _ c hc (Nat.lt_succ_self _)

theorem ServiceDataSet.decode_safe (s : ServiceDataSet) (b : Bytes) : (ServiceDataSet.decode (P := P) s b).Safe :=
  (sdsDecodeWith_ok s b (nestedOk _)).2

theorem RecordDataSet.decode_safe (s : RecordDataSet) (b : Bytes) : (RecordDataSet.decode (P := P) s b).Safe :=
  (rdsDecode_ok s b (nestedOk _)).2

theorem SrResponse.decode_safe (e : SrResponse) (b : Bytes) : (SrResponse.decode (P := P) e b).Safe :=
  (response_run b e fun _ c _ => nestedOk (nz c + 1) c (Nat.lt_succ_self _)).2

theorem PtResponse.decode_safe (e : PtResponse) (b : Bytes) : (PtResponse.decode (P := P) e b).Safe := by
  unfold PtResponse.decode
  apply Dec.Safe.run
  unfold PtResponse.decodeM
  refine Dec.safe_bind (Dec.safe_read _) fun _ => Dec.safe_bind (Dec.safe_upd _) fun _ =>
    Dec.safe_bind (Dec.safe_readByteTo _) fun _ => Dec.safe_bind Dec.safe_unread fun rest =>
    Dec.safe_when ⟨fun s r => ?_⟩
  have := ServiceDataSet.decode_safe (P := P) [] rest
  unfold Dec.SafeAt
  revert this
  cases ServiceDataSet.decode [] rest <;> simp [Out.Safe]

theorem Package.decodeHeaderM_safe : Dec.Safe (Package.decodeHeaderM (P := P)) := by
  unfold Package.decodeHeaderM; dec_safe

omit P in
/-- a loop whose body makes progress equals its own unfolding -/
theorem whileUnread_unfold {σ : Type} (m : Dec σ Unit) (h : ∀ s r, r ≠ [] → StepOk m m s r) (s : σ) (r : Bytes) :
    Dec.whileUnread m s r = if r = [] then .ok () s r else (m >>= fun _ => Dec.whileUnread m) s r := by
  by_cases hr : r = []
  · subst hr; rfl
  · rw [if_neg hr]
    obtain ⟨n, hn⟩ : ∃ n, r.length = n + 1 := ⟨r.length - 1, by have := List.length_pos_iff.mpr hr; omega⟩
    have e : Dec.whileUnread m s r = (m >>= fun _ => Dec.loopN m n) s r := by
      unfold Dec.whileUnread
      rw [hn]
      show (if r = [] then Res.ok () s r else (m >>= fun _ => Dec.loopN m n) s r) = _
      rw [if_neg hr]
    rw [e, Dec.bind_apply, Dec.bind_apply]
    have hs := h s r hr
    unfold StepOk at hs
    revert hs
    cases m s r with
    | ok a s' r' =>
      intro hs
      exact loopN_fuel r (fun s r hr _ => h s r hr) n r'.length s' r' hs.2.1 (by have := hs.2.2; omega) (Nat.le_refl _)
    | err e s' => intro _; rfl
    | panic => intro _; rfl
    | diverge => intro _; rfl

end Egts
