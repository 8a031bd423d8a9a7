import Verif.Spec.Reuse
import Verif.Lemmas.Count
set_option autoImplicit false
/- Two runs of a decoder in lockstep, the receiver of one a function of that of the other. -/
namespace Egts
section
variable {σ α β : Type}

/-- from `μ s` the decoder does what it does from `s`, and ends in `ν` of the other result -/
def LSat (μ ν : σ → σ) (m : Dec σ α) (s : σ) (r : Bytes) : Prop :=
  match m s r with
  | .ok a t r' => m (μ s) r = .ok a (ν t) r'
  | .err x _ => ∃ t', m (μ s) r = .err x t'
  | .panic => m (μ s) r = .panic
  | .diverge => m (μ s) r = .diverge

def LS (μ ν : σ → σ) (m : Dec σ α) : Prop := ∀ s r, LSat μ ν m s r

theorem LSat.bind {μ ν ρ : σ → σ} {m : Dec σ α} {k : α → Dec σ β} {s : σ} {r : Bytes} (h : LSat μ ν m s r)
    (hk : ∀ a t r', m s r = .ok a t r' → LSat ν ρ (k a) t r') : LSat μ ρ (m >>= k) s r := by
  unfold LSat at h ⊢
  simp only [Dec.bind_apply]
  cases hm : m s r with
  | ok a t r' =>
    rw [hm] at h
    simp only at h ⊢
    rw [h]
    exact hk a t r' hm
  | err x t =>
    rw [hm] at h
    obtain ⟨t', h⟩ := h
    exact ⟨t', by rw [h]⟩
  | panic =>
    rw [hm] at h
    simp only at h ⊢
    rw [h]
  | diverge =>
    rw [hm] at h
    simp only at h ⊢
    rw [h]

theorem LS.bind {μ : σ → σ} (ν : σ → σ) {ρ : σ → σ} {m : Dec σ α} {k : α → Dec σ β} (h : LS μ ν m) (hk : ∀ a, LS ν ρ (k a)) : LS μ ρ (m >>= k) :=
  fun s r => (h s r).bind fun a t r' _ => hk a t r'

theorem LS.upd {μ ν : σ → σ} {f : σ → σ} (h : ∀ s, f (μ s) = ν (f s)) : LS μ ν (Dec.upd f) := by
  intro s r
  show Dec.upd f (μ s) r = _
  simp [Dec.upd, h]

theorem LS.pure {μ : σ → σ} {a : α} : LS μ μ (pure a : Dec σ α) := fun _ _ => rfl

theorem LS.pureEq {μ ν : σ → σ} {a : α} (h : ∀ s, μ s = ν s) : LS μ ν (Pure.pure a : Dec σ α) := by
  obtain rfl : μ = ν := funext h
  exact LS.pure

theorem LS.fail {μ ν : σ → σ} {x : Err} : LS μ ν (Dec.fail x : Dec σ α) := fun s _ => ⟨μ s, rfl⟩

theorem LS.readByte {μ : σ → σ} : LS μ μ (Dec.readByte : Dec σ UInt8) := by
  intro s r
  cases r with
  | nil => exact ⟨_, rfl⟩
  | cons b r => rfl

theorem LS.read {μ : σ → σ} {p : Bytes} : LS μ μ (Dec.read p : Dec σ Bytes) := by
  intro s r
  unfold LSat Dec.read
  split <;> rename_i h <;> split at h <;> (try (split at h)) <;> cases h <;> simp_all

theorem LS.unread {μ : σ → σ} : LS μ μ (Dec.unread : Dec σ Bytes) := fun _ _ => rfl

theorem LS.readNul {μ : σ → σ} : LS μ μ (readNul : Dec σ Bytes) := by
  intro s r
  unfold LSat Egts.readNul
  by_cases h : (0 : UInt8) ∈ r <;> simp [h]

theorem LS.call {μ : σ → σ} {o : Out α} : LS μ μ (Dec.call o : Dec σ α) := by
  intro s r
  cases o with
  | err e q => exact ⟨_, rfl⟩
  | _ => rfl

theorem LS.readByteTo {μ ν : σ → σ} {f : σ → UInt8 → σ} (h : ∀ s b, f (μ s) b = ν (f s b)) : LS μ ν (Dec.readByteTo f) := by
  intro s r
  cases r with
  | nil => exact ⟨_, rfl⟩
  | cons b r =>
    show Dec.readByteTo f (μ s) (b :: r) = .ok () (ν (f s b)) r
    rw [← h]; rfl

/-- an optional field -/
theorem LS.opt {μ ν : σ → σ} {cond : σ → Bytes} {m : Dec σ α} {a : α} (h0 : ∀ s, cond (μ s) = cond s)
    (h1 : ∀ s, cond s = [49] → ∀ r, LSat μ ν m s r) (h2 : ∀ s, cond s ≠ [49] → μ s = ν s) :
    LS μ ν (Dec.get >>= fun e => if cond e == [49] then m else Pure.pure a) := by
  intro s r
  show LSat μ ν _ s r
  unfold LSat
  simp only [Dec.bind_apply, Dec.get]
  by_cases h : cond s = [49]
  · have := h1 s h r
    unfold LSat at this
    simpa [h, h0] using this
  · have hb : (cond s == [49]) = false := by simpa using h
    have hb' : (cond (μ s) == [49]) = false := by rw [h0]; exact hb
    simp only [hb, hb', Bool.false_eq_true, if_false, Dec.pure_apply]
    rw [h2 s h]

theorem LSat.updAt {μ ν : σ → σ} {f : σ → σ} {s : σ} {r : Bytes} (h : f (μ s) = ν (f s)) : LSat μ ν (Dec.upd f) s r := by
  show Dec.upd f (μ s) r = _
  simp [Dec.upd, h]

theorem LS.optRead {τ : Type} {μ ν : σ → σ} {cond : σ → Bytes} {p : Bytes} {conv : Bytes → τ} {set : σ → τ → σ} (h0 : ∀ s, cond (μ s) = cond s)
    (h1 : ∀ s v, cond s = [49] → set (μ s) v = ν (set s v)) (h2 : ∀ s, cond s ≠ [49] → μ s = ν s) :
    LS μ ν (Dec.optRead cond p conv set) := by
  refine LS.opt h0 (fun s hs r => ?_) h2
  refine (LS.read s r).bind fun t s' r' ht => ?_
  obtain rfl : s' = s := (Dec.read_inv ht).1
  refine LSat.bind (ν := ν) (LSat.updAt (h1 _ _ hs)) fun _ _ _ _ => LS.pure _ _

theorem LS.optByte {μ ν : σ → σ} {cond : σ → Bytes} {set : σ → UInt8 → σ} (h0 : ∀ s, cond (μ s) = cond s)
    (h1 : ∀ s v, cond s = [49] → set (μ s) v = ν (set s v)) (h2 : ∀ s, cond s ≠ [49] → μ s = ν s) :
    LS μ ν (Dec.optByte cond set) := by
  refine LS.opt h0 (fun s hs r => ?_) h2
  cases r with
  | nil => exact ⟨_, rfl⟩
  | cons b r =>
    show Dec.readByteTo set (μ s) (b :: r) = .ok () (ν (set s b)) r
    rw [← h1 s b hs]; rfl

theorem LSat.sameBut {μ ν : σ → σ} {m : Dec σ Unit} {s : σ} {c : Bytes} (h : LSat μ ν m s c) : SameBut ν (m.run (μ s) c) (m.run s c) := by
  unfold LSat at h
  unfold SameBut Dec.run
  cases hm : m s c with
  | ok a t r' =>
    rw [hm] at h
    simp only at h ⊢
    rw [h]
  | err x t =>
    rw [hm] at h
    obtain ⟨t', h⟩ := h
    exact ⟨t', by rw [h]⟩
  | panic =>
    rw [hm] at h
    simp only at h ⊢
    rw [h]
  | diverge =>
    rw [hm] at h
    simp only at h ⊢
    rw [h]

theorem LS.sameBut {e : σ} {ν : σ → σ} {m : Dec σ Unit} (h : LS (fun _ => e) ν m) (s : σ) (c : Bytes) : SameBut ν (m.run e c) (m.run s c) :=
  LSat.sameBut (μ := fun _ => e) (h s c)
end
end Egts
