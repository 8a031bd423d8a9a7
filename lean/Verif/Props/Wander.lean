import Mathlib.Order.Basic
import Mathlib.Logic.Function.Iterate
import Verif.Spec.Wander
import Verif.Props.Pos
import Verif.Lemmas.KernelRfl
set_option autoImplicit false
/- C137: positions that are passed on again and again. -/
namespace Egts
open Frame
variable [P : Platform]

/-- what one program of the chain makes of the coordinates -/
def latAgain (n : Nat) : Nat := (rawOfLat (latOfRaw (UInt32.ofNat n))).toNat
def lonAgain (n : Nat) : Nat := (rawOfLon (lonOfRaw (UInt32.ofNat n))).toNat

theorem again_coords {m c : Bytes} {e : SrPosData} (h : SrPosData.decode {} m = .ok e) (h' : e.encode = .ok c) :
    rawLat c = latAgain (rawLat m) ∧ rawLong c = lonAgain (rawLong m) ∧ ntm c = ntm m := by
  obtain ⟨-, he⟩ := (pos_decode_iff m e).mp h
  have ht := (navtime_encoded e (ntm m) (wireNat_lt m 0 4) (navtime_decoded m e h) c h').1
  subst he
  obtain ⟨fl, -, rfl⟩ := pos_encode_eq _ _ h'
  have V : ∀ z : UInt32, leValue (le32 z) = z.toNat := by
    intro z; have := z.toNat_lt
    simp only [le32, leValue, u8_ofNat_toNat]; omega
  refine ⟨?_, ?_, ht⟩
  · change leValue (le32 (rawOfLat (latOfRaw _))) = _
    rw [V]; rfl
  · change leValue (le32 (rawOfLon (lonOfRaw _))) = _
    rw [V]; rfl

theorem relayed_coords {b c : Bytes} {n : Nat} (h : Relayed b n c) :
    rawLat c = latAgain^[n] (rawLat b) ∧ rawLong c = lonAgain^[n] (rawLong b) ∧ ntm c = ntm b := by
  induction h with
  | sent => exact ⟨rfl, rfl, rfl⟩
  | on _ hd he ih =>
    obtain ⟨a1, a2, a3⟩ := again_coords hd he
    obtain ⟨i1, i2, i3⟩ := ih
    rw [Function.iterate_succ_apply', Function.iterate_succ_apply', a1, a2, a3, i1, i2, i3]
    exact ⟨rfl, rfl, rfl⟩

theorem relayed_step {b c : Bytes} {n : Nat} (h : Relayed b n c) :
    rawLat c ≤ rawLat b ∧ rawLat b ≤ rawLat c + n ∧ rawLong c ≤ rawLong b ∧ rawLong b ≤ rawLong c + n := by
  induction h with
  | sent => simp
  | on _ hd he ih =>
    obtain ⟨h1, h2⟩ := coord_reencode_partial _ _ _ hd he
    omega

/-- C137 (partial): after `n` programs a position is at most `n` steps of the wire format from where it was, and its time is the same. Missing: at most
one step, see `wander_wrong`. -/
theorem wander_partial {b c : Bytes} {n : Nat} (h : Relayed b n c) :
    (rawLat c ≤ rawLat b ∧ rawLat b ≤ rawLat c + n) ∧ (rawLong c ≤ rawLong b ∧ rawLong b ≤ rawLong c + n) ∧ ntm c = ntm b := by
  obtain ⟨h1, h2, h3, h4⟩ := relayed_step h
  exact ⟨⟨h1, h2⟩, ⟨h3, h4⟩, (relayed_coords h).2.2⟩

theorem settles_of_le (f : Nat → Nat) (hf : ∀ n, n < 2 ^ 32 → f n ≤ n) (v : Nat) (hv : v < 2 ^ 32) :
    ∃ N ≤ v, ∀ n, N ≤ n → f^[n] v = f^[N] v := by
  induction v using Nat.strongRecOn with
  | ind v ih =>
    by_cases h : f v = v
    · exact ⟨0, Nat.zero_le _, fun n _ => by rw [Function.iterate_fixed h]; rfl⟩
    · have hlt : f v < v := lt_of_le_of_ne (hf v hv) h
      obtain ⟨N, hN, hs⟩ := ih (f v) hlt (by omega)
      refine ⟨N + 1, by omega, fun n hn => ?_⟩
      obtain ⟨n, rfl⟩ : ∃ m, n = m + 1 := ⟨n - 1, by omega⟩
      rw [Function.iterate_succ_apply, Function.iterate_succ_apply]
      exact hs n (by omega)

theorem latAgain_le (n : Nat) (hn : n < 2 ^ 32) : latAgain n ≤ n := by
  have := reencode_core (UInt32.ofNat n) 90 (by norm_num) (by norm_num)
  unfold latAgain
  rw [latOfRaw_eq, rawOfLat]
  push_cast at this
  rw [u32_ofNat_toNat hn] at this ⊢
  omega

theorem lonAgain_le (n : Nat) (hn : n < 2 ^ 32) : lonAgain n ≤ n := by
  have := reencode_core (UInt32.ofNat n) 180 (by norm_num) (by norm_num)
  unfold lonAgain
  rw [lonOfRaw_eq, rawOfLon]
  push_cast at this
  rw [u32_ofNat_toNat hn] at this ⊢
  omega

/-- C137 (partial): a position does not wander for ever: there is a place it never leaves after some number of programs. -/
theorem wander_settles_partial (b : Bytes) : ∃ N lat long, ∀ n c, N ≤ n → Relayed b n c → rawLat c = lat ∧ rawLong c = long := by
  obtain ⟨N, -, h1⟩ := settles_of_le latAgain latAgain_le (rawLat b) (wireNat_lt b 4 4)
  obtain ⟨M, -, h2⟩ := settles_of_le lonAgain lonAgain_le (rawLong b) (wireNat_lt b 8 4)
  refine ⟨max N M, latAgain^[N] (rawLat b), lonAgain^[M] (rawLong b), fun n c hn h => ?_⟩
  obtain ⟨e1, e2, -⟩ := relayed_coords h
  exact ⟨by rw [e1, h1 n (by omega)], by rw [e2, h2 n (by omega)]⟩

/-- C137 (partial): the same chain, from any two points of it on: once a program has written what it has read, all that follow do so too. -/
theorem wander_stops_partial {b c c' : Bytes} {n : Nat} (h : Relayed b n c) (h' : Relayed b (n + 1) c')
    (hs : rawLat c' = rawLat c ∧ rawLong c' = rawLong c) (m : Nat) (d : Bytes) (hm : n ≤ m) (hd : Relayed b m d) :
    rawLat d = rawLat c ∧ rawLong d = rawLong c := by
  obtain ⟨e1, e2, -⟩ := relayed_coords h
  obtain ⟨f1, f2, -⟩ := relayed_coords h'
  obtain ⟨g1, g2, -⟩ := relayed_coords hd
  obtain ⟨k, rfl⟩ : ∃ k, m = k + n := ⟨m - n, by omega⟩
  rw [Function.iterate_succ_apply', ← e1] at f1
  rw [Function.iterate_succ_apply', ← e2] at f2
  rw [Function.iterate_add_apply, ← e1] at g1
  rw [Function.iterate_add_apply, ← e2] at g2
  rw [hs.1] at f1
  rw [hs.2] at f2
  rw [g1, g2, Function.iterate_fixed f1.symm, Function.iterate_fixed f2.symm]
  exact ⟨rfl, rfl⟩

/-! ### a position that wanders for 1433 steps -/

/-- a position on the equator's meridian 0 but for its latitude -/
def posAt (lat : Nat) : Bytes := [0, 0, 0, 0] ++ le32 (UInt32.ofNat lat) ++ [0, 0, 0, 0] ++ [1] ++ [0, 0, 0, 0, 0, 0, 0, 0]

theorem posAt_lat (lat : Nat) (h : lat < 2 ^ 32) : rawLat (posAt lat) = lat := by
  have : rawLat (posAt lat) = leValue (le32 (UInt32.ofNat lat)) := rfl
  rw [this]
  simp only [le32, leValue, u8_ofNat_toNat]
  rw [u32_ofNat_toNat h]
  omega

/-- a decoded position with nothing but a latitude and VLD -/
def flatPos (x : F64) : SrPosData := {
  NavigationTime := navTimeOfRaw 0, Latitude := x, Longitude := lonOfRaw 0, ALTE := [48], LOHS := [48], LAHS := [48], MV := [48], BB := [48],
  CS := [48], FIX := [48], VLD := [49] }

theorem flatPos_encode (x : F64) : (flatPos x).encode = .ok ([0, 0, 0, 0] ++ le32 (rawOfLat x) ++ [0, 0, 0, 0] ++ [1] ++ [0, 0, 0, 0, 0, 0, 0, 0]) := by
  have h1 : le32 (rawOfNavTime (navTimeOfRaw 0)) = [0, 0, 0, 0] := by kernel_rfl
  have h2 : le32 (rawOfLon (lonOfRaw 0)) = [0, 0, 0, 0] := by kernel_rfl
  have h3 : parseFlags ([48] ++ [48] ++ [48] ++ [48] ++ [48] ++ [48] ++ [48] ++ [49]) = .ok 1 := by kernel_rfl
  unfold SrPosData.encode
  have h4 : le16 (flatPos x).speedWord = [0, 0] := by
    have : (flatPos x).speedWord = 0 := by simp [flatPos, SrPosData.speedWord]
    rw [this]; rfl
  have h6 : (le32 0).take 3 = [0, 0, 0] := rfl
  have h7 : (flatPos x).ALTE = [48] := rfl
  rw [h4]
  simp only [flatPos, h1, h2, h3, h6, Go.ok_bind, Go.pure_def]
  simp

theorem posOf_posAt (lat : Nat) : posOf {} (posAt lat) = flatPos (latOfRaw (UInt32.ofNat (rawLat (posAt lat)))) := by
  have e1 : ntm (posAt lat) = 0 := rfl
  have e2 : rawLong (posAt lat) = 0 := rfl
  have e3 : posFlags (posAt lat) = 1 := rfl
  have e4 : spdWord (posAt lat) = 0 := rfl
  have e5 : dirByte (posAt lat) = 0 := rfl
  have e6 : odm (posAt lat) = 0 := rfl
  have e7 : byteAt (posAt lat) 19 = 0 := rfl
  have e8 : byteAt (posAt lat) 20 = 0 := rfl
  have e9 : hasAlt (posAt lat) = false := by unfold hasAlt; rw [e3]; decide
  unfold posOf flatPos
  simp only [e1, e2, e3, e4, e5, e6, e7, e8, e9]
  rfl
theorem posAt_again (lat : Nat) (h : lat < 2 ^ 32) : ∃ e, SrPosData.decode {} (posAt lat) = .ok e ∧ e.encode = .ok (posAt (latAgain lat)) := by
  have ha : hasAlt (posAt lat) = false := by
    have : posFlags (posAt lat) = 1 := rfl
    unfold hasAlt; rw [this]; decide
  refine ⟨_, (pos_decode_iff _ _).mpr ⟨⟨by simp [posAt, le32], by simp [ha]⟩, rfl⟩, ?_⟩
  rw [posOf_posAt, flatPos_encode, posAt_lat lat h]
  simp [posAt, latAgain]

theorem wander_values : (List.range 1433).all (fun k => (rawOfLat (latOfRaw (UInt32.ofNat (3054279064 - k)))).toNat + k + 1 == 3054279064) = true := by
  kernel_rfl

/-- C137 is false of the code: a position with latitude 3054279064 (64 degrees north) is a step further south after each of 1433 programs -/
theorem wander_wrong : ∀ n ≤ 1433, ∃ c, Relayed (posAt 3054279064) n c ∧ rawLat c + n = rawLat (posAt 3054279064) := by
  have key : ∀ n ≤ 1433, Relayed (posAt 3054279064) n (posAt (3054279064 - n)) := by
    intro n
    induction n with
    | zero => intro _; exact .sent
    | succ n ih =>
      intro hn
      obtain ⟨e, h1, h2⟩ := posAt_again (3054279064 - n) (by omega)
      have := List.all_eq_true.mp wander_values n (List.mem_range.mpr (by omega))
      rw [beq_iff_eq] at this
      have hl : latAgain (3054279064 - n) = 3054279064 - (n + 1) := by unfold latAgain; omega
      rw [hl] at h2
      exact .on (ih (by omega)) h1 h2
  intro n hn
  exact ⟨_, key n hn, by rw [posAt_lat _ (by omega), posAt_lat _ (by omega)]; omega⟩

end Egts
