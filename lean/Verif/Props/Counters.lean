import Verif.Model.SrCountersData
import Verif.Lemmas.Wire
set_option autoImplicit false
/- C28: counter subrecord.  The full property
  "decoding delivers the i-th transmitted counter in field Counter_i"
is false of the code: egts_sr_counters_data.go:68 stores the second counter in Counter1.
`counters_decode_wrong` is the machine-checked counterexample, `counters_roundtrip_partial`
gives the exact behaviour for every input (Counter1 receives counter 2 when it is transmitted,
Counter2 is never set); it implies the property for every subrecord without counter 2. -/
namespace Egts

/-- number that appears on the wire for a 24-bit field: the low 24 bits -/
def low24 (v : UInt32) : UInt32 := UInt32.ofNat (v.toNat % 16777216)

theorem u24_take3 (x : UInt32) : u24 ((le32 x).take 3) = low24 x := u32_take3 x

theorem low24_of_lt {v : UInt32} (h : v.toNat < 16777216) : low24 v = v := by
  rw [low24, Nat.mod_eq_of_lt h]; simp

@[simp] theorem encOpt24_bitS (b : Bool) (v : UInt32) :
    encOpt24 (bitS b) v = if b then (le32 v).take 3 else [] := by simp [encOpt24]
@[simp] theorem encOptByte_bitS (b : Bool) (v : UInt8) :
    encOptByte (bitS b) v = if b then [v] else [] := by simp [encOptByte]

/-- what the code really does with every counter subrecord (all flags, all values). -/
theorem counters_behaviour (e : SrCountersData)
    (h1 : IsBit e.CFE1) (h2 : IsBit e.CFE2) (h3 : IsBit e.CFE3) (h4 : IsBit e.CFE4)
    (h5 : IsBit e.CFE5) (h6 : IsBit e.CFE6) (h7 : IsBit e.CFE7) (h8 : IsBit e.CFE8) :
    ∃ b, e.encode = .ok b ∧ SrCountersData.decode {} b = .ok { e with
      CN1 := if e.CFE2 = [49] then low24 e.CN2 else if e.CFE1 = [49] then low24 e.CN1 else 0
      CN2 := 0
      CN3 := if e.CFE3 = [49] then low24 e.CN3 else 0
      CN4 := if e.CFE4 = [49] then low24 e.CN4 else 0
      CN5 := if e.CFE5 = [49] then low24 e.CN5 else 0
      CN6 := if e.CFE6 = [49] then low24 e.CN6 else 0
      CN7 := if e.CFE7 = [49] then low24 e.CN7 else 0
      CN8 := if e.CFE8 = [49] then low24 e.CN8 else 0 } := by
  obtain ⟨f1, f2, f3, f4, f5, f6, f7, f8, c1, c2, c3, c4, c5, c6, c7, c8⟩ := e
  simp only at h1 h2 h3 h4 h5 h6 h7 h8 ⊢
  obtain ⟨f1, rfl⟩ := isBit_iff.mp h1
  obtain ⟨f2, rfl⟩ := isBit_iff.mp h2
  obtain ⟨f3, rfl⟩ := isBit_iff.mp h3
  obtain ⟨f4, rfl⟩ := isBit_iff.mp h4
  obtain ⟨f5, rfl⟩ := isBit_iff.mp h5
  obtain ⟨f6, rfl⟩ := isBit_iff.mp h6
  obtain ⟨f7, rfl⟩ := isBit_iff.mp h7
  obtain ⟨f8, rfl⟩ := isBit_iff.mp h8
  have hf : parseFlags (bitS f8 ++ bitS f7 ++ bitS f6 ++ bitS f5 ++ bitS f4 ++ bitS f3 ++ bitS f2 ++ bitS f1)
    = .ok (flagByte f8 f7 f6 f5 f4 f3 f2 f1) := parse_bits _ _ _ _ _ _ _ _
  refine ⟨_, by simp only [SrCountersData.encode, hf, Go.ok_bind]; rfl, ?_⟩
  simp only [SrCountersData.decode, encOpt24_bitS, bitS_eq49, List.append_assoc, List.cons_append,
    List.nil_append]
  apply Dec.run_of_ok (u := ()) (r := [])
  unfold SrCountersData.decodeM
  refine Dec.step (Dec.readByte_cons _ _ _) ?_
  rw [fmt_flagByte]
  refine Dec.step (Dec.upd_apply _ _ _) ?_; dsimp only [sl, List.drop, List.take]
  refine Dec.step (Dec.optRead_step (·.CN1) f1 ((le32 c1).take 3)) ?_; dsimp only
  refine Dec.step (Dec.optRead_step (·.CN1) f2 ((le32 c2).take 3)) ?_; dsimp only
  refine Dec.step (Dec.optRead_step (·.CN3) f3 ((le32 c3).take 3)) ?_; dsimp only
  refine Dec.step (Dec.optRead_step (·.CN4) f4 ((le32 c4).take 3)) ?_; dsimp only
  refine Dec.step (Dec.optRead_step (·.CN5) f5 ((le32 c5).take 3)) ?_; dsimp only
  refine Dec.step (Dec.optRead_step (·.CN6) f6 ((le32 c6).take 3)) ?_; dsimp only
  refine Dec.step (Dec.optRead_step (·.CN7) f7 ((le32 c7).take 3)) ?_; dsimp only
  rw [← List.append_nil (if f8 = true then _ else _)]
  refine Dec.step (Dec.optRead_step (·.CN8) f8 ((le32 c8).take 3)) ?_; dsimp only
  simp [bitS, u24_take3]

/-- C28, the part that holds: without counter 2 every transmitted counter arrives in its own field. -/
theorem counters_roundtrip_partial (e : SrCountersData)
    (h1 : IsBit e.CFE1) (h2 : e.CFE2 = [48]) (h3 : IsBit e.CFE3) (h4 : IsBit e.CFE4)
    (h5 : IsBit e.CFE5) (h6 : IsBit e.CFE6) (h7 : IsBit e.CFE7) (h8 : IsBit e.CFE8)
    (hv : ∀ v ∈ [e.CN1, e.CN3, e.CN4, e.CN5, e.CN6, e.CN7, e.CN8], v.toNat < 16777216) :
    ∃ b, e.encode = .ok b ∧ SrCountersData.decode {} b = .ok { e with
      CN1 := if e.CFE1 = [49] then e.CN1 else 0
      CN2 := 0
      CN3 := if e.CFE3 = [49] then e.CN3 else 0
      CN4 := if e.CFE4 = [49] then e.CN4 else 0
      CN5 := if e.CFE5 = [49] then e.CN5 else 0
      CN6 := if e.CFE6 = [49] then e.CN6 else 0
      CN7 := if e.CFE7 = [49] then e.CN7 else 0
      CN8 := if e.CFE8 = [49] then e.CN8 else 0 } := by
  obtain ⟨b, hb, hd⟩ := counters_behaviour e h1 (.inl h2) h3 h4 h5 h6 h7 h8
  refine ⟨b, hb, ?_⟩
  simp only [List.mem_cons, List.not_mem_nil, or_false, forall_eq_or_imp, forall_eq] at hv
  obtain ⟨v1, v3, v4, v5, v6, v7, v8⟩ := hv
  rw [hd, low24_of_lt v1, low24_of_lt v3, low24_of_lt v4, low24_of_lt v5, low24_of_lt v6,
    low24_of_lt v7, low24_of_lt v8, h2]
  simp

/-- C28 is false of the code: a subrecord that transmits only counter 2, with value 5, is decoded
with Counter1 = 5 and Counter2 = 0. -/
theorem counters_decode_wrong :
    ∃ e : SrCountersData, ∃ b, e.encode = .ok b ∧ e.CFE2 = [49] ∧ e.CN2 = 5 ∧
      ∃ e' : SrCountersData, SrCountersData.decode {} b = .ok e' ∧ e'.CFE2 = [49] ∧ e'.CN2 = 0 ∧ e'.CN1 = 5 := by
  refine ⟨{
    CFE1 := [48], CFE2 := [49], CFE3 := [48], CFE4 := [48], CFE5 := [48], CFE6 := [48],
    CFE7 := [48], CFE8 := [48], CN2 := 5 }, [2, 5, 0, 0], by decide, rfl, rfl, _, rfl, ?_⟩
  decide

/-- the hypotheses of `counters_roundtrip_partial` are met by a subrecord with counters 1, 3 and 8 (test). -/
example : let e : SrCountersData := {
      CFE1 := [49], CFE2 := [48], CFE3 := [49], CFE4 := [48], CFE5 := [48],
      CFE6 := [48], CFE7 := [48], CFE8 := [49], CN1 := 1, CN3 := 70000, CN8 := 16777215 }
    e.encode = .ok [133, 1, 0, 0, 112, 17, 1, 255, 255, 255] ∧ SrCountersData.decode {} [133, 1, 0, 0, 112, 17, 1, 255, 255, 255] = .ok e
    ∧ ∀ v ∈ [e.CN1, e.CN3, e.CN4, e.CN5, e.CN6, e.CN7, e.CN8], v.toNat < 16777216 := by
  decide

end Egts
