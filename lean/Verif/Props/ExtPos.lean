import Verif.Model.SrExtPosData
import Verif.Lemmas.Wire
set_option autoImplicit false
/- C26: extended position subrecord. -/
namespace Egts

/-- C26: for every extended position whose existence flags are `"0"`/`"1"`, `Encode` succeeds and
`Decode` of the result (into an empty value) gives back the flags and every field marked as
existing (fields not transmitted stay zero). -/
theorem extpos_roundtrip (e : SrExtPosData)
    (hN : IsBit e.NavigationSystemFieldExists) (hS : IsBit e.SatellitesFieldExists)
    (hP : IsBit e.PdopFieldExists) (hH : IsBit e.HdopFieldExists) (hV : IsBit e.VdopFieldExists) :
    ∃ b, e.encode = .ok b ∧ SrExtPosData.decode {} b = .ok { e with
      VerticalDilutionOfPrecision := if e.VdopFieldExists = [49] then e.VerticalDilutionOfPrecision else 0
      HorizontalDilutionOfPrecision := if e.HdopFieldExists = [49] then e.HorizontalDilutionOfPrecision else 0
      PositionDilutionOfPrecision := if e.PdopFieldExists = [49] then e.PositionDilutionOfPrecision else 0
      Satellites := if e.SatellitesFieldExists = [49] then e.Satellites else 0
      NavigationSystem := if e.NavigationSystemFieldExists = [49] then e.NavigationSystem else 0 } := by
  obtain ⟨n, s, p, h, v, vd, hd, pd, sat, ns⟩ := e
  simp only at hN hS hP hH hV ⊢
  obtain ⟨n, rfl⟩ := isBit_iff.mp hN
  obtain ⟨s, rfl⟩ := isBit_iff.mp hS
  obtain ⟨p, rfl⟩ := isBit_iff.mp hP
  obtain ⟨h, rfl⟩ := isBit_iff.mp hH
  obtain ⟨v, rfl⟩ := isBit_iff.mp hV
  have hf : parseFlags ([48, 48, 48] ++ bitS n ++ bitS s ++ bitS p ++ bitS h ++ bitS v)
    = .ok (flagByte false false false n s p h v) := parse_bits false false false n s p h v
  refine ⟨_, by simp only [SrExtPosData.encode, hf, Go.ok_bind]; rfl, ?_⟩
  simp only [SrExtPosData.decode, bitS_eq_one, bitS_eq49, List.append_assoc, List.cons_append,
    List.nil_append]
  apply Dec.run_of_ok (u := ()) (r := [])
  unfold SrExtPosData.decodeM
  refine Dec.step (Dec.readByte_cons _ _ _) ?_
  rw [fmt_flagByte]
  refine Dec.step (Dec.upd_apply _ _ _) ?_; dsimp only [sl, List.drop, List.take]
  refine Dec.step (Dec.optRead_step (·.VerticalDilutionOfPrecision) v (le16 vd)) ?_; dsimp only
  refine Dec.step (Dec.optRead_step (·.HorizontalDilutionOfPrecision) h (le16 hd)) ?_; dsimp only
  refine Dec.step (Dec.optRead_step (·.PositionDilutionOfPrecision) p (le16 pd)) ?_; dsimp only
  refine Dec.step (Dec.optByte_step (·.Satellites) s sat) ?_; dsimp only
  rw [← List.append_nil (if n = true then _ else _)]
  refine Dec.step (Dec.optRead_step (·.NavigationSystem) n (le16 ns)) ?_; dsimp only
  simp [bitS]

/-- a concrete extended position that meets the hypotheses and exercises present and absent fields (test). -/
example : let e : SrExtPosData := {
      NavigationSystemFieldExists := [48], SatellitesFieldExists := [49],
      PdopFieldExists := [48], HdopFieldExists := [49], VdopFieldExists := [49],
      VerticalDilutionOfPrecision := 7, HorizontalDilutionOfPrecision := 300, Satellites := 9 }
    IsBit e.NavigationSystemFieldExists ∧ IsBit e.SatellitesFieldExists ∧ IsBit e.PdopFieldExists ∧
    IsBit e.HdopFieldExists ∧ IsBit e.VdopFieldExists ∧
    e.encode = .ok [11, 7, 0, 44, 1, 9] ∧ SrExtPosData.decode {} [11, 7, 0, 44, 1, 9] = .ok e := by
  refine ⟨?_, ?_, ?_, ?_, ?_, by decide, by decide⟩ <;> simp [IsBit]

end Egts
