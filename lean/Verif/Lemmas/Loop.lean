import Verif.Lemmas.Records
set_option autoImplicit false
/- Invariants of decoding loops. -/
namespace Egts

theorem Dec.loopN_inv {σ : Type} {m : Dec σ Unit} (I : σ → Prop)
    (h : ∀ s r s' r', I s → m s r = .ok () s' r' → I s') (n : Nat) (s s' : σ) (r r' : Bytes) (hs : I s)
    (hr : Dec.loopN m n s r = .ok () s' r') : I s' := by
  induction n generalizing s r with
  | zero =>
    unfold Dec.loopN at hr
    split at hr
    · cases hr; exact hs
    · cases hr
  | succ n ih =>
    unfold Dec.loopN at hr
    split at hr
    · cases hr; exact hs
    · rw [Dec.bind_apply] at hr
      revert hr
      cases hm : m s r with
      | ok a s1 r1 => intro hr; exact ih s1 r1 (h s r s1 r1 hs hm) hr
      | err e s1 => intro hr; cases hr
      | panic => intro hr; cases hr
      | diverge => intro hr; cases hr

theorem Dec.while_inv {σ : Type} {m : Dec σ Unit} (I : σ → Prop)
    (h : ∀ s r s' r', I s → m s r = .ok () s' r' → I s') (s s' : σ) (b : Bytes) (hs : I s)
    (hr : (Dec.whileUnread m).run s b = .ok s') : I s' := by
  unfold Dec.run at hr
  revert hr
  cases hw : Dec.whileUnread m s b with
  | ok a s1 r1 => intro hr; cases hr; exact Dec.loopN_inv I h _ _ _ _ _ hs hw
  | err e s1 => intro hr; cases hr
  | panic => intro hr; cases hr
  | diverge => intro hr; cases hr

variable [P : Platform]

/-- one step of the subrecord loop appends a subrecord with decoded data -/
theorem rdsStep_inv (s s' : RecordDataSet) (r r' : Bytes) (h : rdsStep nestedDecode s r = .ok () s' r') :
    ∃ t srl b d, decodeSub nestedDecode t srl b = .ok d ∧ s' = s ++ [⟨t, srl, some d⟩] := by
  unfold rdsStep at h
  rw [Dec.bind_apply] at h
  revert h
  cases r with
  | nil => intro h; cases h
  | cons t r =>
    simp only [Dec.readByte_cons]
    rw [Dec.bind_apply]
    rcases read_props (zeros 2) s r with ⟨-, hr⟩ | ⟨-, hr⟩
    · rw [hr]; intro h; cases h
    rw [hr]
    simp only [Dec.bind_apply, Dec.next_apply]
    generalize u16 _ = srl
    generalize List.drop _ r = r1
    cases hd : decodeSub nestedDecode t srl (r1.take srl.toNat) with
    | ok d =>
      intro h
      simp only [Dec.call, Dec.upd_apply] at h
      cases h
      exact ⟨t, srl, _, d, hd, rfl⟩
    | err e d => intro h; cases h
    | panic => intro h; cases h
    | diverge => intro h; cases h

theorem rds_decode_inv (I : RecordData → Prop)
    (h : ∀ t srl b d, decodeSub nestedDecode t srl b = .ok d → I ⟨t, srl, some d⟩)
    (b : Bytes) (l : RecordDataSet) (hd : RecordDataSet.decode [] b = .ok l) : ∀ rd ∈ l, I rd := by
  refine Dec.while_inv (fun s : RecordDataSet => ∀ rd ∈ s, I rd) ?_ [] l b (by simp) hd
  intro s r s' r' hs hr
  obtain ⟨t, srl, b, d, hdd, rfl⟩ := rdsStep_inv s s' r r' hr
  intro rd hrd
  rcases List.mem_append.mp hrd with h1 | h1
  · exact hs rd h1
  · rw [List.mem_singleton.mp h1]; exact h t srl b d hdd

end Egts
