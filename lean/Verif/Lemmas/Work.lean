import Verif.Model.Work
import Verif.Props.Body
set_option autoImplicit false
/- Lemmas about the work of decoding. -/
namespace Egts
open Frame
variable [P : Platform]

omit P in
/-- a potential bounds the work of a loop -/
theorem loopWork_le {σ : Type} (body : Dec σ Unit) (cost : Bytes → Nat) (Φ : Bytes → Nat)
    (hfail : ∀ r, r ≠ [] → cost r ≤ Φ r)
    (hok : ∀ s r s' r', r ≠ [] → body s r = .ok () s' r' → cost r + Φ r' ≤ Φ r) :
    ∀ (n : Nat) (s : σ) (r : Bytes), loopWork body cost n s r ≤ Φ r := by
  intro n
  induction n with
  | zero => intro s r; simp [loopWork]
  | succ n ih =>
    intro s r
    unfold loopWork
    split
    · exact Nat.zero_le _
    · rename_i hr
      cases hb : body s r with
      | ok u s' r' =>
        have := hok s r s' r' hr hb
        have := ih s' r'
        simp only
        omega
      | err e s' => simpa using hfail r hr
      | panic => simpa using hfail r hr
      | diverge => simpa using hfail r hr

omit P in
theorem nz_le_len (b : Bytes) : nz b ≤ b.length := List.countP_le_length

omit P in
theorem word16_bound (r : Bytes) (i : Nat) : word16At r i < 65536 := by
  unfold word16At
  simp only [leValue]
  have := (byteAt r i).toNat_lt
  have := (byteAt r (i + 1)).toNat_lt
  omega

omit P in
theorem nz_cons (x : UInt8) (b : Bytes) : nz (x :: b) = nz b + if x = 0 then 0 else 1 := by
  unfold nz
  by_cases h : x = 0 <;> simp [h]

theorem response_short (c : Bytes) (h : c.length < 3) (d : SrResponse) : SrResponse.decode {} c ≠ .ok d := by
  match c, h with
  | [], _ => intro h; cases h
  | [a], _ => intro h; cases h
  | [a, b], _ => intro h; cases h

/-- the content of type 0 that is accepted has at least three bytes -/
theorem content_zero {srl : UInt16} {c : Bytes} {d : SubData} (h : Content 0 srl c d) : 3 ≤ c.length := by
  by_contra hc
  cases d with
  | response d => exact response_short c (by omega) d h.2
  | state d => obtain ⟨⟨h, -⟩ | h, -⟩ := h <;> exact absurd h (by decide)
  | _ => exact absurd h.1 (by decide)

omit P in
theorem word16_pos_nz (r : Bytes) (i : Nat) (h : 0 < word16At r i) : 0 < nz ((r.drop i).take 2) := by
  by_contra hz
  have h0 : nz ((r.drop i).take 2) = 0 := by omega
  have hall : ∀ x ∈ (r.drop i).take 2, x = 0 := by
    intro x hx
    have := List.countP_eq_zero.mp h0 x hx
    simpa using this
  have hb : ∀ j, j < 2 → byteAt r (i + j) = 0 := by
    intro j hj
    unfold byteAt
    by_cases hl : i + j < r.length
    · apply hall
      rw [List.getD_eq_getElem?_getD, List.getElem?_eq_getElem hl]
      refine List.mem_iff_getElem.mpr ⟨j, by simp; omega, ?_⟩
      simp
    · rw [List.getD_eq_getElem?_getD, List.getElem?_eq_none (by omega)]
      rfl
  have h1 := hb 0 (by omega)
  have h2 := hb 1 (by omega)
  unfold word16At at h
  simp only [Nat.add_zero] at h1
  rw [h1, h2] at h
  simp [leValue] at h

omit P in
theorem content_len (r : Bytes) : (contentAt r).length ≤ word16At r 1 := by
  unfold contentAt
  rw [List.length_take]
  omega

omit P in
/-- a subrecord with content has a nonzero byte in its length field -/
theorem content_nz (r : Bytes) (h : 0 < (contentAt r).length) : nz (contentAt r) + 1 ≤ nz r := by
  have h1 := content_len r
  have h2 := word16_pos_nz r 1 (by omega)
  have h3 : r = r.take 1 ++ ((r.drop 1).take 2 ++ r.drop 3) := by
    rw [show r.drop 3 = (r.drop 1).drop 2 by simp, List.take_append_drop, List.take_append_drop]
  have h4 : nz r = nz (r.take 1) + (nz ((r.drop 1).take 2) + nz (r.drop 3)) := by
    conv_lhs => rw [h3]
    rw [nz_append, nz_append]
  have h5 : nz (contentAt r) ≤ nz (r.drop 3) := nz_take_le _ _
  omega

omit P in
theorem contentAt_shape (t : UInt8) (n : Nat) (c : Bytes) (rest : Bytes) (hn : n < 65536) (hc : c.length = n ∨ c.length < n ∧ rest = []) :
    contentAt ([t] ++ leBytes 2 n ++ c ++ rest) = c := by
  have hw : word16At ([t] ++ leBytes 2 n ++ c ++ rest) 1 = n := by
    simp [word16At, byteAt, leBytes, leValue]
    omega
  unfold contentAt
  rw [hw]
  have : ([t] ++ leBytes 2 n ++ c ++ rest).drop 3 = c ++ rest := by simp [leBytes]
  rw [this]
  rcases hc with hc | ⟨hc, rfl⟩
  · rw [← hc, List.take_left' rfl]
  · rw [List.append_nil, List.take_of_length_le (by omega)]

omit P in
theorem subWork_le {nested : Bytes → Nat} (hn : ∀ c, nested c ≤ 65533 * nz c + c.length) (r : Bytes) (hr : 0 < nz r ) :
    subWork nested r ≤ 65533 * nz r := by
  unfold subWork
  split
  · rename_i h
    have h1 := content_nz r (by omega)
    have h2 := hn ((contentAt r).drop 3)
    have h3 : nz ((contentAt r).drop 3) ≤ nz (contentAt r) := nz_drop_le _ _
    have h4 := content_len r
    have h5 := word16_bound r 1
    have h6 : ((contentAt r).drop 3).length = (contentAt r).length - 3 := List.length_drop
    have h7 : 65533 * (nz ((contentAt r).drop 3) + 1) ≤ 65533 * nz r := Nat.mul_le_mul_left _ (by omega)
    omega
  · omega


omit P in
theorem sub_step_nz (t : UInt8) (n : Nat) (x : Bytes) (hn : n < 65536) (h : t ≠ 0 ∨ 0 < n) : 0 < nz ([t] ++ leBytes 2 n ++ x) := by
  rw [nz_append, nz_append]
  rcases h with h | h
  · have : nz [t] = 1 := by simp [nz, h]
    omega
  · have h2 := word16_pos_nz (leBytes 2 n) 0 (by simp [word16At, byteAt, leBytes, leValue]; omega)
    have h3 : nz (((leBytes 2 n).drop 0).take 2) ≤ nz (leBytes 2 n) := by
      rw [List.drop_zero]; exact nz_take_le _ _
    omega

theorem rdsWork_le {nested : Bytes → Nat} (hn : ∀ c, nested c ≤ 65533 * nz c + c.length) (b : Bytes) :
    rdsWork nested b ≤ 65533 * nz b + 1 := by
  unfold rdsWork
  refine loopWork_le (rdsStep nestedDecode) (subWork nested) (fun r => 65533 * nz r + 1) ?_ ?_ _ _ _
  · intro r hr
    by_cases hz : 0 < nz r
    · have := subWork_le hn r hz
      omega
    · unfold subWork
      split
      · rename_i h
        have := content_nz r (by omega)
        omega
      · omega
  · intro s r s' r' hr h
    obtain ⟨rd, -, h⟩ := (rdsStep_iff s s' r r').mp h
    rcases h with ⟨c, d, rfl, hl, hd, hc⟩ | ⟨hcut, rfl⟩
    · have hlt : c.length < 65536 := by rw [hl]; exact rd.SubrecordLength.toNat_lt
      have hpos : rd.SubrecordType ≠ 0 ∨ 0 < c.length := by
        by_cases ht : rd.SubrecordType = 0
        · right
          rw [ht] at hc
          have := content_zero hc
          omega
        · exact .inl ht
      have h1 := sub_step_nz rd.SubrecordType c.length c hlt hpos
      have h2 : nz ([rd.SubrecordType] ++ leBytes 2 c.length ++ c ++ r') = nz ([rd.SubrecordType] ++ leBytes 2 c.length ++ c) + nz r' := nz_append _ _
      have h3 : subWork nested ([rd.SubrecordType] ++ leBytes 2 c.length ++ c ++ r') = subWork nested ([rd.SubrecordType] ++ leBytes 2 c.length ++ c) := by
        unfold subWork
        rw [contentAt_shape _ _ _ _ hlt (.inl rfl)]
        have := contentAt_shape rd.SubrecordType c.length c [] hlt (.inl rfl)
        rw [List.append_nil] at this
        rw [this]
        rfl
      have h4 := subWork_le hn _ h1
      rw [h3, h2]
      omega
    · have hz : nz ([] : Bytes) = 0 := rfl
      simp only [hz]
      have hp : 0 < nz r := by
        rcases hcut with ⟨c, d, rfl, hl, hd, hc⟩ | ⟨d, rfl, hl, hd, hc⟩
        · exact sub_step_nz _ _ _ rd.SubrecordLength.toNat_lt (.inr (by omega))
        · have ht : rd.SubrecordType ≠ 0 := by
            intro ht
            rw [ht] at hc
            have := content_zero hc
            simp at this
          rw [nz_append]
          have : nz [rd.SubrecordType] = 1 := by simp [nz, ht]
          omega
      have := subWork_le hn r hp
      omega

omit P in
theorem recordData_nz (r : Bytes) : nz (recordData r) ≤ nz (r.drop (recordHeaderLen r)) := by
  unfold recordData
  simp only
  rw [nz_append, nz_zeros]
  exact nz_take_le _ _

theorem header_lens (hdr x : Bytes) (r : ServiceDataRecord) (h : RecordHeader hdr r) :
    recordHeaderLen (hdr ++ x) = hdr.length ∧ word16At (hdr ++ x) 0 = r.RecordLength.toNat := by
  obtain ⟨fl, rfl, -⟩ := h
  have hb : ∀ (a b : Bytes), byteAt (leBytes 2 r.RecordLength.toNat ++ leBytes 2 r.RecordNumber.toNat ++ [fl] ++ a ++ b) 4 = fl := by
    intro a b
    simp [byteAt, leBytes]
  constructor
  · unfold recordHeaderLen
    simp only [List.append_assoc] at hb ⊢
    simp only [byteAt, leBytes, List.cons_append, List.nil_append, List.getD_cons_succ, List.getD_cons_zero, List.length_cons, List.length_append]
    split <;> split <;> split <;> simp
  · have := r.RecordLength.toNat_lt
    simp [word16At, byteAt, leBytes, leValue]
    omega

theorem sdsWork_le (n : Nat) (b : Bytes) : sdsWork n b ≤ 65533 * nz b + b.length := by
  induction n generalizing b with
  | zero => simp [sdsWork]
  | succ n ih =>
    unfold sdsWork
    refine loopWork_le (sdsStep nestedDecode) (recordWork (sdsWork n)) (fun r => 65533 * nz r + r.length) ?_ ?_ _ _ _
    · intro r hr
      have h0 := List.length_pos_iff.mpr hr
      unfold recordWork
      split
      · rename_i h
        have h1 := rdsWork_le ih (recordData r)
        have h2 := recordData_nz r
        have h3 : nz (r.drop (recordHeaderLen r)) ≤ nz r := nz_drop_le _ _
        have h4 : 65533 * nz (recordData r) ≤ 65533 * nz r := Nat.mul_le_mul_left _ (by omega)
        have h5 : 7 ≤ recordHeaderLen r := by unfold recordHeaderLen; omega
        omega
      · omega
    · intro s r s' r' hr h
      obtain ⟨e, -, h⟩ := (sdsStep_iff s s' r r').mp h
      unfold recordWork
      rcases h with ⟨hdr, data, hh, hl, hs, rfl⟩ | ⟨rfl, hh, hl, hs⟩ | ⟨rfl, hdr, data, hh, hne, hl, hs, rfl⟩
      · have h7 := header_len hh
        obtain ⟨h1, h2⟩ := header_lens hdr (data ++ r') e hh
        rw [← List.append_assoc] at h1 h2
        have h3 : recordData (hdr ++ data ++ r') = data := by
          unfold recordData
          simp only [h1, h2]
          rw [List.append_assoc, List.drop_left' rfl, ← hl, List.take_left' rfl]
          simp [zeros]
        have h4 := rdsWork_le ih data
        rw [h3, nz_append, nz_append]
        simp only [List.length_append]
        split <;> omega
      · have h7 := header_len hh
        obtain ⟨h1, h2⟩ := header_lens r [] e hh
        rw [List.append_nil] at h1
        rw [if_neg (by omega)]
        have hz : nz ([] : Bytes) = 0 := rfl
        simp only [hz, List.length_nil]
        omega
      · have h7 := header_len hh
        obtain ⟨h1, h2⟩ := header_lens hdr data e hh
        have h3 := recordData_nz (hdr ++ data)
        have h4 := rdsWork_le ih (recordData (hdr ++ data))
        rw [h1, List.drop_left' rfl] at h3
        have h5 : 65533 * nz (recordData (hdr ++ data)) ≤ 65533 * nz data := Nat.mul_le_mul_left _ h3
        have hz : nz ([] : Bytes) = 0 := rfl
        simp only [hz, List.length_nil]
        rw [nz_append, List.length_append]
        split <;> omega

end Egts
