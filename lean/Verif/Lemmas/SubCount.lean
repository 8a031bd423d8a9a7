import Verif.Props.Body
import Verif.Spec.Server
set_option autoImplicit false
/- How many subrecords fit into a number of bytes. -/
namespace Egts
open Frame
variable [P : Platform]

theorem response_empty (d : SrResponse) : SrResponse.decode {} [] ≠ .ok d := by
  intro h
  cases h

theorem content_zero_empty {srl : UInt16} {d : SubData} (h : Content 0 srl [] d) : False := by
  cases d with
  | response d => exact response_empty d h.2
  | state d => rcases h.1 with ⟨h, -⟩ | h <;> exact absurd h (by decide)
  | _ => exact absurd h.1 (by decide)

omit P in
theorem leBytes2_zero {n : Nat} (hn : n < 65536) (h : leBytes 2 n = [0, 0]) : n = 0 := by
  simp only [leBytes, List.cons.injEq, and_true] at h
  obtain ⟨h1, h2⟩ := h
  have h1 := congrArg UInt8.toNat h1
  have h2 := congrArg UInt8.toNat h2
  simp at h1 h2
  omega

/-- nothing that is filled up with zeros counts: a subrecord takes three bytes, the last one at least one -/
theorem subs_count {b : Bytes} {l : List RecordData} (h : Subs b l) : ∀ (data : Bytes) (m : Nat), b = data ++ List.replicate m 0 →
    3 * l.length ≤ data.length + 2 ∧ (data = [] → l = []) := by
  induction h with
  | nil =>
    intro data m h
    exact ⟨by simp, fun _ => rfl⟩
  | @cut b rd h =>
    intro data m hb
    have hne : data ≠ [] := by
      rintro rfl
      rw [List.nil_append] at hb
      subst hb
      rcases h with ⟨c, d, h, hl, -, hc⟩ | ⟨d, h, hl, -, hc⟩
      · have hlen := congrArg List.length h
        simp [leBytes] at hlen
        obtain ⟨k, rfl⟩ : ∃ k, m = k + 3 := ⟨m - 3, by omega⟩
        have e : List.replicate (k + 3) (0 : UInt8) = [0] ++ [0, 0] ++ List.replicate k 0 := by simp [List.replicate_succ]
        rw [e] at h
        have e2 := (List.append_inj (List.append_inj h (by simp [leBytes])).1 (by simp)).2
        have := leBytes2_zero rd.SubrecordLength.toNat_lt e2.symm
        omega
      · have hlen := congrArg List.length h
        simp [leBytes] at hlen
        subst hlen
        simp only [List.replicate, leBytes, List.cons_append, List.nil_append, List.cons.injEq, and_true] at h
        obtain ⟨h1, -⟩ := h
        rw [← h1] at hc
        exact content_zero_empty hc
    have := List.length_pos_iff.mpr hne
    exact ⟨by simp; omega, fun h => absurd h hne⟩
  | @cons b rest rd l h hs ih =>
    intro data m hb
    obtain ⟨c, d, h, hl, -, hc⟩ := h
    have hlen := congrArg List.length h
    have hlen2 := congrArg List.length hb
    simp [leBytes] at hlen hlen2
    have hrest : rest = b.drop (3 + c.length) := by
      rw [h, List.drop_append_of_le_length (by simp [leBytes]; omega), List.drop_of_length_le (by simp [leBytes]; omega), List.nil_append]
    rw [hb, List.drop_append] at hrest
    by_cases hd : 3 + c.length ≤ data.length
    · have := ih (data.drop (3 + c.length)) m (by rw [hrest]; simp [Nat.sub_eq_zero_of_le hd])
      rw [List.length_drop] at this
      have hne : data ≠ [] := by rintro rfl; simp at hd
      exact ⟨by simp; omega, fun h => absurd h hne⟩
    · rw [List.drop_of_length_le (by omega), List.nil_append, List.drop_replicate] at hrest
      have hl' := (ih [] _ (by rw [List.nil_append]; exact hrest)).2 rfl
      subst hl'
      have hne : data ≠ [] := by
        rintro rfl
        rw [List.nil_append] at hb
        have e : b = [0] ++ [0, 0] ++ List.replicate (m - 3) 0 := by
          rw [hb, show m = (m - 3) + 3 by simp at hlen2; omega]; simp [List.replicate_succ]
        rw [e] at h
        have e1 := List.append_inj (h.trans (List.append_assoc ..)) (by simp [leBytes])
        have e2 := (List.append_inj e1.1 (by simp)).2
        have e3 := (List.append_inj e1.1 (by simp)).1
        have h0 := leBytes2_zero (by rw [hl]; exact rd.SubrecordLength.toNat_lt) e2.symm
        obtain rfl := List.length_eq_zero_iff.mp h0
        simp only [List.cons.injEq, and_true] at e3
        rw [← e3] at hc
        exact content_zero_empty hc
      have := List.length_pos_iff.mpr hne
      exact ⟨by simp; omega, fun h => absurd h hne⟩

/-- the number of subrecords -/
def subCount (l : List ServiceDataRecord) : Nat := (l.map (·.RecordDataSet.length)).sum

theorem recordHeader_seven {hdr : Bytes} {r : ServiceDataRecord} (h : RecordHeader hdr r) : 7 ≤ hdr.length := by
  obtain ⟨fl, rfl, -⟩ := h
  simp [leBytes]; omega

/-- records and subrecords of a body -/
theorem records_count {b : Bytes} {l : List ServiceDataRecord} (h : Records b l) : 5 * l.length + 3 * subCount l ≤ b.length := by
  induction h with
  | nil => simp [subCount]
  | @cons hdr data rest r l hh hl hs _ ih =>
    have h1 := recordHeader_seven hh
    have h2 := (subs_count hs data 0 (by simp)).1
    simp only [subCount, List.map_cons, List.sum_cons, List.length_cons, List.length_append] at *
    omega
  | @bare hdr r hh _ hn =>
    have h1 := recordHeader_seven hh
    simp only [subCount, List.map_cons, List.sum_cons, List.length_cons, hn]
    simp
    omega
  | @cut hdr data r hh _ hl hs =>
    have h1 := recordHeader_seven hh
    have h2 := (subs_count hs data _ rfl).1
    simp only [subCount, List.map_cons, List.sum_cons, List.length_cons, List.length_append, List.map_nil, List.sum_nil, List.length_nil] at *
    omega

theorem subsOf_count (l : List ServiceDataRecord) : (subsOf l).length ≤ subCount l := by
  unfold subsOf subCount
  induction l with
  | nil => simp
  | cons r l ih =>
    have := List.length_filterMap_le (·.SubrecordData) r.RecordDataSet
    simp only [List.flatMap_cons, List.length_append, List.map_cons, List.sum_cons]
    omega

end Egts
