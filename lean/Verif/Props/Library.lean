import Verif.Props.Package
import Verif.Props.Server3
import Verif.Spec.Library
set_option autoImplicit false
/- C61: a package built and encoded with the library, sent to the server. -/
namespace Egts
open Frame
variable [P : Platform]

/-! ### the same records contain the same things -/

theorem filterMap_data_same {rds rds' : List RecordData} (h : List.Forall₂ RecordData.Same rds rds') :
    List.Forall₂ SubData.Same (rds.filterMap (·.SubrecordData)) (rds'.filterMap (·.SubrecordData)) := by
  induction h with
  | nil => exact .nil
  | cons h _ ih =>
    obtain ⟨d, b, d', h1, -, h3, rfl⟩ := h
    simp only [List.filterMap_cons, h1]
    exact .cons h3 ih

theorem subsOf_same {l l' : List ServiceDataRecord} (h : List.Forall₂ ServiceDataRecord.Same l l') :
    List.Forall₂ SubData.Same (subsOf l) (subsOf l') := by
  induction h with
  | nil => exact .nil
  | cons h _ ih =>
    obtain ⟨b, rds, -, h2, rfl⟩ := h
    unfold subsOf
    simp only [List.flatMap_cons]
    exact List.rel_append (filterMap_data_same h2) ih

theorem SubData.Same.cases {d d' : SubData} (h : d.Same d') : (∃ e e', d = .pos e ∧ d' = .pos e' ∧ SamePosition e e') ∨ d' = d ∧ d.pos? = none := by
  cases d with
  | pos e => obtain ⟨e', rfl, h⟩ := h; exact .inl ⟨e, e', rfl, rfl, h⟩
  | _ => exact .inr ⟨h, rfl⟩

theorem positions_same {ds ds' : List SubData} (h : List.Forall₂ SubData.Same ds ds') :
    List.Forall₂ SamePosition (positions ds) (positions ds') := by
  induction h with
  | nil => exact .nil
  | cons h _ ih =>
    rcases h.cases with ⟨e, e', rfl, rfl, hs⟩ | ⟨rfl, hn⟩
    · exact .cons hs ih
    · unfold positions at ih ⊢
      simp only [List.filterMap_cons, hn]
      exact ih

/-- whatever does not look at positions finds the same -/
theorem filterMap_same {α : Type} (f : SubData → Option α) (hf : ∀ e, f (.pos e) = none) {ds ds' : List SubData}
    (h : List.Forall₂ SubData.Same ds ds') : ds'.filterMap f = ds.filterMap f := by
  induction h with
  | nil => rfl
  | cons h _ ih =>
    rcases h.cases with ⟨e, e', rfl, rfl, hs⟩ | ⟨rfl, hn⟩
    · simp only [List.filterMap_cons, hf, ih]
    · simp only [List.filterMap_cons, ih]

theorem flatMap_same {α : Type} (f : SubData → List α) (hf : ∀ e, f (.pos e) = []) {ds ds' : List SubData}
    (h : List.Forall₂ SubData.Same ds ds') : ds'.flatMap f = ds.flatMap f := by
  induction h with
  | nil => rfl
  | cons h _ ih =>
    rcases h.cases with ⟨e, e', rfl, rfl, hs⟩ | ⟨rfl, hn⟩
    · simp only [List.flatMap_cons, hf, ih]
    · simp only [List.flatMap_cons, ih]

theorem all_same (f : SubData → Bool) (hf : ∀ e, f (.pos e) = false) {ds ds' : List SubData}
    (h : List.Forall₂ SubData.Same ds ds') : (∀ d ∈ ds', f d = false) ↔ ∀ d ∈ ds, f d = false := by
  induction h with
  | nil => simp
  | cons h _ ih =>
    rcases h.cases with ⟨e, e', rfl, rfl, hs⟩ | ⟨rfl, hn⟩
    · simp only [List.forall_mem_cons, hf, ih]
    · simp only [List.forall_mem_cons, ih]

theorem recordNumbers_same {l l' : List ServiceDataRecord} (h : List.Forall₂ ServiceDataRecord.Same l l') :
    l'.map (·.RecordNumber) = l.map (·.RecordNumber) := by
  induction h with
  | nil => rfl
  | cons h _ ih =>
    obtain ⟨b, rds, -, -, rfl⟩ := h
    simp only [List.map_cons, ih]
    rfl

theorem numberParts_same {l l' : List ServiceDataRecord} (h : List.Forall₂ ServiceDataRecord.Same l l')
    (hn : ∀ r ∈ l, numberParts r = []) : ∀ r ∈ l', numberParts r = [] := by
  induction h with
  | nil => simp
  | cons h _ ih =>
    obtain ⟨b, rds, -, h2, rfl⟩ := h
    rw [List.forall_mem_cons] at hn ⊢
    refine ⟨?_, ih hn.2⟩
    rw [← hn.1]
    exact filterMap_same _ (fun _ => rfl) (filterMap_data_same h2)

theorem last_same {l l' : List ServiceDataRecord} (h : List.Forall₂ ServiceDataRecord.Same l l') (rec' : ServiceDataRecord)
    (hr : l'.getLast? = some rec') : ∃ rec, l.getLast? = some rec ∧
      rec'.ObjectIdentifier = if rec.ObjectIDFieldExists = [49] then rec.ObjectIdentifier else 0 := by
  induction h with
  | nil => simp at hr
  | cons h hs ih =>
    obtain ⟨b, rds, -, -, rfl⟩ := h
    cases hs with
    | nil =>
      simp only [List.getLast?_singleton, Option.some.injEq] at hr
      subst hr
      exact ⟨_, rfl, rfl⟩
    | cons h' hs' =>
      rw [List.getLast?_cons_cons] at hr ⊢
      exact ih hr

theorem lastPos_same {l l' : List SrPosData} (h : List.Forall₂ SamePosition l l') (d' : SrPosData)
    (hr : l'.getLast? = some d') : ∃ d, l.getLast? = some d ∧ d'.NavigationTime = d.NavigationTime := by
  induction h with
  | nil => simp at hr
  | cons h hs ih =>
    cases hs with
    | nil =>
      simp only [List.getLast?_singleton, Option.some.injEq] at hr
      subst hr
      exact ⟨_, rfl, by rw [h.1]; rfl⟩
    | cons h' hs' =>
      rw [List.getLast?_cons_cons] at hr ⊢
      exact ih hr

theorem located_same {l l' : List SrPosData} (h : List.Forall₂ SamePosition l l') : List.Forall₂ Located l (l'.map locOf) := by
  induction h with
  | nil => exact .nil
  | cons h _ ih =>
    obtain ⟨h1, h2, h3⟩ := h
    exact .cons ⟨h2, h3, by rw [h1]; rfl, by rw [h1]; rfl⟩ ih

/-! ### C61 -/

/-- C61: a well-formed APPDATA package of protocol version 1, without record responses, whose encoding has less than
65536 bytes, is encoded by the library into one complete frame; the server, however these bytes are split into reads,
confirms every record with status 0 under the identifier of the package, keeps the connection, and saves one record that
reports the package if it holds a position, and nothing otherwise. -/
theorem library_to_server (env : Env) (p : Package) (l : List ServiceDataRecord) (h : p.WellFormed) (hv : p.ProtocolVersion = 1)
    (hb : p.ServicesFrameData = some (.appdata l)) (hn : NoResponses l) (hfit : ∀ b, p.HasBody b → p.headerBytes + b.length + 2 < 65536) :
    ∃ out q, p.encode = .ok (out, q) ∧ Framed out ∧ ∀ chunks : List Bytes, chunks.flatten = out →
      ∃ effects ack more, handleConn env true .silent chunks = (effects, .waiting) ∧ writesOf effects = ack :: more ∧
        Answers ack p.PacketIdentifier 0 (l.map (·.RecordNumber)) ∧
        ((∀ d ∈ subsOf l, d.isLogin = false) → more = []) ∧
        (positions (subsOf l) = [] → savesOf effects = []) ∧
        (positions (subsOf l) ≠ [] → ∃ r, savesOf effects = [r] ∧ Reports (env.now 0) p.PacketIdentifier l r) := by
  obtain ⟨out, q, b, body, body', he, hB, hbody, hs, hdec⟩ := package_roundtrip p h (env.spare 0)
  obtain rfl : body = .appdata l := Option.some.inj (hbody.symm.trans hb)
  obtain ⟨l', rfl, hs⟩ := hs
  have hf : Framed out := encode_framed p q out b he hB hv h.hl (hfit b hB)
  refine ⟨out, q, he, hf, ?_⟩
  intro chunks hch
  have hsub := subsOf_same hs
  have hpos := positions_same hsub
  have hn' : NoResponses l' := (all_same (·.isResponse) (fun _ => rfl) hsub).mpr hn
  have hbp : (p.received out b (.appdata l')).ServicesFrameData = some (.appdata l') := rfl
  rw [segmentation_irrelevant env true .silent chunks [out] (by simpa using hch)]
  obtain ⟨effects, ack, more, h1, h2, h3, -, -, h6⟩ := data_acknowledged env out _ l' hf hdec hbp hn'
  have hsave := positions_exported env out _ l' hf hdec hbp hn'
  rw [h1] at hsave
  refine ⟨effects, ack, more, h1, h2, ?_, ?_, ?_, ?_⟩
  · rw [recordNumbers_same hs] at h6
    exact h6
  · intro hl
    exact h3 ((all_same (·.isLogin) (fun _ => rfl) hsub).mpr hl)
  · intro hl
    rw [hl] at hpos
    exact hsave.1 (List.forall₂_nil_left_iff.mp hpos)
  · intro hl
    have hl' : positions (subsOf l') ≠ [] := by
      intro h0
      rw [h0] at hpos
      exact hl (List.forall₂_nil_right_iff.mp hpos)
    obtain ⟨r, hr, hloc, hcount⟩ := hsave.2 hl'
    have hmem : r ∈ savesOf (handleConn env true .silent [out]).1 := by rw [h1, hr]; simp
    obtain ⟨i1, i2, ⟨rec, i3, i3'⟩, ⟨pos, i4, i4'⟩, i5, i6⟩ := identity_exported env out _ l' r hf hdec hbp hn' hmem
    obtain ⟨s1, s2⟩ := sensors_exported env out _ l' r hf hdec hbp hn' hmem
    have hnum := saved_packetId env out _ l' r hf hdec hbp hn' hmem
    refine ⟨r, hr, ⟨i1, i2, ?_, ?_, ?_, ?_, ?_, ?_, ?_, ?_, ?_⟩⟩
    · rw [hloc]; exact located_same hpos
    · rw [hcount, hloc, List.length_map, hpos.length_eq]
    · rw [s1]; exact flatMap_same _ (fun _ => rfl) hsub
    · rw [s2, filterMap_same _ (fun _ => rfl) hsub]
    · obtain ⟨rec0, e1, e2⟩ := last_same hs rec i3
      exact ⟨rec0, e1, by rw [i3', e2]⟩
    · obtain ⟨d, e1, e2⟩ := lastPos_same hpos pos i4
      exact ⟨d, e1, by rw [i4', e2]⟩
    · intro t ht
      exact i5 t (by rw [filterMap_same _ (fun _ => rfl) hsub]; exact ht)
    · intro ht
      exact i6 (by rw [filterMap_same _ (fun _ => rfl) hsub]; exact ht)
    · intro hno
      rw [hnum, packetId_none _ l' (numberParts_same hs hno), UInt16.toNat_toUInt32]
      rfl

end Egts
