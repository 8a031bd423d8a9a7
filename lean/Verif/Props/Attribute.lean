import Verif.Spec.Attribute
import Verif.Props.ServerEx
set_option autoImplicit false
/- C92: objects of the positions; C93: readings without a position. -/
namespace Egts
open Frame
variable [P : Platform]

theorem positions_subsOf (l : List ServiceDataRecord) : positions (subsOf l) = l.flatMap (·.positions) := by
  induction l with
  | nil => rfl
  | cons r l ih =>
    simp only [subsOf, List.flatMap_cons, positions, List.filterMap_append] at ih ⊢
    rw [ih]
    rfl

theorem mem_positions_subsOf {l : List ServiceDataRecord} {d : SrPosData} : d ∈ positions (subsOf l) ↔ ∃ rec ∈ l, d ∈ rec.positions := by
  rw [positions_subsOf, List.mem_flatMap]

/-! ### C92 -/

/-- every record that holds a position names the same object as the last record of the packet -/
def OneObject (l : List ServiceDataRecord) : Prop :=
  ∀ rec ∈ l, rec.positions ≠ [] → ∀ last, l.getLast? = some last → rec.ObjectIdentifier = last.ObjectIdentifier

/-- C92 (partial): an accepted data packet (without record responses) is saved under the right objects if all its records that hold a position
name the same object as its last record. Missing: packets with the positions of several objects (`attribution_wrong`). -/
theorem attribution_partial (env : Env) (c : Bytes) (p : Package) (l : List ServiceDataRecord) (hf : Framed c)
    (hd : Package.decode {} c (env.spare 0) = .ret 0 none p) (hb : p.ServicesFrameData = some (.appdata l)) (hn : NoResponses l)
    (h : OneObject l) : Attributed l (savesOf (handleConn env true .silent [c]).1) := by
  obtain ⟨h0, h1⟩ := positions_exported env c p l hf hd hb hn
  by_cases hp : positions (subsOf l) = []
  · rw [h0 hp]
    refine ⟨fun rec hrec d hd => ?_, by simp⟩
    have := mem_positions_subsOf.mpr ⟨rec, hrec, hd⟩
    rw [hp] at this
    simp at this
  · obtain ⟨r, hr, hls, -⟩ := h1 hp
    obtain ⟨-, -, ⟨last, hl, hc⟩, -⟩ := identity_exported env c p l r hf hd hb hn (by rw [hr]; simp)
    rw [hr]
    constructor
    · intro rec hrec d hd
      refine ⟨r, by simp, ?_, ?_⟩
      · rw [hc, h rec hrec (List.ne_nil_of_mem hd) last hl]
      · rw [hls]; exact List.mem_map_of_mem (mem_positions_subsOf.mpr ⟨rec, hrec, hd⟩)
    · intro s hs x hx
      obtain rfl : s = r := by simpa using hs
      rw [hls] at hx
      obtain ⟨d, hd, rfl⟩ := List.mem_map.mp hx
      obtain ⟨rec, hrec, hd⟩ := mem_positions_subsOf.mp hd
      exact ⟨rec, hrec, by rw [hc, h rec hrec (List.ne_nil_of_mem hd) last hl], d, hd, rfl⟩

/-- C92 is false of the code for every other packet: a position of a record that names another object than the last record of the packet is saved
under the object of the last record. -/
theorem attribution_wrong (env : Env) (c : Bytes) (p : Package) (l : List ServiceDataRecord) (hf : Framed c)
    (hd : Package.decode {} c (env.spare 0) = .ret 0 none p) (hb : p.ServicesFrameData = some (.appdata l)) (hn : NoResponses l)
    (h : ¬ OneObject l) : ¬ Attributed l (savesOf (handleConn env true .silent [c]).1) ∧
      ∃ rec ∈ l, ∃ d ∈ rec.positions, ∃ s ∈ savesOf (handleConn env true .silent [c]).1, locOf d ∈ s.LocStates ∧ s.ClientID ≠ rec.ObjectIdentifier := by
  unfold OneObject at h
  push Not at h
  obtain ⟨rec, hrec, hne, last, hl, ho⟩ := h
  obtain ⟨d, hdm⟩ := List.exists_mem_of_ne_nil _ hne
  have hm := mem_positions_subsOf.mpr ⟨rec, hrec, hdm⟩
  obtain ⟨r, hr, hls, -⟩ := (positions_exported env c p l hf hd hb hn).2 (List.ne_nil_of_mem hm)
  obtain ⟨-, -, ⟨last', hl', hc⟩, -⟩ := identity_exported env c p l r hf hd hb hn (by rw [hr]; simp)
  obtain rfl : last = last' := Option.some.inj (hl.symm.trans hl')
  rw [hr]
  refine ⟨?_, rec, hrec, d, hdm, r, by simp, ?_, ?_⟩
  · rintro ⟨h1, -⟩
    obtain ⟨s, hs, hcs, -⟩ := h1 rec hrec d hdm
    obtain rfl : s = r := by simpa using hs
    exact ho (hcs.symm.trans hc)
  · rw [hls]; exact List.mem_map_of_mem hm
  · rw [hc]; exact fun h => ho h.symm

set_option maxRecDepth 1000000 in
theorem exPacket_objects : (dataOf (Package.decode {} exPacket [])).map
    (fun l => (l.map (fun r => (r.ObjectIdentifier, r.positions.length)), (subsOf l).any (·.isResponse))) =
    some ([(133552, 1), (133553, 1)], false) := by kernel_rfl

set_option maxRecDepth 100000 in
/-- C92 is false of the code: `exPacket` holds a position of object 133552 and one of object 133553; both are saved under 133553. -/
theorem attribution_counterexample (env : Env) : ∃ p l, Package.decode {} exPacket (env.spare 0) = .ret 0 none p ∧
    p.ServicesFrameData = some (.appdata l) ∧ NoResponses l ∧ ¬ OneObject l ∧ ¬ Attributed l (savesOf (handleConn env true .silent [exPacket]).1) := by
  have hs : Package.decode {} exPacket (env.spare 0) = Package.decode {} exPacket [] := by
    have := trailing_ignored_partial {} exPacket [] [] (env.spare 0) (by decide) (by decide) (by decide)
    rwa [List.append_nil] at this
  have h := exPacket_objects (P := P)
  cases hd : dataOf (Package.decode {} exPacket []) with
  | none => rw [hd] at h; cases h
  | some l =>
    rw [hd] at h
    obtain ⟨p, hp, hb⟩ := dataOf_some hd
    have h' := Option.some.inj h
    simp only [Prod.mk.injEq] at h'
    obtain ⟨h1, h2⟩ := h'
    have hn : NoResponses l := fun d hd' => by
      simp only [List.any_eq_false] at h2
      simpa using h2 d hd'
    rw [← hs] at hp
    have ho : ¬ OneObject l := by
      intro ho
      obtain ⟨a, b, rfl⟩ := List.length_eq_two.mp (show l.length = 2 by simpa using congrArg List.length h1)
      simp only [List.map_cons, List.map_nil, List.cons.injEq, Prod.mk.injEq, and_true] at h1
      have := ho a (by simp) (by intro h; rw [h] at h1; simp at h1) b rfl
      rw [h1.1.1, h1.2.1] at this
      exact absurd this (by decide)
    exact ⟨p, l, hp, hb, hn, ho, (attribution_wrong env exPacket p l exPacket_framed hp hb hn ho).1⟩

/-! ### C93 -/

/-- C93 (partial): the readings of a packet that holds a position are saved. Missing: packets without a position. -/
theorem readings_partial (env : Env) (c : Bytes) (p : Package) (l : List ServiceDataRecord) (hf : Framed c)
    (hd : Package.decode {} c (env.spare 0) = .ret 0 none p) (hb : p.ServicesFrameData = some (.appdata l)) (hn : NoResponses l)
    (h : positions (subsOf l) ≠ []) : ReadingsKept l (savesOf (handleConn env true .silent [c]).1) := by
  obtain ⟨r, hr, -⟩ := (positions_exported env c p l hf hd hb hn).2 h
  obtain ⟨h1, h2⟩ := sensors_exported env c p l r hf hd hb hn (by rw [hr]; simp)
  rw [hr]
  refine ⟨fun a ha => ⟨r, by simp, by rwa [h1]⟩, fun d hd => ⟨r, by simp, ?_⟩⟩
  rw [h2]
  exact List.mem_map_of_mem hd

/-- C93 is false of the code: an accepted packet with readings but without a position is acknowledged, with all its records, and nothing of
it is saved. -/
theorem readings_lost (env : Env) (c : Bytes) (p : Package) (l : List ServiceDataRecord) (hf : Framed c)
    (hd : Package.decode {} c (env.spare 0) = .ret 0 none p) (hb : p.ServicesFrameData = some (.appdata l)) (hn : NoResponses l)
    (h : positions (subsOf l) = []) (hr : (subsOf l).flatMap (·.readings) ≠ [] ∨ (subsOf l).filterMap (·.liquid?) ≠ []) :
    (∃ ack more, writesOf (handleConn env true .silent [c]).1 = ack :: more ∧ Answers ack p.PacketIdentifier 0 (l.map (·.RecordNumber))) ∧
    savesOf (handleConn env true .silent [c]).1 = [] ∧ ¬ ReadingsKept l (savesOf (handleConn env true .silent [c]).1) := by
  obtain ⟨effects, ack, more, h1, h2, -, -, -, h3⟩ := data_acknowledged env c p l hf hd hb hn
  have hs := (positions_exported env c p l hf hd hb hn).1 h
  refine ⟨⟨ack, more, by rw [h1]; exact h2, h3⟩, hs, ?_⟩
  rw [hs]
  rintro ⟨k1, k2⟩
  rcases hr with hr | hr
  · obtain ⟨a, ha⟩ := List.exists_mem_of_ne_nil _ hr
    obtain ⟨s, hs, -⟩ := k1 a ha
    simp at hs
  · obtain ⟨a, ha⟩ := List.exists_mem_of_ne_nil _ hr
    obtain ⟨s, hs, -⟩ := k2 a ha
    simp at hs

/-- a packet with one liquid level (700) and no position -/
def liquidPacket : Bytes := [1, 0, 0, 11, 0, 17, 0, 8, 0, 1, 216, 10, 0, 1, 0, 0, 2, 2, 27, 7, 0, 1, 1, 0, 188, 2, 0, 0, 102, 154]

omit P in
theorem liquidPacket_framed : Framed liquidPacket := by decide

theorem liquidPacket_sketch : (dataOf (Package.decode {} liquidPacket [])).map
    (fun l => ((subsOf l).any (·.isResponse), (positions (subsOf l)).length, ((subsOf l).filterMap (·.liquid?)).length)) = some (false, 0, 1) := by kernel_rfl

/-- C93 is false of the code: `liquidPacket` is acknowledged and its liquid level is not saved. -/
theorem readings_counterexample (env : Env) : ∃ p l ack, Package.decode {} liquidPacket (env.spare 0) = .ret 0 none p ∧
    p.ServicesFrameData = some (.appdata l) ∧ ack ∈ writesOf (handleConn env true .silent [liquidPacket]).1 ∧
    Answers ack p.PacketIdentifier 0 (l.map (·.RecordNumber)) ∧ ¬ ReadingsKept l (savesOf (handleConn env true .silent [liquidPacket]).1) := by
  have hs : Package.decode {} liquidPacket (env.spare 0) = Package.decode {} liquidPacket [] := by
    have := trailing_ignored_partial {} liquidPacket [] [] (env.spare 0) (by decide) (by decide) (by decide)
    rwa [List.append_nil] at this
  have h := liquidPacket_sketch (P := P)
  cases hd : dataOf (Package.decode {} liquidPacket []) with
  | none => rw [hd] at h; cases h
  | some l =>
    rw [hd] at h
    obtain ⟨p, hp, hb⟩ := dataOf_some hd
    have h' := Option.some.inj h
    simp only [Prod.mk.injEq] at h'
    obtain ⟨h1, h2, h3⟩ := h'
    have hn : NoResponses l := fun d hd' => by
      simp only [List.any_eq_false] at h1
      simpa using h1 d hd'
    rw [← hs] at hp
    obtain ⟨⟨ack, more, h4, h5⟩, -, h7⟩ := readings_lost env liquidPacket p l liquidPacket_framed hp hb hn (List.length_eq_zero_iff.mp h2)
      (.inr (by intro h; rw [h] at h3; cases h3))
    exact ⟨p, l, ack, hp, hb, by rw [h4]; simp, h5, h7⟩

end Egts
