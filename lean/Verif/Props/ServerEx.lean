import Verif.Props.Server
set_option autoImplicit false
/- A concrete packet that meets the hypotheses of C32 - C40 (test, not a proof of the properties). -/
namespace Egts
open Frame
variable [P : Platform]

/-- a packet with identifier 7 and two records (95, 96): position, two analog sensors, counter 110, liquid level; and
terminal identity, absolute analog sensor, a southern and western position -/
def exPacket : Bytes := [1, 0, 0, 11, 0, 129, 0, 7, 0, 1, 166, 53, 0, 95, 0, 1, 176, 9, 2, 0, 2, 2, 16, 21, 0, 128, 147, 220, 20,
  27, 199, 113, 156, 244, 73, 159, 52, 1, 88, 2, 200, 1, 0, 0, 0, 0, 18, 9, 0, 0, 0, 129, 1, 0, 0, 2, 0, 0, 25, 4, 0, 110, 5, 0, 0,
  27, 7, 0, 35, 9, 0, 44, 1, 0, 0, 54, 0, 96, 0, 1, 177, 9, 2, 0, 2, 2, 1, 20, 0, 77, 0, 0, 0, 2, 49, 50, 51, 52, 53, 54, 55, 56,
  57, 48, 49, 50, 51, 52, 53, 24, 4, 0, 4, 10, 0, 0, 16, 21, 0, 129, 147, 220, 20, 1, 0, 0, 0, 2, 0, 0, 0, 97, 88, 2, 20, 1, 0, 0,
  0, 0, 148, 88]

/-- the record section of an accepted data packet -/
def dataOf : PkgOut → Option ServiceDataSet
  | .ret 0 none p => match p.ServicesFrameData with
    | some (.appdata l) => some l
    | _ => none
  | _ => none

theorem dataOf_some {o : PkgOut} {l : ServiceDataSet} (h : dataOf o = some l) :
    ∃ p, o = .ret 0 none p ∧ p.ServicesFrameData = some (.appdata l) := by
  unfold dataOf at h
  split at h
  · rename_i p
    split at h
    · rename_i l' hb
      injection h with h
      subst h
      exact ⟨p, rfl, hb⟩
    · cases h
  · cases h

/-- what the examples look at -/
def sketch (l : ServiceDataSet) : List UInt16 × Nat × Bool × Bool × List AnSensor × Nat × List UInt32 :=
  (l.map (·.RecordNumber), (positions (subsOf l)).length, (subsOf l).any (·.isResponse), (subsOf l).any (·.isLogin),
    (subsOf l).flatMap (·.readings), ((subsOf l).filterMap (·.liquid?)).length, l.map (·.ObjectIdentifier))

set_option maxRecDepth 100000 in
theorem exPacket_framed : Framed exPacket := by decide

set_option maxRecDepth 1000000 in

theorem exPacket_sketch : (dataOf (Package.decode {} exPacket [])).map sketch =
    some ([95, 96], 2, false, true, [⟨1, 1⟩, ⟨8, 2⟩, ⟨4, 10⟩], 1, [133552, 133553]) := by kernel_rfl

set_option maxRecDepth 100000 in
/-- whatever the capacity of the slice, the packet is accepted, holds two records, two positions, a terminal identity
and no record response -/
theorem exPacket_meets (spare : Bytes) : ∃ p l, Package.decode {} exPacket spare = .ret 0 none p ∧
    p.ServicesFrameData = some (.appdata l) ∧ NoResponses l ∧ (positions (subsOf l)).length = 2 ∧
    (∃ d ∈ subsOf l, d.isLogin = true) ∧ l.map (·.RecordNumber) = [95, 96] ∧
    (subsOf l).flatMap (·.readings) = [⟨1, 1⟩, ⟨8, 2⟩, ⟨4, 10⟩] ∧ ((subsOf l).filterMap (·.liquid?)).length = 1 := by
  have h := exPacket_sketch (P := P)
  have hs : Package.decode {} exPacket spare = Package.decode {} exPacket [] := by
    have := trailing_ignored_partial {} exPacket [] [] spare (by decide) (by decide) (by decide)
    rwa [List.append_nil] at this
  rw [hs]
  cases hd : dataOf (Package.decode {} exPacket []) with
  | none => rw [hd] at h; cases h
  | some l =>
    rw [hd] at h
    obtain ⟨p, hp, hb⟩ := dataOf_some hd
    have h' : sketch l = ([95, 96], 2, false, true, [⟨1, 1⟩, ⟨8, 2⟩, ⟨4, 10⟩], 1, [133552, 133553]) := Option.some.inj h
    simp only [sketch, Prod.mk.injEq] at h'
    obtain ⟨h1, h2, h3, h4, h5, h6, -⟩ := h'
    refine ⟨p, l, hp, hb, ?_, h2, by simpa using h4, h1, h5, h6⟩
    intro d hd'
    simp only [List.any_eq_false] at h3
    have := h3 d hd'
    simpa using this

/-- so C35 applies to it: two confirmations, and a second packet because of the terminal identity -/
example (env : Env) : ∃ effects ack x pid, handleConn env true .silent [exPacket] = (effects, .waiting) ∧
    writesOf effects = [ack, x] ∧ Answers ack pid 0 [95, 96] := by
  obtain ⟨p, l, hd, hb, hn, -, hl, hr, -⟩ := exPacket_meets (P := P) (env.spare 0)
  obtain ⟨effects, ack, more, h1, h2, -, h4, -, h5⟩ := data_acknowledged env exPacket p l exPacket_framed hd hb hn
  obtain ⟨x, rfl⟩ := h4 hl
  rw [hr] at h5
  exact ⟨effects, ack, x, _, h1, h2, h5⟩

end Egts
