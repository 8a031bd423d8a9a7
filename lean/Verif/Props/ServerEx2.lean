import Verif.Props.Server3
import Verif.Props.ServerEx
set_option autoImplicit false
/- Concrete packets that meet the hypotheses of C36 and C37 (tests). -/
namespace Egts
open Frame
variable [P : Platform]

/-- a header with a wrong checksum: rejected with 137, so it is answered with 137 -/
example (env : Env) : ∃ nack pid, handleConn env true .silent [[1, 0, 0, 11, 0, 0, 0, 7, 0, 1, 0]] = ([.write nack], .waiting) ∧
    pid.toNat = 7 ∧ Answers nack pid 137 [] := by
  obtain ⟨q, hq⟩ := ((decode_code_choice {} [1, 0, 0, 11, 0, 0, 0, 7, 0, 1, 0] (env.spare 0)).2
    ⟨by decide, by decide, by decide⟩).1 (by decide +kernel)
  exact rejected_answered env _ q 137 _ (by decide) hq

/-- a data packet with a record response and a position -/
def respPacket : Bytes := [1, 0, 0, 11, 0, 37, 0, 7, 0, 1, 242, 30, 0, 5, 0, 0, 2, 2, 0, 3, 0, 9, 0, 0, 16, 21, 0, 1, 0, 0, 0, 2, 0, 0, 0, 3, 0, 0, 0, 1, 0, 0, 0, 1, 0, 0, 0, 0, 21, 203]

theorem respPacket_framed : Framed respPacket := by decide

set_option maxRecDepth 1000000 in
theorem respPacket_sketch : (dataOf (Package.decode {} respPacket [])).map
    (fun l => ((subsOf l).any (·.isResponse), (positions (subsOf l)).length)) = some (true, 1) := by kernel_rfl

/-- nothing is answered or saved for it -/
example (env : Env) : handleConn env true .silent [respPacket] = ([], .waiting) := by
  have hs : Package.decode {} respPacket (env.spare 0) = Package.decode {} respPacket [] := by
    have := trailing_ignored_partial {} respPacket [] [] (env.spare 0) (by decide) (by decide) (by decide)
    rwa [List.append_nil] at this
  have h := respPacket_sketch (P := P)
  cases hd : dataOf (Package.decode {} respPacket []) with
  | none => rw [hd] at h; cases h
  | some l =>
    rw [hd] at h
    obtain ⟨p, hp, hb⟩ := dataOf_some hd
    have h' := Option.some.inj h
    simp only [Prod.mk.injEq] at h'
    exact responses_ignored env respPacket p _ respPacket_framed (hs.trans hp) hb (by simpa using h'.1)

/-- C45 after a packet: two packets, then an HTTP request -/
example (env : Env) : handleConn env true .eof [exPacket, exPacket, [71, 69, 84, 32, 47, 32, 72, 84, 84, 80, 47, 49, 46, 49], [1, 2, 3]] =
    ((handleConn env true .silent [[exPacket, exPacket].flatten]).1, .closed) := by
  refine non_egts_dropped_later env .eof [exPacket, exPacket] ([71, 69, 84, 32, 47, 32, 72, 84, 84, 80, 47, 49, 46, 49] ++ [1, 2, 3]) _ ?_ ?_ (by simp) (by decide +kernel) (by decide)
  · intro c hc
    simp at hc
    subst hc
    exact exPacket_framed
  · intro k hk
    have e : [exPacket, exPacket][k] = exPacket := by
      match k, hk with
      | 0, _ => rfl
      | 1, _ => rfl
    rw [e]
    obtain ⟨p, l, hd, hb, hn, -, hl, hr, -⟩ := exPacket_meets (P := P) ((env.after k).spare 0)
    obtain ⟨effects, ack, more, h1, -⟩ := data_acknowledged (env.after k) exPacket p l exPacket_framed hd hb hn
    rw [h1]

end Egts
