import Verif.Props.Resources
import Verif.Lemmas.SubCount
set_option autoImplicit false
/- C86: the size of what is stored. -/
namespace Egts
open Frame
variable [P : Platform]

/-- positions, sensor values and liquid levels of a record -/
def NavRecord.items (r : NavRecord) : Nat := r.LocStates.length + r.AnSensors.length + r.LiquidSensors.length

theorem readings_length (d : SubData) : (if d.pos?.isSome then 1 else 0) + d.readings.length + (if d.liquid?.isSome then 1 else 0) ≤ 8 := by
  cases d with
  | ad d =>
    simp only [SubData.pos?, SubData.liquid?, SubData.readings, Option.isSome, Bool.false_eq_true, if_false, Nat.zero_add, Nat.add_zero]
    exact List.length_filterMap_le ..
  | _ => simp [SubData.pos?, SubData.liquid?, SubData.readings]

theorem items_subs (ds : List SubData) : (positions ds).length + (ds.flatMap (·.readings)).length + (ds.filterMap (·.liquid?)).length ≤ 8 * ds.length := by
  induction ds with
  | nil => simp [positions]
  | cons d ds ih =>
    have h := readings_length d
    unfold positions at *
    simp only [List.filterMap_cons, List.flatMap_cons, List.length_append, List.length_cons]
    cases h1 : d.pos? <;> cases h2 : d.liquid? <;> rw [h1, h2] at h <;>
      simp only [Option.isSome, Bool.false_eq_true, if_false, if_true, List.length_cons] at h ⊢ <;> omega

theorem accepted_subs {c spare : Bytes} {p : Package} {l : ServiceDataSet} (h : Package.decode {} c spare = .ret 0 none p)
    (hb : p.ServicesFrameData = some (.appdata l)) : 12 + 5 * l.length + 3 * subCount l ≤ c.length := by
  have hsz := accepted_size h
  have hhs := headerSize_cases c
  obtain ⟨-, ht, -, b, hb', hdb⟩ := decode_ok_facts h
  obtain rfl : b = .appdata l := by rw [hb] at hb'; exact (Option.some.inj hb').symm
  obtain ⟨-, hdb⟩ := decodeBody_appdata hdb
  have := records_count ((body_decode_iff _ _).mp hdb)
  rw [(bodyBytes_length c).1] at this
  omega

theorem react_items {now spare c : Bytes} {l : List Effect} (h : react now spare c = some l) :
    3 * ((savesOf l).map (·.items)).sum ≤ 8 * c.length := by
  unfold react at h
  cases hd : Package.decode {} c spare with
  | panic => rw [hd] at h; cases h
  | diverge => rw [hd] at h; cases h
  | ret code e p =>
    rw [hd] at h
    cases e with
    | some e => injection h with h; subst h; simp [savesOf]
    | none =>
      simp only at h
      obtain rfl : code = 0 := by
        rcases decode_codes_partial {} p c spare code none hd with h | h | ⟨-, h | h | h | h | h⟩
        · exact h.1
        all_goals simp at h
      cases hb : p.ServicesFrameData with
      | none => rw [hb] at h; injection h with h; subst h; simp [savesOf]
      | some b =>
        rw [hb] at h
        cases b with
        | response r => injection h with h; subst h; simp [savesOf]
        | appdata m =>
          simp only at h
          split at h
          · injection h with h; subst h; simp [savesOf]
          · injection h with h
            subst h
            have h1 := accepted_subs hd hb
            have h2 := subsOf_count m
            have h3 := items_subs (subsOf m)
            have h4 : (exportOf now p.PacketIdentifier m).items =
              (positions (subsOf m)).length + ((subsOf m).flatMap (·.readings)).length + ((subsOf m).filterMap (·.liquid?)).length := by
              simp only [NavRecord.items, exportOf, List.length_map]
            rw [← h4] at h3
            by_cases k1 : (positions (subsOf m)).isEmpty = true <;> by_cases k2 : (subsOf m).any (·.isLogin) = true <;>
              simp [k1, k2, savesOf] <;> omega

/-- C86: whatever a client sends, all records stored for it together hold at most 8 positions, sensor values and liquid levels per three bytes received. -/
theorem stored_bound (env : Env) (hasStore : Bool) (tail : Tail) (chunks : List Bytes) :
    3 * ((savesOf (handleConn env hasStore tail chunks).1).map (·.items)).sum ≤ 8 * chunks.flatten.length := by
  cases hasStore with
  | false => simp [handleConn, savesOf]
  | true =>
    obtain ⟨⟨cs, rest⟩, h, -⟩ := cut_unique chunks.flatten
    simp only at h
    rw [stream_behaviour env tail chunks cs rest h, h.all, List.length_append]
    suffices H : ∀ k, 3 * ((savesOf (reactAll env tail rest k cs).1).map (·.items)).sum ≤ 8 * cs.flatten.length by
      have := H 0; omega
    clear h
    induction cs with
    | nil => intro k; simp [reactAll, savesOf]
    | cons c cs ih =>
      intro k
      have := ih (k + 1)
      rw [reactAll]
      cases hr : react (env.now k) (env.spare k) c with
      | none => simp [savesOf]
      | some l =>
        have := react_items hr
        simp only [savesOf_append, List.map_append, List.sum_append, List.flatten_cons, List.length_append]
        omega

end Egts
