import Verif.Props.Server2
import Verif.Props.Server3
set_option autoImplicit false
/- C66: nothing is invented: where saved records and sent packets come from, in any run. -/
namespace Egts
open Frame
variable [P : Platform]

/-- every effect of a run is the effect of a packet contained in the received bytes -/
theorem effect_origin (env : Env) (tail : Tail) (k : Nat) (v : LoopVars) (s : Bytes) (e : Effect)
    (he : e ∈ (serve env tail k v s).1) : ∃ pre c post j l, s = pre ++ c ++ post ∧ 10 ≤ c.length ∧
      (handlePacket (env.now j) (env.spare j) ({} : LoopVars).reset c).seen = .done l ∧ e ∈ l := by
  induction hn : s.length using Nat.strong_induction_on generalizing k v s with
  | _ n ih =>
    rw [serve_unfold] at he
    cases hr : streamRecv tail s with
    | inl e => rw [hr] at he; simp at he
    | inr p =>
      obtain ⟨c, rest⟩ := p
      obtain ⟨hc, hs⟩ := streamRecv_length hr
      rw [hr] at he
      simp only at he
      have h1 := handlePacket_indep (env.now k) (env.spare k) c v {}
      cases h3 : handlePacket (env.now k) (env.spare k) v.reset c with
      | panic => rw [h3] at he; simp at he
      | diverge => rw [h3] at he; simp at he
      | done l v' =>
        rw [h3] at he h1
        simp only at he
        rcases List.mem_append.mp he with he | he
        · exact ⟨[], c, rest, k, l, by simpa using hs, hc, h1.symm, he⟩
        · rw [hs, List.length_append] at hn
          obtain ⟨pre, c', post, j, l', hh, hrest⟩ := ih rest.length (by omega) (k + 1) v' rest he rfl
          exact ⟨c ++ pre, c', post, j, l', by rw [hs, hh]; simp, hrest⟩

/-- the effects of one packet -/
theorem packet_effects (now spare c : Bytes) (l : List Effect) (h10 : 10 ≤ c.length)
    (h : (handlePacket now spare ({} : LoopVars).reset c).seen = .done l) :
    l = [] ∨
    (∃ p code e nack, Package.decode {} c spare = .ret code (some e) p ∧ l = [.write nack] ∧
      p.PacketIdentifier = u16 [byteAt c 7, byteAt c 8] ∧ Answers nack p.PacketIdentifier code []) ∨
    (∃ p recs ack, Package.decode {} c spare = .ret 0 none p ∧ p.ServicesFrameData = some (.appdata recs) ∧ NoResponses recs ∧
      p.PacketIdentifier = u16 [byteAt c 7, byteAt c 8] ∧
      Answers ack p.PacketIdentifier 0 (recs.map (·.RecordNumber)) ∧
      l = (if (positions (subsOf recs)).isEmpty then [] else [.save (exportOf now p.PacketIdentifier recs)]) ++ [.write ack] ++
        (if (subsOf recs).any (·.isLogin) then [.write (resultPacket p.PacketIdentifier 0)] else [])) := by
  cases hd : Package.decode {} c spare with
  | panic =>
    have := (handle_panic_iff now spare c).mpr hd
    rw [this] at h; cases h
  | diverge => exact absurd hd (decode_terminates _ _ _)
  | ret code e p =>
    cases e with
    | some e =>
      obtain ⟨nack, ha, hs⟩ := handle_rejected now spare c p code e hd
      rw [hs] at h
      refine .inr (.inl ⟨p, code, e, nack, rfl, ?_, decode_pid h10 hd, ha⟩)
      injection h with h
      exact h.symm
    | none =>
      obtain rfl : code = 0 := by
        rcases decode_codes_partial {} p c spare code none hd with h | h | ⟨-, h | h | h | h | h⟩
        · exact h.1
        all_goals simp at h
      obtain ⟨-, ht, hp, b, hb, -⟩ := decode_ok_facts hd
      cases b with
      | response r =>
        rw [handle_response _ _ c p r hd hb] at h
        injection h with h
        exact .inl h.symm
      | appdata recs =>
        by_cases hn : NoResponses recs
        · obtain ⟨ack, ha, hs⟩ := handle_data now spare c p recs hd hb hn
          rw [hs] at h
          injection h with h
          exact .inr (.inr ⟨p, recs, ack, rfl, hb, hn, hp, ha, h.symm⟩)
        · rw [handle_received _ _ c p recs hd hb hn] at h
          injection h with h
          exact .inl h.symm

/-- C66, records: every record saved in any run, whatever the bytes, their segmentation and the end of the connection, is the report of a data packet
that is contained in the received bytes and accepted by Decode, holds no record response and has at least one position: all its
positions and sensor readings, the object identifier of its last record, the IMEI of one of its terminal identities if it has any, the time of its last position, its time of reception. -/
theorem saved_from_packet (env : Env) (hasStore : Bool) (tail : Tail) (chunks : List Bytes) (r : NavRecord)
    (hr : r ∈ savesOf (handleConn env hasStore tail chunks).1) :
    ∃ pre c post k p l, chunks.flatten = pre ++ c ++ post ∧ Package.decode {} c (env.spare k) = .ret 0 none p ∧
      p.ServicesFrameData = some (.appdata l) ∧ NoResponses l ∧ positions (subsOf l) ≠ [] ∧
      r.LocStates = (positions (subsOf l)).map locOf ∧ r.LocStatesCount.toInt = ((positions (subsOf l)).length : Int) ∧
      r.AnSensors = (subsOf l).flatMap (·.readings) ∧ r.LiquidSensors = ((subsOf l).filterMap (·.liquid?)).map liquidOf ∧
      (∃ rec, l.getLast? = some rec ∧ r.ClientID = rec.ObjectIdentifier) ∧
      (r.IMEI = [] ∨ ∃ t ∈ (subsOf l).filterMap (·.term?), r.IMEI = t.IMEI) ∧
      (∃ pos, (positions (subsOf l)).getLast? = some pos ∧ r.NavigationTimestamp = unixOf pos.NavigationTime) ∧
      r.ReceivedDt = env.now k ∧ r.ServerID = [69, 71, 84, 83, 95, 71, 65, 84, 69, 48] := by
  cases hasStore with
  | false => simp [handleConn, savesOf] at hr
  | true =>
    rw [handleConn_serve] at hr
    unfold savesOf at hr
    obtain ⟨e, he, hre⟩ := List.mem_filterMap.mp hr
    cases e with
    | write b => simp at hre
    | save r' =>
      obtain rfl : r' = r := by simpa using hre
      obtain ⟨pre, c, post, k, l, hs, h10, hh, hl⟩ := effect_origin env tail _ _ _ _ he
      rcases packet_effects _ _ c l h10 hh with rfl | ⟨p, code, e, nack, -, rfl, -⟩ | ⟨p, recs, ack, hd, hb, hn, -, -, rfl⟩
      · simp at hl
      · simp at hl
      · refine ⟨pre, c, post, k, p, recs, hs, hd, hb, hn, ?_⟩
        by_cases hp : (positions (subsOf recs)).isEmpty
        · rw [if_pos hp] at hl
          exfalso
          split at hl <;> simp at hl
        · rw [if_neg hp] at hl
          have hrr : r' = exportOf (env.now k) p.PacketIdentifier recs := by
            split at hl <;> simpa using hl
          subst hrr
          have hne : positions (subsOf recs) ≠ [] := by simpa using hp
          have hl : recs ≠ [] := by rintro rfl; exact hne rfl
          refine ⟨hne, rfl, ?_, rfl, rfl, ?_, ?_, ?_, rfl, rfl⟩
          · obtain ⟨-, -, -, hlt⟩ := data_facts hd hb
            show (Int32.ofNat _).toInt = _
            exact Int32.toInt_ofNat_of_lt hlt
          · exact ⟨recs.getLast hl, List.getLast?_eq_some_getLast hl, by simp [exportOf, List.getLast?_eq_some_getLast hl]⟩
          · cases ht : ((subsOf recs).filterMap (·.term?)).getLast? with
            | none => left; simp [exportOf, ht]
            | some t => right; exact ⟨t, List.mem_of_getLast? ht, by simp [exportOf, ht]⟩
          · exact ⟨_, List.getLast?_eq_some_getLast hne, by simp [exportOf, List.getLast?_eq_some_getLast hne]⟩

/-- C66, answers: every packet sent in any run is one complete frame with protocol version 1 and answers a packet `c` contained in the received bytes: a
RESPONSE with the identifier of `c` (bytes 7 and 8), or the authorisation result for it. -/
theorem written_from_packet (env : Env) (hasStore : Bool) (tail : Tail) (chunks : List Bytes) (w : Bytes)
    (hw : w ∈ writesOf (handleConn env hasStore tail chunks).1) :
    Framed w ∧ ∃ pre c post, chunks.flatten = pre ++ c ++ post ∧ 10 ≤ c.length ∧ ∃ pid : UInt16, pid.toNat = word16At c 7 ∧
      ((∃ code rns, Answers w pid code rns) ∨ w = resultPacket pid 0) := by
  cases hasStore with
  | false => simp [handleConn, writesOf] at hw
  | true =>
    rw [handleConn_serve] at hw
    unfold writesOf at hw
    obtain ⟨e, he, hre⟩ := List.mem_filterMap.mp hw
    cases e with
    | save b => simp at hre
    | write w' =>
      obtain rfl : w' = w := by simpa using hre
      obtain ⟨pre, c, post, k, l, hs, h10, hh, hl⟩ := effect_origin env tail _ _ _ _ he
      have hpid : (u16 [byteAt c 7, byteAt c 8]).toNat = word16At c 7 := by rw [u16_toNat]; simp [word16At, leValue]
      rcases packet_effects _ _ c l h10 hh with rfl | ⟨p, code, e, nack, -, rfl, hp, ha⟩ | ⟨p, recs, ack, hd, hb, hn, hp, ha, rfl⟩
      · simp at hl
      · obtain rfl : w' = nack := by simpa using hl
        exact ⟨ha.1, pre, c, post, hs, h10, p.PacketIdentifier, by rw [hp, hpid], .inl ⟨_, _, ha⟩⟩
      · have : w' = ack ∨ w' = resultPacket p.PacketIdentifier 0 := by
          rcases List.mem_append.mp hl with hl | hl
          · rcases List.mem_append.mp hl with hl | hl
            · split at hl <;> simp at hl
            · left; simpa using hl
          · split at hl
            · right; simpa using hl
            · simp at hl
        rcases this with rfl | rfl
        · exact ⟨ha.1, pre, c, post, hs, h10, p.PacketIdentifier, by rw [hp, hpid], .inl ⟨_, _, ha⟩⟩
        · exact ⟨resultPacket_framed _ _, pre, c, post, hs, h10, p.PacketIdentifier, by rw [hp, hpid], .inr rfl⟩

end Egts
