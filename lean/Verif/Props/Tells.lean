import Verif.Spec.Tells
import Verif.Props.Batch
import Verif.Props.Saved
set_option autoImplicit false
/- C139: what can be told from the stored records about what was sent. -/
namespace Egts
open Frame
variable [P : Platform]

omit P in
theorem map_tells {α β γ : Type} {f : α → β} {g : α → γ} {l l' : List α} (hf : ∀ a ∈ l, ∀ b ∈ l', f a = f b → g a = g b) (h : l.map f = l'.map f) :
    l.map g = l'.map g := by
  induction l generalizing l' with
  | nil => cases l' with
    | nil => rfl
    | cons b l' => cases h
  | cons a l ih => cases l' with
    | nil => cases h
    | cons b l' =>
      rw [List.map_cons, List.map_cons, List.cons.injEq] at h
      rw [List.map_cons, List.map_cons, hf a (by simp) b (by simp) h.1,
        ih (fun x hx y hy => hf x (List.mem_cons_of_mem _ hx) y (List.mem_cons_of_mem _ hy)) h.2]

omit P in
theorem loc_tells {d d' : SrPosData} {b b' : Bytes} (h : SrPosData.decode {} b = .ok d) (h' : SrPosData.decode {} b' = .ok d') (he : locOf d = locOf d') :
    placeOf d = placeOf d' := by
  obtain ⟨u, -⟩ := loc_denotes h
  obtain ⟨u', -⟩ := loc_denotes h'
  have t := navtime_decoded b d h
  have t' := navtime_decoded b' d' h'
  have n1 : ntm b < 2 ^ 32 := wireNat_lt b 0 4
  have n2 : ntm b' < 2 ^ 32 := wireNat_lt b' 0 4
  have e := LocState.mk.inj he
  have e4 := rfc3339_injective _ _ (by rw [u]; omega) (by rw [u']; omega) e.2.2.2
  unfold placeOf
  rw [e.1, e.2.1, e.2.2.1, show d.NavigationTime = d'.NavigationTime by rw [u, u'] at e4; omega]

omit P in
theorem tenth_tells {a b : UInt32} (h : rnd ((a.toNat : ℚ) / 10) = rnd ((b.toNat : ℚ) / 10)) : a = b := by
  have h1 := abs_le.mp (rnd_error (x := (a.toNat : ℚ) / 10) (by positivity))
  have h2 := abs_le.mp (rnd_error (x := (b.toNat : ℚ) / 10) (by positivity))
  have ha : (a.toNat : ℚ) ≤ 4294967296 := by exact_mod_cast a.toNat_lt.le
  have hb : (b.toNat : ℚ) ≤ 4294967296 := by exact_mod_cast b.toNat_lt.le
  rw [h] at h1
  norm_num at h1 h2
  have k1 : (a.toNat : ℚ) < b.toNat + 1 := by linarith [h1.1, h1.2, h2.1, h2.2]
  have k2 : (b.toNat : ℚ) < a.toNat + 1 := by linarith [h1.1, h1.2, h2.1, h2.2]
  have k3 : a.toNat < b.toNat + 1 := by exact_mod_cast k1
  have k4 : b.toNat < a.toNat + 1 := by exact_mod_cast k2
  exact UInt32.toNat_inj.mp (by omega)

theorem liquid_tells {d d' : SrLiquidLevelSensor} (h : liquidOf d = liquidOf d') : sentLevel d = sentLevel d' := by
  have e := LiquidSensor.mk.inj h
  obtain ⟨e1, e2, e3, e4, e5, e6⟩ := e
  unfold sentLevel
  rw [e1, e2, e3, e4]
  congr 4
  rw [e4] at e5 e6
  by_cases h1 : d'.LiquidLevelSensorValueUnit ∈ [[48, 48], [48, 49]]
  · rw [if_pos h1, if_pos h1] at e5
    rw [e5]
  · by_cases h2 : d'.LiquidLevelSensorValueUnit = [49, 48]
    · rw [if_pos h2, if_pos h2] at e6
      rw [tenth_tells e6]
    · have : d'.LiquidLevelSensorValueUnit ∉ [[48, 48], [48, 49], [49, 48]] := by
        simp only [List.mem_cons, List.not_mem_nil, or_false, not_or] at h1 ⊢
        exact ⟨h1.1, h1.2, h2⟩
      rw [if_neg this, if_neg this]

theorem carried_origin {cs : List Bytes} {ls : List (List ServiceDataRecord)} (h : Carry cs ls) :
    ∀ d ∈ positions (subsOf ls.flatten), ∃ b, SrPosData.decode {} b = .ok d := by
  unfold Carry at h
  induction h with
  | nil => intro d hd; simp [positions, subsOf] at hd
  | @cons c l cs ls hc hr ih =>
    obtain ⟨⟨pid, hd⟩, -⟩ := hc
    intro d hm
    have hsub : subsOf (l ++ ls.flatten) = subsOf l ++ subsOf ls.flatten := by simp [subsOf]
    rw [List.flatten_cons, hsub, positions, List.filterMap_append] at hm
    rcases List.mem_append.mp hm with hm | hm
    · obtain ⟨q, hq, hb, -⟩ := data_packet_accepted c pid l hd {} []
      exact position_origin hq hb d hm
    · exact ih d hm

/-- C139 (partial): from the places that are stored one can tell what places the devices have sent but for the hemispheres: two histories with the same
places stored have sent the same latitudes, longitudes, speeds and times, in the same order; all of it, if all places are in the north-east. If every
packet has a position, the stored levels and readings tell the levels and readings sent. Missing: hemispheres (`tells_wrong`), and readings in
packets without position (C135). -/
theorem tells_partial (env env' : Env) (tail tail' : Tail) (chunks chunks' cs cs' : List Bytes) (ls ls' : List (List ServiceDataRecord))
    (h : Carry cs ls) (h' : Carry cs' ls') (hc : chunks.flatten = cs.flatten) (hc' : chunks'.flatten = cs'.flatten) :
    (placesStored (handleConn env true tail chunks).1 = placesStored (handleConn env' true tail' chunks').1 →
      (positions (subsOf ls.flatten)).map placeOf = (positions (subsOf ls'.flatten)).map placeOf ∧
      ((∀ d ∈ positions (subsOf ls.flatten) ++ positions (subsOf ls'.flatten), NorthEast d) →
        (positions (subsOf ls.flatten)).map sentPlace = (positions (subsOf ls'.flatten)).map sentPlace)) ∧
    ((∀ l ∈ ls ++ ls', positions (subsOf l) ≠ []) →
      (liquidsStored (handleConn env true tail chunks).1 = liquidsStored (handleConn env' true tail' chunks').1 →
        ((subsOf ls.flatten).filterMap (·.liquid?)).map sentLevel = ((subsOf ls'.flatten).filterMap (·.liquid?)).map sentLevel) ∧
      (readingsStored (handleConn env true tail chunks).1 = readingsStored (handleConn env' true tail' chunks').1 →
        (subsOf ls.flatten).flatMap (·.readings) = (subsOf ls'.flatten).flatMap (·.readings))) := by
  rw [stream_behaviour env tail chunks cs [] ⟨by rw [hc, List.append_nil], carried_taken h, .inl (by simp)⟩,
    stream_behaviour env' tail' chunks' cs' [] ⟨by rw [hc', List.append_nil], carried_taken h', .inl (by simp)⟩]
  obtain ⟨a1, -, a3⟩ := carried env tail [] 0 h
  obtain ⟨b1, -, b3⟩ := carried env' tail' [] 0 h'
  rw [a1, b1]
  refine ⟨fun he => ?_, fun hp => ?_⟩
  · have key : ∀ d ∈ positions (subsOf ls.flatten), ∀ d' ∈ positions (subsOf ls'.flatten), locOf d = locOf d' → placeOf d = placeOf d' := by
      intro d hd d' hd' e
      obtain ⟨b, hb⟩ := carried_origin h d hd
      obtain ⟨b', hb'⟩ := carried_origin h' d' hd'
      exact loc_tells hb hb' e
    refine ⟨map_tells key he, fun hne => map_tells (fun d hd d' hd' e => ?_) he⟩
    obtain ⟨n1, n2⟩ := hne d (List.mem_append_left _ hd)
    obtain ⟨m1, m2⟩ := hne d' (List.mem_append_right _ hd')
    unfold sentPlace
    rw [key d hd d' hd' e, n1, n2, m1, m2]
  · obtain ⟨a4, a5⟩ := a3 fun l hl => hp l (List.mem_append_left _ hl)
    obtain ⟨b4, b5⟩ := b3 fun l hl => hp l (List.mem_append_right _ hl)
    rw [a4, b4, a5, b5]
    exact ⟨fun he => map_tells (fun d _ d' _ e => liquid_tells e) he, id⟩

/-! ### the same place in the south-west -/

/-- the position of `fixPacket 9 1` in the south-west -/
def exFar : SrPosData := { exFix 49 with LAHS := [49], LOHS := [49] }

def exFarRecord : ServiceDataRecord := { cutRecord with
  RecordLength := 24
  RecordDataSet := [⟨16, 21, some (.pos exFar)⟩] }

theorem farPacket_data : DataPacket (fixPacket 9 97) 9 [exFarRecord] := by
  refine ⟨_, _, rfl, by simp [fixPacket, packet, leBytes_len], by simp, ?_, ?_⟩
  · constructor
    all_goals simp [declaredHL, declaredFDL, headerSize, routed, word16At, byteAt, leValue]
  refine CompleteRecords.cons (hdr := [24, 0, 1, 0, 0, 2, 2]) (data := [16, 21, 0, 1, 0, 0, 0, 0, 0, 0, 128, 0, 0, 0, 128, 97, 0, 0, 0, 1, 0, 0, 0, 0])
    (rest := []) (cut_header 24 _) rfl ?_ .nil
  refine .cons (rest := []) ⟨[1, 0, 0, 0, 0, 0, 0, 128, 0, 0, 0, 128, 97, 0, 0, 0, 1, 0, 0, 0, 0], .pos exFar, by simp [leBytes], rfl, rfl, rfl, ?_⟩ .nil
  kernel_rfl

theorem far_carry : Carry [fixPacket 9 97] [[exFarRecord]] :=
  .cons ⟨⟨9, farPacket_data⟩, by simp [NoResponses, subsOf, exFarRecord, SubData.isResponse]⟩ .nil

theorem near_carry : Carry [fixPacket 9 1] [[exFixRecord 49]] :=
  .cons ⟨⟨9, fixPacket_data 9 1 49 (.inr ⟨rfl, rfl⟩)⟩, by simp [NoResponses, subsOf, exFixRecord, SubData.isResponse]⟩ .nil

/-- C139 is false of the code: a device in the north-east and one in the south-west, and the same is stored -/
theorem tells_wrong (env : Env) (tail : Tail) :
    savesOf (handleConn env true tail [fixPacket 9 1]).1 = savesOf (handleConn env true tail [fixPacket 9 97]).1 ∧
    savesOf (handleConn env true tail [fixPacket 9 1]).1 ≠ [] ∧
    (positions (subsOf [exFixRecord 49])).map sentPlace ≠ (positions (subsOf [exFarRecord])).map sentPlace := by
  have h1 : NoResponses [exFixRecord 49] := by simp [NoResponses, subsOf, exFixRecord, SubData.isResponse]
  have h2 : NoResponses [exFarRecord] := by simp [NoResponses, subsOf, exFarRecord, SubData.isResponse]
  rw [stream_behaviour env tail _ [fixPacket 9 1] [] ⟨by simp, carried_taken near_carry, .inl (by simp)⟩,
    stream_behaviour env tail _ [fixPacket 9 97] [] ⟨by simp, carried_taken far_carry, .inl (by simp)⟩]
  have hs : ∀ a b : List Effect, savesOf (a ++ b) = savesOf a ++ savesOf b := by intro a b; simp [savesOf]
  rw [reactAll, react_to _ _ _ _ _ (fixPacket_data 9 1 49 (.inr ⟨rfl, rfl⟩)), reactAll, reactAll, react_to _ _ _ _ _ farPacket_data, reactAll]
  simp only [hs, saves_reactTo _ _ _ h1, saves_reactTo _ _ _ h2]
  refine ⟨rfl, by simp [positions, subsOf, exFixRecord, SubData.pos?], ?_⟩
  simp [positions, subsOf, exFixRecord, exFarRecord, SubData.pos?, sentPlace, exFar, exFix]

/-- the hypotheses of `tells_partial` are met by one packet with a position and a level -/
theorem tells_example : (∀ l ∈ [[exFixRecord 49, exLevelRecord]], positions (subsOf l) ≠ []) ∧
    (∀ d ∈ positions (subsOf [[exFixRecord 49, exLevelRecord]].flatten), NorthEast d) := by
  constructor
  · intro l hl
    rw [List.mem_singleton] at hl
    rw [hl]
    exact List.cons_ne_nil _ _
  · intro d hd
    obtain rfl : d = exFix 49 := by simpa [positions, subsOf, exFixRecord, exLevelRecord, SubData.pos?] using hd
    exact ⟨rfl, rfl⟩

end Egts
