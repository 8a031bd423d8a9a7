import Verif.Spec.Batch
import Verif.Props.Longer
import Verif.Props.Server2
set_option autoImplicit false
/- C135: the same records in other packets. -/
namespace Egts
open Frame
variable [P : Platform]

theorem reactTo_data {now : Bytes} {pid : UInt16} {l : List ServiceDataRecord} (hn : NoResponses l) : reactTo now pid l =
    (if (positions (subsOf l)).isEmpty then [] else [.save (exportOf now pid l)]) ++ [.write (ackBytes pid l)] ++
    (if (subsOf l).any (·.isLogin) then [.write (resultPacket pid 0)] else []) := by
  have h1 : (subsOf l).any (·.isResponse) = false := by simpa [NoResponses] using hn
  unfold reactTo
  rw [h1]
  simp

theorem saves_reactTo (now : Bytes) (pid : UInt16) (l : List ServiceDataRecord) (hn : NoResponses l) :
    savesOf (reactTo now pid l) = if (positions (subsOf l)).isEmpty then [] else [exportOf now pid l] := by
  rw [reactTo_data hn]
  by_cases hl : (subsOf l).any (·.isLogin) <;> by_cases hp : (positions (subsOf l)).isEmpty <;> simp [savesOf, hl, hp]

theorem writes_reactTo (now : Bytes) (pid : UInt16) (l : List ServiceDataRecord) (hn : NoResponses l) :
    writesOf (reactTo now pid l) = ackBytes pid l :: (if (subsOf l).any (·.isLogin) then [resultPacket pid 0] else []) := by
  rw [reactTo_data hn]
  by_cases hl : (subsOf l).any (·.isLogin) <;> by_cases hp : (positions (subsOf l)).isEmpty <;> simp [writesOf, hl, hp]

theorem confirmed_answer {out : Bytes} {pid : UInt16} {code : UInt8} {rns : List UInt16} (h : Answers out pid code rns) : confirmedBy out = rns := by
  obtain ⟨-, -, h⟩ := h
  obtain ⟨q, r, hd, -, hb, -, -, h0, h1⟩ := h []
  unfold confirmedBy
  rw [hd]
  simp only [hb]
  by_cases hr : rns = []
  · rw [h0 hr, hr]
    rfl
  · obtain ⟨rec, hs, hset⟩ := h1 hr
    rw [hs]
    simp only [Option.getD_some, subsOf, List.flatMap_cons, List.flatMap_nil, List.append_nil, hset]
    clear hs hset h0 h1 hr
    induction rns with
    | nil => rfl
    | cons n rns ih => simpa using ih

theorem confirmed_result (pid : UInt16) (code : UInt8) : confirmedBy (resultPacket pid code) = [] := by
  obtain ⟨e, q, h⟩ := auth_result_rejected pid code []
  unfold confirmedBy
  rw [h]

theorem ack_confirms {c : Bytes} {pid : Nat} {l : List ServiceDataRecord} (h : DataPacket c pid l) (hn : NoResponses l) :
    confirmedBy (ackBytes (UInt16.ofNat pid) l) = l.map (·.RecordNumber) := by
  obtain ⟨q, hd, hb, hp, -⟩ := data_packet_accepted c pid l h {} []
  have hq : q.PacketIdentifier = UInt16.ofNat pid := by rw [← hp]; simp
  have := (handle_data_bytes [] [] c q l hd hb hn).1
  rw [hq] at this
  exact confirmed_answer this

/-- what a stream of data packets amounts to: packet by packet, the record (if there is a position) and the confirmations -/
theorem carried (env : Env) (tail : Tail) (rest : Bytes) (k : Nat) {cs : List Bytes} {ls : List (List ServiceDataRecord)} (h : Carry cs ls) :
    placesStored (reactAll env tail rest k cs).1 = (positions (subsOf ls.flatten)).map locOf ∧
    (writesOf (reactAll env tail rest k cs).1).flatMap confirmedBy = ls.flatten.map (·.RecordNumber) ∧
    ((∀ l ∈ ls, positions (subsOf l) ≠ []) →
      liquidsStored (reactAll env tail rest k cs).1 = ((subsOf ls.flatten).filterMap (·.liquid?)).map liquidOf ∧
      readingsStored (reactAll env tail rest k cs).1 = (subsOf ls.flatten).flatMap (·.readings)) := by
  unfold Carry at h
  induction h generalizing k with
  | nil => simp [reactAll, placesStored, savesOf, writesOf, subsOf, positions, liquidsStored, readingsStored]
  | @cons c l cs ls hc hr ih =>
    obtain ⟨⟨pid, hd⟩, hn⟩ := hc
    obtain ⟨i1, i2, i3⟩ := ih (k + 1)
    rw [reactAll, react_to _ _ _ _ _ hd]
    have hs : ∀ a b : List Effect, savesOf (a ++ b) = savesOf a ++ savesOf b := by intro a b; simp [savesOf]
    have hsub : subsOf (l ++ ls.flatten) = subsOf l ++ subsOf ls.flatten := by simp [subsOf]
    simp only [List.flatten_cons, hsub]
    refine ⟨?_, ?_, fun hp => ?_⟩
    · unfold placesStored at i1 ⊢
      rw [hs, List.flatMap_append, i1, saves_reactTo _ _ _ hn]
      unfold positions
      rw [List.filterMap_append, List.map_append]
      congr 1
      split
      · rename_i h
        have : positions (subsOf l) = [] := List.isEmpty_iff.mp h
        unfold positions at this
        rw [this]; rfl
      · simp [exportOf, positions]
    · rw [writesOf_append, List.flatMap_append, i2, writes_reactTo _ _ _ hn, List.map_append]
      congr 1
      rw [List.flatMap_cons, ack_confirms hd hn]
      split <;> simp [confirmed_result]
    · obtain ⟨i4, i5⟩ := i3 fun l' h' => hp l' (List.mem_cons_of_mem _ h')
      have h1 : (positions (subsOf l)).isEmpty = false := by simpa using hp l (by simp)
      simp only [liquidsStored] at i4
      simp only [readingsStored] at i5
      simp only [liquidsStored, readingsStored]
      rw [hs, List.flatMap_append, List.flatMap_append, i4, i5, saves_reactTo _ _ _ hn, h1]
      constructor
      · rw [List.filterMap_append, List.map_append]
        simp [exportOf]
      · rw [List.flatMap_append]
        simp [exportOf]

theorem carried_taken {cs : List Bytes} {ls : List (List ServiceDataRecord)} (h : Carry cs ls) : ∀ c ∈ cs, Taken c := by
  unfold Carry at h
  induction h with
  | nil => simp
  | @cons c l cs ls hc hr ih =>
    intro x hx
    rcases List.mem_cons.mp hx with rfl | hx
    · obtain ⟨⟨pid, hd⟩, -⟩ := hc
      exact framed_taken (data_packet_framed _ _ _ hd)
    · exact ih x hx

/-- C135 (partial): however a device distributes its records over packets, the same places are stored in the same order, and the same record numbers are
confirmed in the same order; if every packet has a position, also the same liquid levels and the same analog readings are stored, in the
same order. Missing: readings in packets without position (`batching_wrong`). -/
theorem batching_partial (env env' : Env) (tail tail' : Tail) (chunks chunks' cs cs' : List Bytes) (ls ls' : List (List ServiceDataRecord))
    (h : Carry cs ls) (h' : Carry cs' ls') (hc : chunks.flatten = cs.flatten) (hc' : chunks'.flatten = cs'.flatten) (he : ls'.flatten = ls.flatten) :
    placesStored (handleConn env' true tail' chunks').1 = placesStored (handleConn env true tail chunks).1 ∧
    (writesOf (handleConn env' true tail' chunks').1).flatMap confirmedBy = (writesOf (handleConn env true tail chunks).1).flatMap confirmedBy ∧
    ((∀ l ∈ ls ++ ls', positions (subsOf l) ≠ []) →
      liquidsStored (handleConn env' true tail' chunks').1 = liquidsStored (handleConn env true tail chunks).1 ∧
      readingsStored (handleConn env' true tail' chunks').1 = readingsStored (handleConn env true tail chunks).1) := by
  rw [stream_behaviour env tail chunks cs [] ⟨by rw [hc, List.append_nil], carried_taken h, .inl (by simp)⟩,
    stream_behaviour env' tail' chunks' cs' [] ⟨by rw [hc', List.append_nil], carried_taken h', .inl (by simp)⟩]
  obtain ⟨a1, a2, a3⟩ := carried env tail [] 0 h
  obtain ⟨b1, b2, b3⟩ := carried env' tail' [] 0 h'
  refine ⟨by rw [a1, b1, he], by rw [a2, b2, he], fun hp => ?_⟩
  obtain ⟨a4, a5⟩ := a3 fun l hl => hp l (List.mem_append_left _ hl)
  obtain ⟨b4, b5⟩ := b3 fun l hl => hp l (List.mem_append_right _ hl)
  exact ⟨by rw [a4, b4, he], by rw [a5, b5, he]⟩

/-! ### a position and a liquid level, in one packet or in two -/

/-- a liquid level -/
def exLevel : SrLiquidLevelSensor := { LiquidLevelSensorErrorFlag := [48], LiquidLevelSensorValueUnit := [48, 48], RawDataFlag := [48], LiquidLevelSensorData := 9 }

/-- a record with the level -/
def exLevelRecord : ServiceDataRecord := { cutRecord with
  RecordLength := 10
  RecordDataSet := [⟨27, 7, some (.liquid exLevel)⟩] }

theorem level_complete {rest : Bytes} {l : List ServiceDataRecord} (h : CompleteRecords rest l) :
    CompleteRecords ([10, 0, 1, 0, 0, 2, 2] ++ [27, 7, 0, 0, 0, 0, 9, 0, 0, 0] ++ rest) (exLevelRecord :: l) := by
  refine CompleteRecords.cons (hdr := [10, 0, 1, 0, 0, 2, 2]) (data := [27, 7, 0, 0, 0, 0, 9, 0, 0, 0]) (cut_header 10 _) rfl ?_ h
  refine .cons (rest := []) ⟨[0, 0, 0, 9, 0, 0, 0], .liquid exLevel, by simp [leBytes], rfl, rfl, rfl, ?_⟩ .nil
  kernel_rfl

/-- a packet with the level alone -/
def levelPacket : Bytes := packet [1, 0, 0, 11, 0, 17, 0, 8, 0, 1] [10, 0, 1, 0, 0, 2, 2, 27, 7, 0, 0, 0, 0, 9, 0, 0, 0]

theorem levelPacket_data : DataPacket levelPacket 8 [exLevelRecord] :=
  ⟨_, _, rfl, by simp [levelPacket, packet, leBytes_len], by simp, ⟨by decide, by decide, by decide, by decide, by decide, by decide⟩,
    level_complete .nil⟩

/-- a packet with the position of `fixPacket` and the level -/
def bothPacket : Bytes := packet [1, 0, 0, 11, 0, 48, 0, 9, 0, 1]
  ([24, 0, 1, 0, 0, 2, 2] ++ [16, 21, 0, 1, 0, 0, 0, 0, 0, 0, 128, 0, 0, 0, 128, 1, 0, 0, 0, 1, 0, 0, 0, 0] ++
    [10, 0, 1, 0, 0, 2, 2, 27, 7, 0, 0, 0, 0, 9, 0, 0, 0])

theorem bothPacket_data : DataPacket bothPacket 9 [exFixRecord 49, exLevelRecord] := by
  refine ⟨_, _, rfl, by simp [bothPacket, packet, leBytes_len], by simp, ⟨by decide, by decide, by decide, by decide, by decide, by decide⟩, ?_⟩
  refine CompleteRecords.cons (cut_header 24 _) rfl ?_ (level_complete .nil)
  refine .cons (rest := []) ⟨[1, 0, 0, 0, 0, 0, 0, 128, 0, 0, 0, 128, 1, 0, 0, 0, 1, 0, 0, 0, 0], .pos (exFix 49), by simp [leBytes], rfl, rfl, rfl, ?_⟩ .nil
  kernel_rfl

theorem both_carry : Carry [bothPacket] [[exFixRecord 49, exLevelRecord]] :=
  .cons ⟨⟨9, bothPacket_data⟩, by simp [NoResponses, subsOf, exFixRecord, exLevelRecord, SubData.isResponse]⟩ .nil

theorem split_carry : Carry [fixPacket 9 1, levelPacket] [[exFixRecord 49], [exLevelRecord]] :=
  .cons ⟨⟨9, fixPacket_data 9 1 49 (.inr ⟨rfl, rfl⟩)⟩, by simp [NoResponses, subsOf, exFixRecord, SubData.isResponse]⟩
    (.cons ⟨⟨8, levelPacket_data⟩, by simp [NoResponses, subsOf, exLevelRecord, SubData.isResponse]⟩ .nil)

/-- C135 is false of the code: a liquid level is stored if it comes in one packet with a position, and lost if the same record comes in the
next packet (which is confirmed all the same) -/
theorem batching_wrong (env : Env) (tail : Tail) :
    liquidsStored (handleConn env true tail [bothPacket]).1 = [liquidOf exLevel] ∧
    liquidsStored (handleConn env true tail [fixPacket 9 1, levelPacket]).1 = [] := by
  rw [stream_behaviour env tail _ [bothPacket] [] ⟨by simp, carried_taken both_carry, .inl (by simp)⟩,
    stream_behaviour env tail _ [fixPacket 9 1, levelPacket] [] ⟨by simp, carried_taken split_carry, .inl (by simp)⟩]
  constructor
  · rw [((carried env tail [] 0 both_carry).2.2 (by intro l hl; rw [List.mem_singleton] at hl; rw [hl]; exact List.cons_ne_nil _ _)).1]
    simp [subsOf, exFixRecord, exLevelRecord, SubData.liquid?]
  · have h1 : NoResponses [exFixRecord 49] := by simp [NoResponses, subsOf, exFixRecord, SubData.isResponse]
    have h2 : NoResponses [exLevelRecord] := by simp [NoResponses, subsOf, exLevelRecord, SubData.isResponse]
    have hs : ∀ a b : List Effect, savesOf (a ++ b) = savesOf a ++ savesOf b := by intro a b; simp [savesOf]
    rw [reactAll, react_to _ _ _ _ _ (fixPacket_data 9 1 49 (.inr ⟨rfl, rfl⟩)), reactAll, react_to _ _ _ _ _ levelPacket_data, reactAll]
    simp only [liquidsStored, hs, saves_reactTo _ _ _ h1, saves_reactTo _ _ _ h2]
    simp [positions, subsOf, exFixRecord, exLevelRecord, SubData.pos?, exportOf, SubData.liquid?, savesOf]

end Egts
