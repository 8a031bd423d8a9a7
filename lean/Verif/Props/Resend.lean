import Verif.Props.AnyStream
import Verif.Props.Conform
import Verif.Props.ServerEx
import Verif.Props.Attribute
set_option autoImplicit false
/- C94: identifiers of the packets sent by the server; C95: packets sent again; C96: valid fixes. -/
namespace Egts
open Frame
variable [P : Platform]

/-! ### C94 -/

omit P in
theorem answerBytes_id (pid : Nat) (code st : UInt8) (rns : List Nat) : word16At (answerBytes pid code st rns) 7 = (pid + 1) % 65536 := by
  unfold answerBytes
  simp [packet, word16At, byteAt, leBytes, leValue]
  omega

omit P in
theorem resultPacket_id (pid : UInt16) (code : UInt8) : word16At (resultPacket pid code) 7 = (pid.toNat + 1) % 65536 := by
  have h : word16At (resultPacket pid code) 7 = leValue (le16 (pid + 1)) := rfl
  have h2 := (pid + 1).toNat_lt
  rw [h, le16_eq]
  simp only [leBytes, leValue, UInt8.toNat_ofNat']
  rw [← UInt16.toNat_ofNat' (n := pid.toNat + 1)]
  have : UInt16.ofNat (pid.toNat + 1) = pid + 1 := by simp
  rw [this]
  omega

/-- the packet holds a login or a terminal identity -/
def Logs (c spare : Bytes) : Prop := ∃ p l, Package.decode {} c spare = .ret 0 none p ∧ p.ServicesFrameData = some (.appdata l) ∧
  (subsOf l).any (·.isLogin) = true

/-- every packet sent in answer to packet `c` has the identifier of `c` plus one; there is at most one, unless `c` is a login -/
theorem react_ids (now spare c : Bytes) (h10 : 10 ≤ c.length) (es : List Effect) (h : react now spare c = some es) :
    (∀ w ∈ writesOf es, word16At w 7 = (word16At c 7 + 1) % 65536) ∧ (¬ Logs c spare → (writesOf es).length ≤ 1) := by
  unfold react at h
  cases hd : Package.decode {} c spare with
  | panic => rw [hd] at h; cases h
  | diverge => rw [hd] at h; cases h
  | ret code e p =>
    have hp : p.PacketIdentifier.toNat = word16At c 7 := by
      rw [decode_pid h10 hd, u16_toNat]; simp [word16At, leValue]
    rw [hd] at h
    cases e with
    | some e =>
      obtain rfl := (Option.some.inj h).symm
      simp [writesOf, answerBytes_id]
    | none =>
      simp only at h
      cases hb : p.ServicesFrameData with
      | none => rw [hb] at h; obtain rfl := (Option.some.inj h).symm; simp [writesOf]
      | some b =>
        rw [hb] at h
        cases b with
        | response r => obtain rfl := (Option.some.inj h).symm; simp [writesOf]
        | appdata l =>
          simp only at h
          split at h
          · obtain rfl := (Option.some.inj h).symm; simp [writesOf]
          · obtain rfl := (Option.some.inj h).symm
            have h1 : word16At (ackBytes p.PacketIdentifier l) 7 = (word16At c 7 + 1) % 65536 := by
              unfold ackBytes; rw [answerBytes_id, hp]
            have h2 : word16At (resultPacket p.PacketIdentifier 0) 7 = (word16At c 7 + 1) % 65536 := by
              rw [resultPacket_id, hp]
            have h0 : code = 0 := by
              rcases decode_codes_partial {} p c spare code none hd with h | h | ⟨-, h | h | h | h | h⟩
              · exact h.1
              all_goals simp at h
            constructor
            · intro w hw
              by_cases hpos : (positions (subsOf l)).isEmpty <;> by_cases hl : (subsOf l).any (·.isLogin) <;>
                simp [writesOf, hpos, hl] at hw
              all_goals first | (rcases hw with rfl | rfl; exact h1; exact h2) | (rw [hw]; exact h1)
            · intro hlog
              have hl : (subsOf l).any (·.isLogin) = false := by
                by_contra hc
                exact hlog ⟨p, l, h0 ▸ hd, hb, by simpa using hc⟩
              by_cases hpos : (positions (subsOf l)).isEmpty <;> simp [writesOf, hpos, hl]

omit P in
theorem writesOf_append (a b : List Effect) : writesOf (a ++ b) = writesOf a ++ writesOf b := by simp [writesOf]

omit P in
theorem word16_lt (c : Bytes) (i : Nat) : word16At c i < 65536 := by
  unfold word16At
  simp only [leValue]
  have := (byteAt c i).toNat_lt
  have := (byteAt c (i + 1)).toNat_lt
  omega

theorem reactAll_ids (env : Env) (tail : Tail) (rest : Bytes) (k : Nat) (cs : List Bytes) (ht : ∀ c ∈ cs, 10 ≤ c.length)
    (hd : (cs.map fun c => word16At c 7).Nodup) (hl : ∀ c ∈ cs, ∀ spare, ¬ Logs c spare) :
    ((writesOf (reactAll env tail rest k cs).1).map fun w => word16At w 7).Nodup ∧
    ∀ w ∈ writesOf (reactAll env tail rest k cs).1, ∃ c ∈ cs, word16At w 7 = (word16At c 7 + 1) % 65536 := by
  induction cs generalizing k with
  | nil => simp [reactAll, writesOf]
  | cons c cs ih =>
    rw [List.map_cons, List.nodup_cons] at hd
    obtain ⟨i1, i2⟩ := ih (k + 1) (fun x hx => ht x (by simp [hx])) hd.2 (fun x hx => hl x (by simp [hx]))
    rw [reactAll]
    cases hr : react (env.now k) (env.spare k) c with
    | none => simp [writesOf]
    | some es =>
      obtain ⟨r1, r2⟩ := react_ids _ _ c (ht c (by simp)) es hr
      have r2 := r2 (hl c (by simp) _)
      simp only
      rw [writesOf_append]
      constructor
      · rw [List.map_append, List.nodup_append]
        refine ⟨?_, i1, ?_⟩
        · match hw : writesOf es, r2 with
          | [], _ => simp
          | [w], _ => simp
        · intro a ha b hb hab
          obtain ⟨w, hw, rfl⟩ := List.mem_map.mp ha
          obtain ⟨w', hw', rfl⟩ := List.mem_map.mp hb
          obtain ⟨c', hc', e'⟩ := i2 w' hw'
          rw [r1 w hw, e'] at hab
          have := word16_lt c 7
          have := word16_lt c' 7
          exact hd.1 (List.mem_map.mpr ⟨c', hc', by omega⟩)
      · intro w hw
        rcases List.mem_append.mp hw with h | h
        · exact ⟨c, by simp, r1 w h⟩
        · obtain ⟨c', hc', e'⟩ := i2 w h
          exact ⟨c', by simp [hc'], e'⟩

/-- C94 (partial): if the packets of a client have different identifiers and none of them is a login, all packets sent to it have different
identifiers. Missing: logins (`login_ids_repeated`). -/
theorem distinct_ids_partial (env : Env) (tail : Tail) (chunks cs : List Bytes) (rest : Bytes) (h : CutInto chunks.flatten cs rest)
    (hd : (cs.map fun c => word16At c 7).Nodup) (hl : ∀ c ∈ cs, ∀ spare, ¬ Logs c spare) :
    ((writesOf (handleConn env true tail chunks).1).map fun w => word16At w 7).Nodup := by
  rw [stream_behaviour env tail chunks cs rest h]
  exact (reactAll_ids env tail rest 0 cs (fun c hc => taken_ten (h.taken c hc)) hd hl).1

/-- C94 is false of the code for every login: the acknowledgement and the authorisation result have the same identifier. -/
theorem login_ids_repeated (env : Env) (c : Bytes) (p : Package) (l : List ServiceDataRecord) (hf : Framed c)
    (hd : Package.decode {} c (env.spare 0) = .ret 0 none p) (hb : p.ServicesFrameData = some (.appdata l)) (hn : NoResponses l)
    (hl : (subsOf l).any (·.isLogin) = true) :
    ∃ w w', writesOf (handleConn env true .silent [c]).1 = [w, w'] ∧ word16At w 7 = word16At w' 7 := by
  have hr : react (env.now 0) (env.spare 0) c = some (
        (if (positions (subsOf l)).isEmpty then [] else [.save (exportOf (env.now 0) p.PacketIdentifier l)]) ++
        [.write (ackBytes p.PacketIdentifier l)] ++ [.write (resultPacket p.PacketIdentifier 0)]) := by
    have h1 : (subsOf l).any (·.isResponse) = false := by simpa [NoResponses] using hn
    unfold react
    rw [hd]
    simp only [hb, h1, hl]
    simp
  have h1 := (react_ids _ _ c (taken_ten (framed_taken hf)) _ hr).1
  rw [alone_taken env c (framed_taken hf), hr]
  simp only
  refine ⟨ackBytes p.PacketIdentifier l, resultPacket p.PacketIdentifier 0, ?_, ?_⟩
  · by_cases hpos : (positions (subsOf l)).isEmpty <;> simp [writesOf, hpos]
  · rw [h1 (ackBytes p.PacketIdentifier l) (by by_cases hpos : (positions (subsOf l)).isEmpty <;> simp [writesOf, hpos]),
      h1 (resultPacket p.PacketIdentifier 0) (by by_cases hpos : (positions (subsOf l)).isEmpty <;> simp [writesOf, hpos])]

/-- `exPacket` is a login (test of the hypotheses) -/
example (env : Env) : ∃ w w', writesOf (handleConn env true .silent [exPacket]).1 = [w, w'] ∧ word16At w 7 = word16At w' 7 := by
  obtain ⟨p, l, h1, h2, h3, -, ⟨d, h4, h5⟩, -⟩ := exPacket_meets (env.spare 0)
  exact login_ids_repeated env exPacket p l exPacket_framed h1 h2 h3 (List.any_eq_true.mpr ⟨d, h4, h5⟩)

/-! ### C95 -/

theorem react_data (now spare c : Bytes) (pid : Nat) (l : List ServiceDataRecord) (h : DataPacket c pid l) (hn : NoResponses l) :
    react now spare c = some (
        (if (positions (subsOf l)).isEmpty then [] else [.save (exportOf now (UInt16.ofNat pid) l)]) ++
        [.write (ackBytes (UInt16.ofNat pid) l)] ++
        (if (subsOf l).any (·.isLogin) then [.write (resultPacket (UInt16.ofNat pid) 0)] else [])) := by
  obtain ⟨q, hd, hb, hp, -⟩ := data_packet_accepted c pid l h {} spare
  have hq : q.PacketIdentifier = UInt16.ofNat pid := by rw [← hp]; simp
  have h1 : (subsOf l).any (·.isResponse) = false := by simpa [NoResponses] using hn
  unfold react
  rw [hd]
  simp only [hb, h1, hq]
  rfl

theorem data_packet_framed (c : Bytes) (pid : Nat) (l : List ServiceDataRecord) (h : DataPacket c pid l) : Framed c := by
  obtain ⟨hdr, b, rfl, hlen, hb, hh, -⟩ := h
  exact packet_framed hh hb hlen

/-- C95: a data packet with a position that is sent `n` times on a connection is stored `n` times: the property holds only for `n ≤ 1`; the stored
records differ only in the time of receipt. -/
theorem resent_stored_again (env : Env) (tail : Tail) (c : Bytes) (pid : Nat) (l : List ServiceDataRecord) (h : DataPacket c pid l) (hn : NoResponses l)
    (hp : positions (subsOf l) ≠ []) (n : Nat) (chunks : List Bytes) (hc : chunks.flatten = (List.replicate n c).flatten) :
    ∃ r : NavRecord, savesOf (handleConn env true tail chunks).1 = (List.range n).map fun k => { r with ReceivedDt := env.now k } := by
  have hcut : CutInto chunks.flatten (List.replicate n c) [] := by
    refine ⟨by rw [hc, List.append_nil], fun x hx => ?_, .inl (by simp)⟩
    rw [List.eq_of_mem_replicate hx]
    exact framed_taken (data_packet_framed c pid l h)
  rw [stream_behaviour env tail chunks _ _ hcut]
  refine ⟨exportOf [] (UInt16.ofNat pid) l, ?_⟩
  have key : ∀ n k, savesOf (reactAll env tail [] k (List.replicate n c)).1 =
      (List.range' k n).map fun k => { exportOf [] (UInt16.ofNat pid) l with ReceivedDt := env.now k } := by
    intro n
    induction n with
    | zero => intro k; rfl
    | succ n ih =>
      intro k
      have he : (positions (subsOf l)).isEmpty = false := by simpa using hp
      rw [List.replicate_succ, reactAll, react_data _ _ c pid l h hn]
      simp only
      have hs : ∀ a b : List Effect, savesOf (a ++ b) = savesOf a ++ savesOf b := by intro a b; simp [savesOf]
      rw [hs, ih (k + 1), he, List.range'_succ, List.map_cons]
      have : savesOf ((if false = true then [] else [Effect.save (exportOf (env.now k) (UInt16.ofNat pid) l)]) ++
          [.write (ackBytes (UInt16.ofNat pid) l)] ++ (if (subsOf l).any (·.isLogin) then [.write (resultPacket (UInt16.ofNat pid) 0)] else [])) =
          [exportOf (env.now k) (UInt16.ofNat pid) l] := by
        by_cases hl : (subsOf l).any (·.isLogin) <;> simp [savesOf, hl]
      rw [this]
      rfl
  rw [key n 0, List.range_eq_range']

/-- C95 (partial): a packet that is sent once is stored once; the copies of a packet that is sent again are equal up to the time of receipt, so that
they can be recognised afterwards. Missing: storing only one of them. -/
theorem resent_partial (env : Env) (tail : Tail) (c : Bytes) (pid : Nat) (l : List ServiceDataRecord) (h : DataPacket c pid l) (hn : NoResponses l)
    (hp : positions (subsOf l) ≠ []) (n : Nat) (chunks : List Bytes) (hc : chunks.flatten = (List.replicate n c).flatten) :
    (n = 1 → ∃ r, savesOf (handleConn env true tail chunks).1 = [r]) ∧
    ∀ r ∈ savesOf (handleConn env true tail chunks).1, ∀ r' ∈ savesOf (handleConn env true tail chunks).1, { r' with ReceivedDt := r.ReceivedDt } = r := by
  obtain ⟨r, hr⟩ := resent_stored_again env tail c pid l h hn hp n chunks hc
  rw [hr]
  refine ⟨fun h1 => ⟨{ r with ReceivedDt := env.now 0 }, by rw [h1]; rfl⟩, fun a ha b hb => ?_⟩
  obtain ⟨i, -, rfl⟩ := List.mem_map.mp ha
  obtain ⟨j, -, rfl⟩ := List.mem_map.mp hb
  rfl

/-! ### C96 -/

theorem subs_invalidated (rds : List RecordData) :
    (rds.map fun rd : RecordData => { rd with SubrecordData := rd.SubrecordData.map SubData.invalidated }).filterMap (fun rd => rd.SubrecordData) =
      (rds.filterMap (fun rd => rd.SubrecordData)).map SubData.invalidated := by
  induction rds with
  | nil => rfl
  | cons rd rds ih =>
    obtain ⟨t, n, d⟩ := rd
    cases d with
    | none => simpa using ih
    | some d => simpa using ih

theorem subsOf_invalidated (l : List ServiceDataRecord) : subsOf (invalidated l) = (subsOf l).map (·.invalidated) := by
  unfold subsOf invalidated
  rw [List.flatMap_map, List.map_flatMap]
  refine congrArg (l.flatMap ·) (funext fun r => ?_)
  exact subs_invalidated r.RecordDataSet

theorem positions_invalidated (l : List ServiceDataRecord) :
    positions (subsOf (invalidated l)) = (positions (subsOf l)).map fun d => { d with VLD := [48] } := by
  rw [subsOf_invalidated]
  generalize subsOf l = ds
  induction ds with
  | nil => rfl
  | cons d ds ih =>
    unfold positions at ih ⊢
    cases d <;> simp [SubData.invalidated, SubData.pos?] at ih ⊢ <;> exact ih

theorem counters_invalidated (ds : List SubData) (s : Bytes × UInt32) : (ds.map (·.invalidated)).foldl counterStep s = ds.foldl counterStep s := by
  induction ds generalizing s with
  | nil => rfl
  | cons d ds ih =>
    simp only [List.map_cons, List.foldl_cons, ih]
    cases d <;> rfl

theorem packetId_invalidated (v : UInt32) (l : List ServiceDataRecord) : packetIdAfter v (invalidated l) = packetIdAfter v l := by
  induction l generalizing v with
  | nil => rfl
  | cons r l ih =>
    have e : invalidated (r :: l) = { r with RecordDataSet := r.RecordDataSet.map fun rd => { rd with SubrecordData := rd.SubrecordData.map (·.invalidated) } } ::
      invalidated l := rfl
    rw [e]
    simp only [packetIdAfter]
    rw [subs_invalidated, counters_invalidated, ih]

theorem export_invalidated (now : Bytes) (pid : UInt16) (l : List ServiceDataRecord) : exportOf now pid (invalidated l) = exportOf now pid l := by
  have h1 : ((subsOf (invalidated l)).filterMap (·.term?)) = (subsOf l).filterMap (·.term?) := by
    rw [subsOf_invalidated, List.filterMap_map]
    exact congrArg (fun f => (subsOf l).filterMap f) (funext fun d => by cases d <;> rfl)
  have h2 : ((subsOf (invalidated l)).flatMap (·.readings)) = (subsOf l).flatMap (·.readings) := by
    rw [subsOf_invalidated, List.flatMap_map]
    exact congrArg (fun f => (subsOf l).flatMap f) (funext fun d => by cases d <;> rfl)
  have h3 : ((subsOf (invalidated l)).filterMap (·.liquid?)) = (subsOf l).filterMap (·.liquid?) := by
    rw [subsOf_invalidated, List.filterMap_map]
    exact congrArg (fun f => (subsOf l).filterMap f) (funext fun d => by cases d <;> rfl)
  have h4 : ((invalidated l).getLast?.map (·.ObjectIdentifier)) = l.getLast?.map (·.ObjectIdentifier) := by
    unfold invalidated
    rw [List.getLast?_map, Option.map_map]
    rfl
  unfold exportOf
  rw [h1, h2, h3, h4, packetId_invalidated, positions_invalidated, List.getLast?_map, Option.map_map, List.map_map, List.length_map]
  rfl

theorem saves_data (env : Env) (c : Bytes) (pid : Nat) (l : List ServiceDataRecord) (h : DataPacket c pid l) (hn : NoResponses l) :
    savesOf (handleConn env true .silent [c]).1 =
      if (positions (subsOf l)).isEmpty then [] else [exportOf (env.now 0) (UInt16.ofNat pid) l] := by
  rw [alone_taken env c (framed_taken (data_packet_framed c pid l h)), react_data _ _ c pid l h hn]
  by_cases hl : (subsOf l).any (·.isLogin) <;> by_cases hp : (positions (subsOf l)).isEmpty <;> simp [savesOf, hl, hp]

/-- C96 is false of the code, for every packet: nobody who sees the saved records can tell valid from invalid fixes: if two packets with the same
identifier differ only in that all positions of the second are flagged invalid, the same record is saved for both. -/
theorem validity_lost (env : Env) (c c' : Bytes) (pid : Nat) (l : List ServiceDataRecord) (h : DataPacket c pid l)
    (h' : DataPacket c' pid (invalidated l)) (hn : NoResponses l) :
    savesOf (handleConn env true .silent [c]).1 = savesOf (handleConn env true .silent [c']).1 := by
  have hn' : NoResponses (invalidated l) := by
    intro d hd
    rw [subsOf_invalidated] at hd
    obtain ⟨d, hm, rfl⟩ := List.mem_map.mp hd
    have := hn d hm
    cases d <;> exact this
  rw [saves_data env c pid l h hn, saves_data env c' pid _ h' hn', export_invalidated, positions_invalidated, List.isEmpty_map]

/-- C96 (partial): if all positions of a packet are flagged valid, only valid positions are saved. Missing: packets with invalid fixes. -/
theorem only_valid_partial (env : Env) (c : Bytes) (pid : Nat) (l : List ServiceDataRecord) (h : DataPacket c pid l) (hn : NoResponses l)
    (hv : ∀ d ∈ positions (subsOf l), d.VLD = [49]) : OnlyValid l (savesOf (handleConn env true .silent [c]).1) := by
  rw [saves_data env c pid l h hn]
  intro s hs x hx
  split at hs
  · simp at hs
  · obtain rfl : s = exportOf (env.now 0) (UInt16.ofNat pid) l := by simpa using hs
    obtain ⟨d, hd, rfl⟩ := List.mem_map.mp (show x ∈ (positions (subsOf l)).map locOf from hx)
    exact ⟨d, hd, hv d hd, rfl⟩

/-- a position, with the flag VLD -/
def exFix (v : UInt8) : SrPosData := {
  NavigationTime := 1000000000
  Latitude := latOfRaw 2147483648
  Longitude := lonOfRaw 2147483648
  ALTE := [48]
  LOHS := [48]
  LAHS := [48]
  MV := [48]
  BB := [48]
  CS := [48]
  FIX := [48]
  VLD := [v]
  Odometer := 1 }

/-- the record of the examples -/
def exFixRecord (v : UInt8) : ServiceDataRecord := { cutRecord with
  RecordLength := 24
  RecordDataSet := [⟨16, 21, some (.pos (exFix v))⟩] }

/-- a packet with identifier `pid` and one position, valid (`f` = 1) or not (`f` = 0) -/
def fixPacket (pid f : UInt8) : Bytes := packet [1, 0, 0, 11, 0, 31, 0, pid, 0, 1]
  [24, 0, 1, 0, 0, 2, 2, 16, 21, 0, 1, 0, 0, 0, 0, 0, 0, 128, 0, 0, 0, 128, f, 0, 0, 0, 1, 0, 0, 0, 0]

theorem fixPacket_data (pid f v : UInt8) (h : f = 0 ∧ v = 48 ∨ f = 1 ∧ v = 49) : DataPacket (fixPacket pid f) pid.toNat [exFixRecord v] := by
  refine ⟨_, _, rfl, by simp [fixPacket, packet, leBytes_len], by simp, ?_, ?_⟩
  · constructor
    all_goals simp [declaredHL, declaredFDL, headerSize, routed, word16At, byteAt, leValue]
  refine CompleteRecords.cons (hdr := [24, 0, 1, 0, 0, 2, 2]) (data := [16, 21, 0, 1, 0, 0, 0, 0, 0, 0, 128, 0, 0, 0, 128, f, 0, 0, 0, 1, 0, 0, 0, 0])
    (rest := []) (cut_header 24 _) rfl ?_ .nil
  refine .cons (rest := []) ⟨[1, 0, 0, 0, 0, 0, 0, 128, 0, 0, 0, 128, f, 0, 0, 0, 1, 0, 0, 0, 0], .pos (exFix v), by simp [leBytes], rfl, rfl, rfl, ?_⟩ .nil
  rcases h with ⟨rfl, rfl⟩ | ⟨rfl, rfl⟩
  · kernel_rfl
  · kernel_rfl

theorem exFix_noResponses (v : UInt8) : NoResponses [exFixRecord v] := by
  intro d hd
  obtain rfl : d = .pos (exFix v) := by simpa [subsOf, exFixRecord] using hd
  rfl

/-- C96 is false of the code: the position of `fixPacket 9 0` is flagged invalid, and is saved, with the same record as for `fixPacket 9 1` -/
theorem invalid_saved (env : Env) : ¬ OnlyValid [exFixRecord 48] (savesOf (handleConn env true .silent [fixPacket 9 0]).1) ∧
    savesOf (handleConn env true .silent [fixPacket 9 1]).1 = savesOf (handleConn env true .silent [fixPacket 9 0]).1 := by
  constructor
  · rw [saves_data env _ 9 _ (fixPacket_data 9 0 48 (.inl ⟨rfl, rfl⟩)) (exFix_noResponses _), if_neg (by simp [positions, subsOf, exFixRecord, SubData.pos?])]
    intro h
    obtain ⟨d, hd, hv, -⟩ := h _ (List.mem_singleton.mpr rfl) (locOf (exFix 48)) (by show _ ∈ [locOf (exFix 48)]; simp)
    obtain rfl : d = exFix 48 := by simpa [positions, subsOf, exFixRecord, SubData.pos?] using hd
    exact absurd hv (by decide)
  · exact validity_lost env _ _ 9 [exFixRecord 49] (fixPacket_data 9 1 49 (.inr ⟨rfl, rfl⟩)) (fixPacket_data 9 0 48 (.inl ⟨rfl, rfl⟩)) (exFix_noResponses _)

/-- a packet that meets the hypotheses of C95 (test): sent three times, it is stored three times -/
example (env : Env) : (savesOf (handleConn env true .silent [fixPacket 9 1, fixPacket 9 1, fixPacket 9 1]).1).length = 3 := by
  obtain ⟨r, hr⟩ := resent_stored_again env .silent (fixPacket 9 1) 9 _ (fixPacket_data 9 1 49 (.inr ⟨rfl, rfl⟩)) (exFix_noResponses _) (by simp [positions, subsOf, exFixRecord, SubData.pos?]) 3
    [fixPacket 9 1, fixPacket 9 1, fixPacket 9 1] rfl
  rw [hr]
  rfl

/-- two packets that meet the hypotheses of C94 (test) -/
example (env : Env) : ((writesOf (handleConn env true .silent [fixPacket 9 1, fixPacket 8 1]).1).map fun w => word16At w 7).Nodup := by
  have hd : ∀ pid, DataPacket (fixPacket pid 1) pid.toNat [exFixRecord 49] := fun pid => fixPacket_data pid 1 49 (.inr ⟨rfl, rfl⟩)
  have hall : ∀ c ∈ [fixPacket 9 1, fixPacket 8 1], ∃ pid, c = fixPacket pid 1 := by
    intro c hc
    rcases List.mem_cons.mp hc with rfl | hc
    · exact ⟨9, rfl⟩
    · exact ⟨8, List.mem_singleton.mp hc⟩
  refine distinct_ids_partial env .silent _ [fixPacket 9 1, fixPacket 8 1] [] ⟨by simp, ?_, .inl (by simp)⟩ (by decide) ?_
  · intro c hc
    obtain ⟨pid, rfl⟩ := hall c hc
    exact framed_taken (data_packet_framed _ _ _ (hd pid))
  · rintro c hc spare ⟨p, l, h1, h2, h3⟩
    obtain ⟨pid, rfl⟩ := hall c hc
    obtain ⟨q, g1, g2, -⟩ := data_packet_accepted _ _ _ (hd pid) {} spare
    rw [g1] at h1
    obtain rfl : q = p := by injection h1
    rw [g2] at h2
    obtain rfl : [exFixRecord 49] = l := by injection (Option.some.inj h2)
    simp [subsOf, exFixRecord, SubData.isLogin] at h3

end Egts
