import Verif.Lemmas.Serve
import Verif.Lemmas.KernelRfl
set_option autoImplicit false
/- C32 - C40, C45, C46: what a client and the storages see of a connection. -/
namespace Egts
open Frame
variable [P : Platform]

/-! ### C32 -/

/-- C32: the actions and the end of a connection depend only on the bytes received, not on how they are split into
reads, whatever follows the last byte and whatever the clock and the spare capacities are. -/
theorem segmentation_irrelevant (env : Env) (hasStore : Bool) (tail : Tail) (chunks chunks' : List Bytes)
    (h : chunks.flatten = chunks'.flatten) : handleConn env hasStore tail chunks = handleConn env hasStore tail chunks' := by
  cases hasStore with
  | false => rfl
  | true => rw [handleConn_serve, handleConn_serve, h]

/-- two segmentations of the same stream, one cutting through the header (test of the hypothesis). -/
example : ([[1, 0, 0], [11, 0, 7, 0], [], [0, 0, 1, 126]] : List Bytes).flatten = [[1, 0, 0, 11, 0, 7, 0, 0, 0, 1, 126]].flatten := by
  decide

/-! ### C33 -/

/-- C33: a stream that starts with a complete frame has the effects of that frame alone, followed by the effects of
the rest of the stream served by a fresh handler (unless the frame alone crashes the process). -/
theorem first_packet_independent (env : Env) (tail : Tail) (c s : Bytes) (hf : Framed c) :
    handleConn env true tail [c ++ s] =
      match handleConn env true .silent [c] with
      | (l, .waiting) => (l ++ (handleConn (env.after 1) true tail [s]).1, (handleConn (env.after 1) true tail [s]).2)
      | (l, e) => (l, e) := by
  rw [alone_eq env c hf, handleConn_serve, handleConn_serve]
  have h1 : [c ++ s].flatten = c ++ s := by simp
  have h2 : [s].flatten = s := by simp
  rw [h1, h2, serve_framed env tail 0 {} c s hf]
  have h3 : serve env tail (0 + 1) {} s = serve (env.after 1) tail 0 {} s := by
    rw [Nat.add_comm]; exact serve_shift env tail 1 0 {} s
  rw [h3]
  cases (handlePacket (env.now 0) (env.spare 0) ({} : LoopVars).reset c).seen <;> rfl

theorem Env.after_after (env : Env) (i j : Nat) : (env.after i).after j = env.after (i + j) := by
  simp [Env.after, Nat.add_assoc]

/-- C33, any number of packets: if none of the complete frames `cs` crashes the process, a stream `cs` followed by `s`
has the effects of the frames, each served alone by a fresh handler, one after the other, followed by the
effects of `s`. -/
theorem packets_independent (env : Env) (tail : Tail) (cs : List Bytes) (s : Bytes) (hf : ∀ c ∈ cs, Framed c)
    (hc : ∀ k (hk : k < cs.length), (handleConn (env.after k) true .silent [cs[k]]).2 = .waiting) :
    handleConn env true tail [cs.flatten ++ s] =
      ((List.ofFn fun k : Fin cs.length => (handleConn (env.after k) true .silent [cs[k]]).1).flatten ++
        (handleConn (env.after cs.length) true tail [s]).1, (handleConn (env.after cs.length) true tail [s]).2) := by
  induction cs generalizing env with
  | nil =>
    have : env.after 0 = env := by simp [Env.after]
    simp [this]
  | cons c cs ih =>
    have h0 := hc 0 (by simp)
    have e0 : env.after 0 = env := by simp [Env.after]
    simp only [List.getElem_cons_zero, e0] at h0
    rw [List.flatten_cons, List.append_assoc, first_packet_independent env tail c _ (hf c (by simp))]
    have hl : handleConn env true .silent [c] = ((handleConn env true .silent [c]).1, .waiting) := by rw [← h0]
    generalize (handleConn env true .silent [c]).1 = l at hl
    rw [hl]
    simp only
    rw [ih (env.after 1) (fun x hx => hf x (by simp [hx]))]
    · simp only [Env.after_after, List.length_cons, List.ofFn_succ, List.flatten_cons, List.append_assoc]
      have e1 : ∀ k, env.after (1 + k) = env.after (k + 1) := fun k => by rw [Nat.add_comm]
      simp [e1, e0, hl]
    · intro k hk
      have := hc (k + 1) (by simp; omega)
      rw [Env.after_after, Nat.add_comm]
      simpa using this

/-! ### C34 -/

/-- C34: how many bytes the server takes for one packet, for every header: the announced length of the frame,
computed modulo 65536 (with 65536 more if the announced length is below ten). -/
theorem consumed_exact (tail : Tail) (chunks : List Bytes) (n : Nat) (hv : byteAt chunks.flatten 0 = 1)
    (hn : n = 10 + (frameLen chunks.flatten + 65526) % 65536) (hl : n ≤ chunks.flatten.length) :
    ∃ rest, recvPacket tail chunks = .packet (chunks.flatten.take n) rest ∧ rest.flatten = chunks.flatten.drop n := by
  have h10 : 10 ≤ chunks.flatten.length := by omega
  have hr : streamRecv tail chunks.flatten = .inr (chunks.flatten.take n, chunks.flatten.drop n) := by
    unfold streamRecv
    rw [if_neg (by omega), if_neg (by rw [hv]; simp), restLen_eq _ h10, ← hn, if_neg (by omega)]
  rcases recv_eq tail chunks with ⟨e, h1, h2⟩ | ⟨c, rest, h1, h2⟩
  · rw [hr] at h2; cases h2
  · rw [hr] at h2
    injection h2 with h2
    injection h2 with h2 h3
    exact ⟨rest, by rw [h1, h2], h3.symm⟩

/-- C34 (partial): for every header that announces a frame of 10 to 65535 bytes the server takes exactly HL bytes plus,
if FDL > 0, FDL + 2 bytes. Missing: headers that announce less than 10 bytes or more than 65535
(`consumed_wrong`). -/
theorem consumed_frame_partial (tail : Tail) (chunks : List Bytes) (hv : byteAt chunks.flatten 0 = 1)
    (h10 : 10 ≤ frameLen chunks.flatten) (hlt : frameLen chunks.flatten < 65536)
    (hl : frameLen chunks.flatten ≤ chunks.flatten.length) :
    ∃ rest, recvPacket tail chunks = .packet (chunks.flatten.take (frameLen chunks.flatten)) rest ∧
      rest.flatten = chunks.flatten.drop (frameLen chunks.flatten) :=
  consumed_exact tail chunks _ hv (by omega) hl

/-- C34 is false of the code for the other headers: one that announces 9 bytes makes the server wait for 65545 (so ten
bytes do not suffice and the rest of the stream is swallowed), and one that announces 65548 bytes (HL 11, FDL 65535)
makes it take only 12 and read the remaining bytes of the frame as a new packet. -/
theorem consumed_wrong :
    (frameLen [1, 0, 0, 9, 0, 0, 0, 0, 0, 1] = 9 ∧ recvPacket .silent [[1, 0, 0, 9, 0, 0, 0, 0, 0, 1]] = .stop .waiting) ∧
    (frameLen [1, 0, 0, 11, 0, 255, 255, 0, 0, 1, 5, 6] = 65548 ∧
      ∃ rest, recvPacket .silent [[1, 0, 0, 11, 0, 255, 255, 0, 0, 1, 5, 6], [7]] =
        .packet [1, 0, 0, 11, 0, 255, 255, 0, 0, 1, 5, 6] rest ∧ rest.flatten = [7]) := by
  refine ⟨⟨by decide, by decide +kernel⟩, ⟨by decide, ?_⟩⟩
  exact consumed_exact .silent [[1, 0, 0, 11, 0, 255, 255, 0, 0, 1, 5, 6], [7]] 12 rfl (by decide) (by decide)

/-! ### C35 -/

/-- C35: an accepted data packet without record responses is answered by exactly one RESPONSE packet with its
identifier, result 0 and one confirmation per record, in order; the only other packet that may be sent, after it,
is the authorisation result, exactly if the packet holds a login or a terminal identity (C44). The connection stays
open. -/
theorem data_acknowledged (env : Env) (c : Bytes) (p : Package) (l : List ServiceDataRecord) (hf : Framed c)
    (hd : Package.decode {} c (env.spare 0) = .ret 0 none p) (hb : p.ServicesFrameData = some (.appdata l)) (hn : NoResponses l) :
    ∃ effects ack more, handleConn env true .silent [c] = (effects, .waiting) ∧ writesOf effects = ack :: more ∧
      ((∀ d ∈ subsOf l, d.isLogin = false) → more = []) ∧ ((∃ d ∈ subsOf l, d.isLogin = true) → ∃ x, more = [x]) ∧
      p.PacketIdentifier.toNat = word16At c 7 ∧ Answers ack p.PacketIdentifier 0 (l.map (·.RecordNumber)) := by
  obtain ⟨ack, ha, hs⟩ := handle_data (env.now 0) (env.spare 0) c p l hd hb hn
  obtain ⟨hc, -, hp, -⟩ := decode_ok_facts hd
  refine ⟨(if (positions (subsOf l)).isEmpty then [] else [.save (exportOf (env.now 0) p.PacketIdentifier l)]) ++ [.write ack] ++
        (if (subsOf l).any (·.isLogin) then [.write (resultPacket p.PacketIdentifier 0)] else []), ack,
    if (subsOf l).any (·.isLogin) then [resultPacket p.PacketIdentifier 0] else [], ?_, ?_, ?_, ?_, ?_, ha⟩
  · rw [alone_eq env c hf, hs]
  · unfold writesOf
    by_cases h1 : (positions (subsOf l)).isEmpty <;> by_cases h2 : (subsOf l).any (·.isLogin) <;> simp [h1, h2]
  · intro h
    have : (subsOf l).any (·.isLogin) = false := by simpa using h
    rw [this]; rfl
  · intro h
    have : (subsOf l).any (·.isLogin) = true := by simpa using h
    exact ⟨_, by rw [this]; rfl⟩
  · rw [hp, u16_toNat]; simp [word16At, leValue]

/-! ### C36 -/

/-- C36: a complete frame that Decode rejects is answered by exactly one RESPONSE packet, with the identifier found in
bytes 7 and 8 and the code returned by Decode and no confirmations; nothing is saved and the connection stays open. -/
theorem rejected_answered (env : Env) (c : Bytes) (p : Package) (code : UInt8) (e : Err) (hf : Framed c)
    (hd : Package.decode {} c (env.spare 0) = .ret code (some e) p) :
    ∃ nack pid, handleConn env true .silent [c] = ([.write nack], .waiting) ∧ pid.toNat = word16At c 7 ∧
      Answers nack pid code [] := by
  obtain ⟨nack, ha, hs⟩ := handle_rejected (env.now 0) (env.spare 0) c p code e hd
  refine ⟨nack, p.PacketIdentifier, ?_, ?_, ha⟩
  · rw [alone_eq env c hf, hs]
  · rw [decode_pid (by rw [hf.complete]; exact hf.header) hd, u16_toNat]; simp [word16At, leValue]

/-! ### C37 -/

/-- C37: for an accepted RESPONSE packet and for an accepted data packet that contains a record response the server
sends nothing and saves nothing, and keeps the connection. -/
theorem responses_ignored (env : Env) (c : Bytes) (p : Package) (b : Body) (hf : Framed c)
    (hd : Package.decode {} c (env.spare 0) = .ret 0 none p) (hb : p.ServicesFrameData = some b)
    (hr : match b with
      | .response _ => True
      | .appdata l => ∃ d ∈ subsOf l, d.isResponse = true) :
    handleConn env true .silent [c] = ([], .waiting) := by
  rw [alone_eq env c hf]
  cases b with
  | response r => rw [handle_response (env.now 0) (env.spare 0) c p r hd hb]
  | appdata l =>
    rw [handle_received (env.now 0) (env.spare 0) c p l hd hb]
    intro hn
    obtain ⟨d, hd1, hd2⟩ := hr
    rw [hn d hd1] at hd2; cases hd2

theorem answers_silent (env : Env) (out : Bytes) (pid : UInt16) (code : UInt8) (rns : List UInt16) (h : Answers out pid code rns) :
    handleConn env true .silent [out] = ([], .waiting) := by
  obtain ⟨q, r, hd, -, hb, -⟩ := h.2.2 (env.spare 0)
  exact responses_ignored env out q _ h.1 hd hb trivial

/-! ### C38 -/

theorem data_saved (env : Env) (c : Bytes) (p : Package) (l : List ServiceDataRecord) (hf : Framed c)
    (hd : Package.decode {} c (env.spare 0) = .ret 0 none p) (hb : p.ServicesFrameData = some (.appdata l)) (hn : NoResponses l) :
    savesOf (handleConn env true .silent [c]).1 =
      if (positions (subsOf l)).isEmpty then [] else [exportOf (env.now 0) p.PacketIdentifier l] := by
  obtain ⟨ack, ha, hs⟩ := handle_data (env.now 0) (env.spare 0) c p l hd hb hn
  rw [alone_eq env c hf, hs]
  unfold savesOf
  by_cases h1 : (positions (subsOf l)).isEmpty <;> by_cases h2 : (subsOf l).any (·.isLogin) <;> simp [h1, h2]

/-- C38: an accepted data packet without record responses saves one record if it holds a position and none otherwise;
the location list of the record is the list of the positions of the packet (coordinates, speed, time), in order of
appearance, and the count is the length of that list. -/
theorem positions_exported (env : Env) (c : Bytes) (p : Package) (l : List ServiceDataRecord) (hf : Framed c)
    (hd : Package.decode {} c (env.spare 0) = .ret 0 none p) (hb : p.ServicesFrameData = some (.appdata l)) (hn : NoResponses l) :
    (positions (subsOf l) = [] → savesOf (handleConn env true .silent [c]).1 = []) ∧
    (positions (subsOf l) ≠ [] → ∃ r, savesOf (handleConn env true .silent [c]).1 = [r] ∧
      r.LocStates = (positions (subsOf l)).map locOf ∧ r.LocStatesCount.toInt = (r.LocStates.length : Int)) := by
  rw [data_saved env c p l hf hd hb hn]
  constructor
  · intro h; rw [h]; rfl
  · intro h
    refine ⟨_, if_neg (by simpa using h), rfl, ?_⟩
    obtain ⟨-, -, -, hlt⟩ := data_facts hd hb
    show (Int32.ofNat _).toInt = _
    rw [show (exportOf (env.now 0) p.PacketIdentifier l).LocStates = (positions (subsOf l)).map locOf from rfl, List.length_map]
    exact Int32.toInt_ofNat_of_lt hlt

/-! ### C39 -/

/-- C39: the saved record carries the server id, the reception time, the object identifier of the last record, the IMEI
of the last terminal identity (empty if there is none), and the time of the last position. -/
theorem identity_exported (env : Env) (c : Bytes) (p : Package) (l : List ServiceDataRecord) (r : NavRecord) (hf : Framed c)
    (hd : Package.decode {} c (env.spare 0) = .ret 0 none p) (hb : p.ServicesFrameData = some (.appdata l)) (hn : NoResponses l)
    (hr : r ∈ savesOf (handleConn env true .silent [c]).1) :
    r.ServerID = [69, 71, 84, 83, 95, 71, 65, 84, 69, 48] ∧ r.ReceivedDt = env.now 0 ∧
    (∃ rec, l.getLast? = some rec ∧ r.ClientID = rec.ObjectIdentifier) ∧
    (∃ pos, (positions (subsOf l)).getLast? = some pos ∧ r.NavigationTimestamp = unixOf pos.NavigationTime) ∧
    (∀ t, ((subsOf l).filterMap (·.term?)).getLast? = some t → r.IMEI = t.IMEI) ∧
    ((subsOf l).filterMap (·.term?) = [] → r.IMEI = []) := by
  rw [data_saved env c p l hf hd hb hn] at hr
  by_cases h : (positions (subsOf l)).isEmpty
  · rw [if_pos h] at hr; simp at hr
  · rw [if_neg h] at hr
    obtain rfl : r = exportOf (env.now 0) p.PacketIdentifier l := by simpa using hr
    have hne : positions (subsOf l) ≠ [] := by simpa using h
    have hl : l ≠ [] := by rintro rfl; exact hne rfl
    refine ⟨rfl, rfl, ?_, ?_, ?_, ?_⟩
    · refine ⟨l.getLast hl, List.getLast?_eq_some_getLast hl, ?_⟩
      simp [exportOf, List.getLast?_eq_some_getLast hl]
    · refine ⟨_, List.getLast?_eq_some_getLast hne, ?_⟩
      simp [exportOf, List.getLast?_eq_some_getLast hne]
    · intro t ht
      simp [exportOf, ht]
    · intro ht
      simp [exportOf, ht]

/-! ### C40 -/

/-- C40: the analog sensors of the saved record are the readings of the packet in order of appearance, and its liquid
sensors are the liquid-level subrecords, in order, converted as described by `liquidOf`. -/
theorem sensors_exported (env : Env) (c : Bytes) (p : Package) (l : List ServiceDataRecord) (r : NavRecord) (hf : Framed c)
    (hd : Package.decode {} c (env.spare 0) = .ret 0 none p) (hb : p.ServicesFrameData = some (.appdata l)) (hn : NoResponses l)
    (hr : r ∈ savesOf (handleConn env true .silent [c]).1) :
    r.AnSensors = (subsOf l).flatMap (·.readings) ∧
    r.LiquidSensors = ((subsOf l).filterMap (·.liquid?)).map liquidOf := by
  rw [data_saved env c p l hf hd hb hn] at hr
  by_cases h : (positions (subsOf l)).isEmpty
  · rw [if_pos h] at hr; simp at hr
  · rw [if_neg h] at hr
    obtain rfl : r = exportOf (env.now 0) p.PacketIdentifier l := by simpa using hr
    exact ⟨rfl, rfl⟩

/-! ### C45 -/

/-- C45, first packet of a connection: when the first ten bytes do not start with 1, the server closes the
connection and does nothing for those bytes or anything after them. -/
theorem non_egts_dropped (env : Env) (tail : Tail) (chunks : List Bytes) (h10 : 10 ≤ chunks.flatten.length)
    (h1 : byteAt chunks.flatten 0 ≠ 1) : handleConn env true tail chunks = ([], .closed) := by
  rw [handleConn_serve, serve_unfold]
  have : streamRecv tail chunks.flatten = .inl .closed := by
    unfold streamRecv; rw [if_neg (by omega), if_pos h1]
  rw [this]

/-- C45 for less than ten bytes: nothing is sent or saved either; the server waits for the rest, or closes when the
stream ends. -/
theorem short_input_silent (env : Env) (tail : Tail) (chunks : List Bytes) (h10 : chunks.flatten.length < 10) :
    (handleConn env true tail chunks).1 = [] ∧
    (handleConn env true tail chunks).2 = (match tail with
      | .eof => if chunks.flatten = [] then .closedByTimer else .closed
      | .error => .closed
      | .silent => .waiting) := by
  rw [handleConn_serve, serve_unfold]
  have : streamRecv tail chunks.flatten = .inl (cutEnd tail (chunks.flatten == [])) := by
    unfold streamRecv; rw [if_pos h10]
  rw [this]
  refine ⟨rfl, ?_⟩
  cases tail <;> by_cases h : chunks.flatten = [] <;> simp [cutEnd, h]

/-- C45, any packet: when the bytes that follow any number of complete frames (none of which crashes the process) are ten or more and do not start
with 1, the server has the effects of the frames alone, closes the connection and does nothing for the rest, however the stream is cut into chunks. -/
theorem non_egts_dropped_later (env : Env) (tail : Tail) (cs : List Bytes) (s : Bytes) (chunks : List Bytes) (hf : ∀ c ∈ cs, Framed c)
    (hc : ∀ k (hk : k < cs.length), (handleConn (env.after k) true .silent [cs[k]]).2 = .waiting)
    (hs : chunks.flatten = cs.flatten ++ s) (h10 : 10 ≤ s.length) (h1 : byteAt s 0 ≠ 1) :
    handleConn env true tail chunks = ((handleConn env true .silent [cs.flatten]).1, .closed) := by
  have e1 : handleConn env true tail chunks = handleConn env true tail [cs.flatten ++ s] := by
    rw [handleConn_serve, handleConn_serve, hs]; simp
  have e2 := packets_independent env .silent cs [] hf hc
  rw [List.append_nil] at e2
  rw [e1, packets_independent env tail cs s hf hc, e2, non_egts_dropped _ tail [s] (by simpa using h10) (by simpa using h1),
    (short_input_silent (env.after cs.length) .silent [[]] (by simp)).1]

end Egts
