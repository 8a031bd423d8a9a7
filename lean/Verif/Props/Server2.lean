import Verif.Props.ServerEx
import Verif.Props.Pos
set_option autoImplicit false
/- C37 (two gates), C41, C42, C44, C46. -/
namespace Egts
open Frame
variable [P : Platform]

/-! ### C44 -/

theorem resultPacket_parts (pid : UInt16) (code : UInt8) :
    byteAt (resultPacket pid code) 0 = 1 ∧ declaredHL (resultPacket pid code) = 11 ∧ declaredFDL (resultPacket pid code) = 11 ∧
    headerSize (resultPacket pid code) = 11 ∧ (resultPacket pid code).length = 24 ∧ byteAt (resultPacket pid code) 9 = 0 ∧
    bodyBytes (resultPacket pid code) = [4, 0, 1, 0, 32, 1, 1, 9, 1, 0, code] := by
  have hsz : headerSize (resultPacket pid code) = 11 := by
    have : routed (resultPacket pid code) = false := by
      show (0 : UInt8).toNat.testBit 5 = false
      decide
    unfold headerSize; rw [this]; rfl
  have hbody : bodyBytes (resultPacket pid code) = [4, 0, 1, 0, 32, 1, 1, 9, 1, 0, code] := by
    unfold bodyBytes; rw [hsz]; rfl
  exact ⟨rfl, rfl, rfl, hsz, rfl, rfl, hbody⟩

theorem resultPacket_framed (pid : UInt16) (code : UInt8) : Framed (resultPacket pid code) := by
  obtain ⟨h1, h2, h3, -, h5, -⟩ := resultPacket_parts pid code
  have : frameLen (resultPacket pid code) = 24 := by unfold frameLen; rw [h2, h3]; rfl
  exact ⟨h1, by omega, by rw [h5, this], by omega⟩

theorem resultPacket_crc8 (pid : UInt16) (code : UInt8) :
    byteAt (resultPacket pid code) 10 = crc8 ((resultPacket pid code).take 10) := by
  unfold resultPacket
  simp only
  have h : ([1, 0, 0, 11, 0, 11, 0] ++ le16 (pid + 1) ++ [0] : Bytes).length = 10 := rfl
  generalize ([1, 0, 0, 11, 0, 11, 0] ++ le16 (pid + 1) ++ [0] : Bytes) = hdr at h
  have h2 : (hdr ++ [crc8 hdr] ++ ([4, 0, 1, 0, 32, 1, 1, 9, 1, 0, code] ++ le16 (crc16 [4, 0, 1, 0, 32, 1, 1, 9, 1, 0, code]))).take 10 = hdr := by
    rw [List.append_assoc, ← h, List.take_left]
  rw [h2]
  unfold byteAt
  rw [List.append_assoc, List.getD_eq_getElem?_getD, List.getElem?_append_right (by omega)]
  simp [h]
  rfl

/-- C44 is false of the code: the packet with the authorisation result has packet type 0 (RESPONSE) but the body of a
data packet, so Package.Decode rejects it, whatever the packet identifier and the result code: its body is
not a packet response (129, "decryption error"). -/
theorem auth_result_rejected (pid : UInt16) (code : UInt8) (spare : Bytes) :
    ∃ e q, Package.decode {} (resultPacket pid code) spare = .ret 129 (some e) q := by
  obtain ⟨h1, h2, h3, h4, h5, h6, h7⟩ := resultPacket_parts pid code
  have hc : Consistent (resultPacket pid code) := ⟨by omega, by rw [h2, h4], by omega⟩
  have h8 : byteAt (resultPacket pid code) (headerSize (resultPacket pid code) - 1) =
      crc8 ((resultPacket pid code).take (headerSize (resultPacket pid code) - 1)) := by
    rw [h4]; exact resultPacket_crc8 pid code
  have h9 : ∃ e b, decodeBody (byteAt (resultPacket pid code) 9) (bodyBytes (resultPacket pid code)) = .err e b := by
    rw [h6, h7]
    exact ⟨_, _, rfl⟩
  obtain ⟨e, b, h9⟩ := h9
  obtain ⟨q, hq⟩ := ((((decode_code_choice {} (resultPacket pid code) spare).2 hc).2 h8).2 (by omega)).2 (.inl h6) e b h9
  exact ⟨e, q, hq⟩

/-- C44 (partial): for an accepted data packet (without record responses) that holds a login or a terminal identity
the server sends exactly one more packet, right after the acknowledgement: a complete frame with right checksums whose
body, read as service data, is one record with the result code OK. Missing: no decoder can obtain it, because the packet
type says that the body is a packet response (`auth_result_rejected`). -/
theorem auth_result_partial (env : Env) (c : Bytes) (p : Package) (l : List ServiceDataRecord) (hf : Framed c)
    (hd : Package.decode {} c (env.spare 0) = .ret 0 none p) (hb : p.ServicesFrameData = some (.appdata l)) (hn : NoResponses l)
    (hl : ∃ d ∈ subsOf l, d.isLogin = true) :
    ∃ ack w, writesOf (handleConn env true .silent [c]).1 = [ack, w] ∧ Framed w ∧ byteAt w 9 = 0 ∧
      headerSize w = 11 ∧ byteAt w 10 = crc8 (w.take 10) ∧
      ∃ body rec, w.drop 11 = body ++ leBytes 2 (crc16 body).toNat ∧ ServiceDataSet.decode [] body = .ok [rec] ∧
        rec.RecordDataSet = [⟨9, 1, some (.result { ResultCode := 0 })⟩] ∧ rec.SourceServiceType = 1 := by
  obtain ⟨ack, ha, hs⟩ := handle_data (env.now 0) (env.spare 0) c p l hd hb hn
  refine ⟨ack, resultPacket p.PacketIdentifier 0, ?_, resultPacket_framed _ _, (resultPacket_parts _ _).2.2.2.2.2.1,
    (resultPacket_parts _ _).2.2.2.1, resultPacket_crc8 _ _, [4, 0, 1, 0, 32, 1, 1, 9, 1, 0, 0], _, ?_, rfl, rfl, rfl⟩
  · rw [alone_eq env c hf, hs]
    have : (subsOf l).any (·.isLogin) = true := by simpa using hl
    unfold writesOf
    by_cases h1 : (positions (subsOf l)).isEmpty <;> simp [h1, this]
  · rw [← le16_eq]; rfl

/-! ### C37: two gates -/

/-- everything the server sends is a packet response or an authorisation result -/
theorem writes_cases (env : Env) (c : Bytes) (hf : Framed c) (w : Bytes) (hw : w ∈ writesOf (handleConn env true .silent [c]).1) :
    (∃ pid code rns, Answers w pid code rns) ∨ ∃ pid, w = resultPacket pid 0 := by
  rw [alone_eq env c hf] at hw
  cases hd : Package.decode {} c (env.spare 0) with
  | panic =>
    have : (handlePacket (env.now 0) (env.spare 0) ({} : LoopVars).reset c).seen = .panic := by
      unfold handlePacket; rw [hd]; rfl
    rw [this] at hw; simp [writesOf] at hw
  | diverge => exact absurd hd (decode_terminates _ _ _)
  | ret code e p =>
    cases e with
    | some e =>
      obtain ⟨nack, ha, hs⟩ := handle_rejected (env.now 0) (env.spare 0) c p code e hd
      rw [hs] at hw
      obtain rfl : w = nack := by simpa [writesOf] using hw
      exact .inl ⟨_, _, _, ha⟩
    | none =>
      obtain rfl : code = 0 := by
        rcases decode_codes_partial {} p c (env.spare 0) code none hd with h | h | ⟨-, h | h | h | h | h⟩
        · exact h.1
        all_goals simp at h
      obtain ⟨-, ht, -, b, hb, -⟩ := decode_ok_facts hd
      cases b with
      | response r => rw [handle_response _ _ c p r hd hb] at hw; simp [writesOf] at hw
      | appdata l =>
        by_cases hn : NoResponses l
        · obtain ⟨ack, ha, hs⟩ := handle_data (env.now 0) (env.spare 0) c p l hd hb hn
          rw [hs] at hw
          have : w = ack ∨ w = resultPacket p.PacketIdentifier 0 := by
            unfold writesOf at hw
            by_cases h1 : (positions (subsOf l)).isEmpty <;> by_cases h2 : (subsOf l).any (·.isLogin) <;> simp [h1, h2] at hw <;>
              first | exact .inl hw | exact hw
          rcases this with rfl | rfl
          · exact .inl ⟨_, _, _, ha⟩
          · exact .inr ⟨_, rfl⟩
        · rw [handle_received _ _ c p l hd hb hn] at hw; simp [writesOf] at hw

/-- C37, two gates: whatever complete frame a gate has received, if a packet `w` it sent in return is delivered to a
gate, that one saves nothing, and whatever it sends back is answered by silence: no packet can start an endless
exchange. -/
theorem no_ping_pong (env env' env'' : Env) (c w w' : Bytes) (hf : Framed c) (hw : w ∈ writesOf (handleConn env true .silent [c]).1) :
    savesOf (handleConn env' true .silent [w]).1 = [] ∧ (handleConn env' true .silent [w]).2 = .waiting ∧
    (w' ∈ writesOf (handleConn env' true .silent [w]).1 → handleConn env'' true .silent [w'] = ([], .waiting)) := by
  rcases writes_cases env c hf w hw with ⟨pid, code, rns, ha⟩ | ⟨pid, rfl⟩
  · rw [answers_silent env' w pid code rns ha]
    exact ⟨rfl, rfl, fun h => by simp [writesOf] at h⟩
  · obtain ⟨e, q, hd⟩ := auth_result_rejected pid 0 (env'.spare 0)
    obtain ⟨nack, pid', hs, -, ha⟩ := rejected_answered env' _ q 129 e (resultPacket_framed pid 0) hd
    rw [hs]
    refine ⟨rfl, rfl, fun h => ?_⟩
    obtain rfl : w' = nack := by simpa [writesOf] using h
    exact answers_silent env'' w' _ _ _ ha

/-- the example packet makes the gate send two packets, so the hypothesis of `no_ping_pong` is met twice (test). -/
example (env : Env) : (writesOf (handleConn env true .silent [exPacket]).1).length = 2 := by
  obtain ⟨p, l, hd, hb, hn, -, hl, -⟩ := exPacket_meets (P := P) (env.spare 0)
  obtain ⟨ack, w, h, -⟩ := auth_result_partial env exPacket p l exPacket_framed hd hb hn hl
  rw [h]; rfl

/-! ### C46 -/

/-- the only thing in the processing of a packet that can panic is Package.Decode -/
theorem handle_panic_iff (now spare c : Bytes) :
    (handlePacket now spare ({} : LoopVars).reset c).seen = .panic ↔ Package.decode {} c spare = .panic := by
  cases hd : Package.decode {} c spare with
  | panic => simp [handlePacket, hd, Handled.seen]
  | diverge => exact absurd hd (decode_terminates _ _ _)
  | ret code e p =>
    simp only [reduceCtorEq, iff_false]
    cases e with
    | some e =>
      obtain ⟨nack, ha, hs⟩ := handle_rejected now spare c p code e hd
      rw [hs]; simp
    | none =>
      obtain rfl : code = 0 := by
        rcases decode_codes_partial {} p c spare code none hd with h | h | ⟨-, h | h | h | h | h⟩
        · exact h.1
        all_goals simp at h
      obtain ⟨-, ht, -, b, hb, -⟩ := decode_ok_facts hd
      cases b with
      | response r => rw [handle_response _ _ c p r hd hb]; simp
      | appdata l =>
        by_cases hn : NoResponses l
        · obtain ⟨ack, ha, hs⟩ := handle_data now spare c p l hd hb hn
          rw [hs]; simp
        · rw [handle_received _ _ c p l hd hb hn]; simp

theorem handle_not_diverge (now spare c : Bytes) : (handlePacket now spare ({} : LoopVars).reset c).seen ≠ .diverge := by
  cases hd : Package.decode {} c spare with
  | panic => simp [handlePacket, hd, Handled.seen]
  | diverge => exact absurd hd (decode_terminates _ _ _)
  | ret code e p =>
    cases e with
    | some e =>
      obtain ⟨nack, ha, hs⟩ := handle_rejected now spare c p code e hd
      rw [hs]; simp
    | none =>
      obtain rfl : code = 0 := by
        rcases decode_codes_partial {} p c spare code none hd with h | h | ⟨-, h | h | h | h | h⟩
        · exact h.1
        all_goals simp at h
      obtain ⟨-, ht, -, b, hb, -⟩ := decode_ok_facts hd
      cases b with
      | response r => rw [handle_response _ _ c p r hd hb]; simp
      | appdata l =>
        by_cases hn : NoResponses l
        · obtain ⟨ack, ha, hs⟩ := handle_data now spare c p l hd hb hn
          rw [hs]; simp
        · rw [handle_received _ _ c p l hd hb hn]; simp

/-- serving a stream always makes progress: the bound on the number of iterations in the model is never reached -/
theorem serve_not_diverged (env : Env) (tail : Tail) (k : Nat) (v : LoopVars) (s : Bytes) :
    (serve env tail k v s).2 ≠ .diverged := by
  induction hn : s.length using Nat.strong_induction_on generalizing k v s with
  | _ n ih =>
    rw [serve_unfold]
    cases hr : streamRecv tail s with
    | inl e =>
      simp only
      unfold streamRecv at hr
      split at hr
      · cases hr; unfold cutEnd; cases tail <;> (by_cases he : s = [] <;> simp_all)
      · split at hr
        · cases hr; simp
        · split at hr
          · cases hr; unfold cutEnd; cases tail <;> simp
          · cases hr
    | inr p =>
      obtain ⟨c, rest⟩ := p
      obtain ⟨hc, rfl⟩ := streamRecv_length hr
      simp only
      have h1 := handlePacket_indep (env.now k) (env.spare k) c v {}
      have h2 := handle_not_diverge (env.now k) (env.spare k) c
      rw [← h1] at h2
      cases h3 : handlePacket (env.now k) (env.spare k) v.reset c with
      | panic => simp
      | diverge => rw [h3] at h2; exact absurd rfl h2
      | done l v' =>
        simp only
        rw [List.length_append] at hn
        exact ih rest.length (by omega) (k + 1) v' rest rfl

/-- C46: the handler never loops forever on the received bytes, whatever they are. -/
theorem handler_progress (env : Env) (hasStore : Bool) (tail : Tail) (chunks : List Bytes) :
    (handleConn env hasStore tail chunks).2 ≠ .diverged := by
  cases hasStore with
  | false => simp [handleConn]
  | true => rw [handleConn_serve]; exact serve_not_diverged _ _ _ _ _

/-- C46: the exact cause of every crash: the stream contains a packet `c` (as the server cuts it out) for which
Decode panics, and such a packet has header length 0 and less than 255 bytes, or header and body length with a sum of
65536 or more. -/
theorem crash_cause (env : Env) (tail : Tail) (chunks : List Bytes) (h : (handleConn env true tail chunks).2 = .crashed) :
    ∃ pre c post k, chunks.flatten = pre ++ c ++ post ∧ Package.decode {} c (env.spare k) = .panic ∧ byteAt c 0 = 1 ∧
      ((declaredHL c = 0 ∧ c.length < 255) ∨ 65536 ≤ declaredHL c + declaredFDL c) := by
  rw [handleConn_serve] at h
  suffices H : ∀ (n k : Nat) (v : LoopVars) (s : Bytes), s.length = n → (serve env tail k v s).2 = .crashed →
      ∃ pre c post k, s = pre ++ c ++ post ∧ Package.decode {} c (env.spare k) = .panic ∧ byteAt c 0 = 1 ∧
      ((declaredHL c = 0 ∧ c.length < 255) ∨ 65536 ≤ declaredHL c + declaredFDL c) from H _ _ _ _ rfl h
  intro n
  induction n using Nat.strong_induction_on with
  | _ n ih =>
    intro k v s hn h
    rw [serve_unfold] at h
    cases hr : streamRecv tail s with
    | inl e =>
      rw [hr] at h
      simp only at h
      subst h
      exfalso
      unfold streamRecv at hr
      split at hr
      · injection hr with hr; unfold cutEnd at hr; cases tail <;> (by_cases he : s = [] <;> simp_all)
      · split at hr
        · cases hr
        · split at hr
          · injection hr with hr; unfold cutEnd at hr; cases tail <;> simp at hr
          · cases hr
    | inr p =>
      obtain ⟨c, rest⟩ := p
      obtain ⟨hc, hs⟩ := streamRecv_length hr
      rw [hr] at h
      simp only at h
      have h1 := handlePacket_indep (env.now k) (env.spare k) c v {}
      have h2 := handle_panic_iff (env.now k) (env.spare k) c
      rw [← h1] at h2
      cases h3 : handlePacket (env.now k) (env.spare k) v.reset c with
      | diverge => rw [h3] at h; cases h
      | done l v' =>
        rw [h3] at h
        simp only at h
        rw [hs, List.length_append] at hn
        obtain ⟨pre, c', post, k', hh, hrest⟩ := ih rest.length (by omega) (k + 1) v' rest rfl h
        exact ⟨c ++ pre, c', post, k', by rw [hs, hh]; simp, hrest⟩
      | panic =>
        have hp : Package.decode {} c (env.spare k) = .panic := h2.mp (by rw [h3]; rfl)
        refine ⟨[], c, rest, k, by simp [hs], hp, ?_, ?_⟩
        · unfold streamRecv at hr
          split at hr
          · cases hr
          · split at hr
            · cases hr
            · rename_i h0
              rw [hs, byteAt_prefix c rest 0 (by omega)] at h0
              simpa using h0
        · have hlen : c.length = 10 + (frameLen c + 65526) % 65536 := by
            unfold streamRecv at hr
            split at hr
            · cases hr
            · split at hr
              · cases hr
              · split at hr
                · cases hr
                · rename_i h10 _ hle
                  injection hr with hr
                  injection hr with hr _
                  rw [restLen_eq s (by omega)] at hr hle
                  have e1 : frameLen s = frameLen c := by rw [hs, frameLen_prefix c rest hc]
                  have := congrArg List.length hr
                  rw [List.length_take, e1] at this
                  rw [e1] at hle
                  omega
          obtain ⟨-, hcase⟩ := decode_panic_only {} c (env.spare k) hp
          have hb : declaredHL c < 256 := UInt8.toNat_lt _
          have hfd := (bodyBytes_length c).2
          have hsz := headerSize_cases c
          have hfl : frameLen c = declaredHL c + if declaredFDL c = 0 then 0 else declaredFDL c + 2 := rfl
          rw [List.length_append] at hcase
          split at hfl <;> rcases hcase with hcase | hcase <;> omega

/-- C46 (partial): a stream of complete frames that declare a header length other than 0, followed by anything that is
not another complete packet, never crashes the server, whatever is in the frames. Missing: header length 0
(`crash_header_length_zero`), frames of 65536 bytes and more. -/
theorem no_crash_partial (env : Env) (tail : Tail) (cs : List Bytes) (s : Bytes)
    (hf : ∀ c ∈ cs, Framed c ∧ 1 ≤ declaredHL c)
    (hs : s.length < 10 ∨ byteAt s 0 ≠ 1 ∨ s.length < 10 + (frameLen s + 65526) % 65536) :
    (handleConn env true tail [cs.flatten ++ s]).2 ∈ [End.closed, End.closedByTimer, End.waiting] := by
  rw [handleConn_serve]
  have e1 : [cs.flatten ++ s].flatten = cs.flatten ++ s := by simp
  rw [e1]; clear e1
  generalize ({} : LoopVars) = v
  generalize 0 = k
  induction cs generalizing k v with
  | nil =>
    rw [List.flatten_nil, List.nil_append, serve_unfold]
    have : ∃ e, streamRecv tail s = .inl e ∧ e ∈ [End.closed, End.closedByTimer, End.waiting] := by
      unfold streamRecv
      split
      · refine ⟨_, rfl, ?_⟩
        unfold cutEnd; cases tail <;> (by_cases he : s = [] <;> simp_all)
      · split
        · exact ⟨_, rfl, by simp⟩
        · split
          · refine ⟨_, rfl, ?_⟩
            unfold cutEnd; cases tail <;> simp
          · rename_i h1 h2 h3
            rw [restLen_eq s (by omega)] at h3
            exfalso
            rcases hs with h | h | h
            · omega
            · exact h2 h
            · omega
    obtain ⟨e, h1, h2⟩ := this
    rw [h1]; exact h2
  | cons c cs ih =>
    obtain ⟨hfc, hhl⟩ := hf c (by simp)
    rw [List.flatten_cons, List.append_assoc, serve_framed env tail k v c _ hfc]
    cases h : (handlePacket (env.now k) (env.spare k) ({} : LoopVars).reset c).seen with
    | diverge => exact absurd h (handle_not_diverge _ _ _)
    | panic =>
      exfalso
      have hp := (handle_panic_iff _ _ _).mp h
      obtain ⟨-, hcase⟩ := decode_panic_only {} c (env.spare k) hp
      have hb : declaredHL c < 256 := UInt8.toNat_lt _
      have h1 := hfc.complete
      have h2 := hfc.fits
      have hfl : frameLen c = declaredHL c + if declaredFDL c = 0 then 0 else declaredFDL c + 2 := rfl
      rw [List.length_append] at hcase
      split at hfl <;> rcases hcase with hcase | hcase <;> omega
    | done l => exact ih (fun x hx => hf x (by simp [hx])) {} (k + 1)

/-- a complete frame of 22 bytes with header length 0 -/
def zeroHL : Bytes := [1, 0, 0, 0, 0, 20, 0, 0, 0, 1, 0, 0, 0, 0, 0, 0, 0, 0, 0, 0, 0, 0]

/-- C46 is false of the code: 22 bytes with header length 0 crash the process, whatever was received before
(complete frames that do not crash it) and whatever comes after, for every capacity of the receive buffer below 255 (the
Go runtime gives it 24 or 32). -/
theorem crash_header_length_zero (env : Env) (tail : Tail) (s : Bytes) (h : (env.spare 0).length < 233) :
    handleConn env true tail [zeroHL ++ s] = ([], .crashed) := by
  have hf : Framed zeroHL := by decide
  have hp : Package.decode {} zeroHL (env.spare 0) = .panic := by
    apply decode_panics_header {} zeroHL _ (by decide)
    rw [List.length_append]
    have h1 : zeroHL.length = 22 := rfl
    have h2 : (declaredHL zeroHL + 255) % 256 = 255 := by decide
    omega
  have h2 := (handle_panic_iff (env.now 0) (env.spare 0) zeroHL).mpr hp
  rw [first_packet_independent env tail zeroHL s hf, alone_eq env zeroHL hf, h2]

end Egts
