import Verif.Lemmas.ReplyBytes
import Verif.Lemmas.Scan
import Verif.Lemmas.Stream
import Verif.Lemmas.Count
import Verif.Props.Decode2
set_option autoImplicit false
/- One packet, and one packet after the other. -/
namespace Egts
open Frame
variable [P : Platform]

/-- what is visible from outside of the processing of one packet -/
inductive Seen where
  | done (effects : List Effect)
  | panic
  | diverge

def Handled.seen : Handled → Seen
  | .done l _ => .done l
  | .panic => .panic
  | .diverge => .diverge

/-- the variables that survive a packet do not matter -/
theorem handlePacket_indep (now spare c : Bytes) (v w : LoopVars) :
    (handlePacket now spare v.reset c).seen = (handlePacket now spare w.reset c).seen := by
  unfold handlePacket
  cases Package.decode {} c spare with
  | panic => rfl
  | diverge => rfl
  | ret code e p =>
    cases e with
    | some e =>
      simp only
      have : v.reset.serviceType = w.reset.serviceType := rfl
      rw [this]
      cases createPtResponse p.PacketIdentifier code w.reset.serviceType [] <;> rfl
    | none =>
      simp only
      have : ({ v.reset with isPkgSave := false } : LoopVars) = { w.reset with isPkgSave := false } := rfl
      rw [this]
      split
      · cases p.ServicesFrameData with
        | none => rfl
        | some b => cases b <;> rfl
      · rfl

theorem serve_indep (env : Env) (tail : Tail) (k : Nat) (v w : LoopVars) (s : Bytes) :
    serve env tail k v s = serve env tail k w s := by
  induction hn : s.length using Nat.strong_induction_on generalizing k v w s with
  | _ n ih =>
    rw [serve_unfold, serve_unfold]
    cases hr : streamRecv tail s with
    | inl e => rfl
    | inr p =>
      obtain ⟨c, rest⟩ := p
      obtain ⟨hc, rfl⟩ := streamRecv_length hr
      simp only
      have h := handlePacket_indep (env.now k) (env.spare k) c v w
      cases h1 : handlePacket (env.now k) (env.spare k) v.reset c <;>
        cases h2 : handlePacket (env.now k) (env.spare k) w.reset c <;> rw [h1, h2] at h <;> simp only [Handled.seen] at h <;>
        first | rfl | (cases h; done) | skip
      rename_i l1 v1 l2 v2
      injection h with h
      subst h
      rw [List.length_append] at hn
      simp only
      rw [ih rest.length (by omega) (k + 1) v1 v2 rest rfl]

theorem serve_shift (env : Env) (tail : Tail) (j k : Nat) (v : LoopVars) (s : Bytes) :
    serve env tail (j + k) v s = serve (env.after j) tail k v s := by
  induction hn : s.length using Nat.strong_induction_on generalizing k v s with
  | _ n ih =>
    rw [serve_unfold, serve_unfold]
    cases hr : streamRecv tail s with
    | inl e => rfl
    | inr p =>
      obtain ⟨c, rest⟩ := p
      obtain ⟨hc, rfl⟩ := streamRecv_length hr
      rw [List.length_append] at hn
      simp only
      have h : handlePacket (env.now (j + k)) (env.spare (j + k)) v.reset c =
        handlePacket ((env.after j).now k) ((env.after j).spare k) v.reset c := rfl
      rw [h]
      cases handlePacket ((env.after j).now k) ((env.after j).spare k) v.reset c with
      | panic => rfl
      | diverge => rfl
      | done l v' =>
        simp only
        rw [← ih rest.length (by omega) (k + 1) v' rest rfl, Nat.add_assoc]

omit P in
theorem byteAt_prefix (c s : Bytes) (i : Nat) (h : i < c.length) : byteAt (c ++ s) i = byteAt c i := by
  unfold byteAt
  rw [List.getD_eq_getElem?_getD, List.getD_eq_getElem?_getD, List.getElem?_append_left h]

omit P in
/-- the number of bytes the server reads after the first ten, as a number: the announced frame length minus ten,
modulo 65536 -/
theorem restLen_eq (c : Bytes) (h : 10 ≤ c.length) : (restLen (c.take 10)).toNat = (frameLen c + 65526) % 65536 := by
  match c, h with
  | b0 :: b1 :: b2 :: b3 :: b4 :: b5 :: b6 :: b7 :: b8 :: b9 :: r, _ =>
    have e5 : sl ((b0 :: b1 :: b2 :: b3 :: b4 :: b5 :: b6 :: b7 :: b8 :: b9 :: r).take 10) 5 7 = [b5, b6] := rfl
    have e3 : ((b0 :: b1 :: b2 :: b3 :: b4 :: b5 :: b6 :: b7 :: b8 :: b9 :: r).take 10).getD 3 0 = b3 := rfl
    have f1 : declaredHL (b0 :: b1 :: b2 :: b3 :: b4 :: b5 :: b6 :: b7 :: b8 :: b9 :: r) = b3.toNat := rfl
    have f2 : declaredFDL (b0 :: b1 :: b2 :: b3 :: b4 :: b5 :: b6 :: b7 :: b8 :: b9 :: r) = (u16 [b5, b6]).toNat :=
      (fdl_eq (b0 :: b1 :: b2 :: b3 :: b4 :: b5 :: b6 :: b7 :: b8 :: b9 :: r)).symm
    unfold restLen frameLen
    rw [e5, e3, f1, f2]
    generalize u16 [b5, b6] = w
    have hb := b3.toNat_lt
    have hw := w.toNat_lt
    by_cases h0 : w = 0
    · subst h0
      simp only [show ¬ ((0 : UInt16) > 0) by decide, if_false, UInt16.toNat_sub]
      simp
      omega
    · have h1 : w > 0 := by
        rw [gt_iff_lt, UInt16.lt_iff_toNat_lt]
        have : w.toNat ≠ 0 := fun h => h0 (UInt16.toNat_inj.mp (by simpa using h))
        simp; omega
      have h2 : w.toNat ≠ 0 := by
        rw [gt_iff_lt, UInt16.lt_iff_toNat_lt] at h1; simp at h1; omega
      simp only [h1, if_true, h2, if_false, UInt16.toNat_sub, UInt16.toNat_add]
      simp
      omega

omit P in
theorem frameLen_prefix (c s : Bytes) (h : 10 ≤ c.length) : frameLen (c ++ s) = frameLen c := by
  unfold frameLen declaredHL declaredFDL word16At
  rw [byteAt_prefix _ _ _ (by omega), byteAt_prefix _ _ _ (by omega), byteAt_prefix _ _ _ (by omega)]

omit P in
/-- a complete frame is read completely, and nothing more -/
theorem recv_framed (tail : Tail) (c s : Bytes) (hf : Framed c) : streamRecv tail (c ++ s) = .inr (c, s) := by
  have h10 : 10 ≤ c.length := by rw [hf.complete]; exact hf.header
  have hr : 10 + (restLen ((c ++ s).take 10)).toNat = c.length := by
    rw [restLen_eq _ (by simp; omega), frameLen_prefix _ _ h10]
    have := hf.fits
    have := hf.header
    rw [hf.complete]
    omega
  unfold streamRecv
  rw [hr, if_neg (by simp; omega), if_neg (by rw [byteAt_prefix _ _ _ (by omega), hf.version]; simp), if_neg (by simp)]
  simp

/-- what the handler does with the bytes of one complete frame -/
theorem serve_framed (env : Env) (tail : Tail) (k : Nat) (v : LoopVars) (c s : Bytes) (hf : Framed c) :
    serve env tail k v (c ++ s) =
      match (handlePacket (env.now k) (env.spare k) ({} : LoopVars).reset c).seen with
      | .panic => ([], .crashed)
      | .diverge => ([], .diverged)
      | .done l => (l ++ (serve env tail (k + 1) {} s).1, (serve env tail (k + 1) {} s).2) := by
  rw [serve_unfold, recv_framed tail c s hf]
  simp only
  rw [handlePacket_indep _ _ _ {} v]
  cases handlePacket (env.now k) (env.spare k) v.reset c with
  | panic => rfl
  | diverge => rfl
  | done l v' => simp only [Handled.seen]; rw [serve_indep env tail (k + 1) v' {} s]

theorem serve_silent (env : Env) (k : Nat) (v : LoopVars) : serve env .silent k v [] = ([], .waiting) := by
  rw [serve_unfold]; rfl

/-- one complete frame, then silence -/
theorem alone_eq (env : Env) (c : Bytes) (hf : Framed c) :
    handleConn env true .silent [c] =
      match (handlePacket (env.now 0) (env.spare 0) ({} : LoopVars).reset c).seen with
      | .panic => ([], .crashed)
      | .diverge => ([], .diverged)
      | .done l => (l, .waiting) := by
  rw [handleConn_serve]
  have : [c].flatten = c ++ [] := by simp
  rw [this, serve_framed env .silent 0 {} c [] hf]
  cases (handlePacket (env.now 0) (env.spare 0) ({} : LoopVars).reset c).seen with
  | panic => rfl
  | diverge => rfl
  | done l => simp [serve_silent]

/-! ### what is in a decoded package -/

theorem decode_ok_facts {c spare : Bytes} {p : Package} (h : Package.decode {} c spare = .ret 0 none p) :
    headerSize c ≤ c.length ∧ p.PacketType = byteAt c 9 ∧ p.PacketIdentifier = u16 [byteAt c 7, byteAt c 8] ∧
      ∃ b, p.ServicesFrameData = some b ∧ decodeBody (byteAt c 9) (bodyBytes c) = .ok b := by
  by_cases hc : headerSize c ≤ c.length
  · rw [decode_verdict {} c spare hc] at h
    obtain ⟨b, w, hvd, rfl⟩ := apply_ret h
    obtain ⟨-, hd, body, b', -, -, -, -, hb, rfl, -⟩ := verdict_accept hvd
    exact ⟨hc, rfl, rfl, b', rfl, hb⟩
  · obtain ⟨q', hq⟩ := decode_short {} c spare (by omega)
    rw [hq] at h; cases h

theorem decodeBody_appdata {t : UInt8} {b : Bytes} {l : ServiceDataSet} (h : decodeBody t b = .ok (.appdata l)) :
    t = 1 ∧ ServiceDataSet.decode [] b = .ok l := by
  unfold decodeBody at h
  split at h
  · rename_i ht
    refine ⟨ht, ?_⟩
    revert h
    cases ServiceDataSet.decode [] b with
    | ok s => intro h; cases h; rfl
    | err e s => intro h; cases h
    | panic => intro h; cases h
    | diverge => intro h; cases h
  · revert h
    cases PtResponse.decode {} b <;> intro h <;> cases h

theorem decodeBody_response {t : UInt8} {b : Bytes} {r : PtResponse} (h : decodeBody t b = .ok (.response r)) : t ≠ 1 := by
  unfold decodeBody at h
  split at h
  · revert h
    cases ServiceDataSet.decode [] b <;> intro h <;> cases h
  · assumption

omit P in
theorem bodyBytes_length (c : Bytes) : (bodyBytes c).length = declaredFDL c ∧ declaredFDL c < 65536 := by
  constructor
  · unfold bodyBytes; simp; omega
  · rw [← fdl_eq]; exact UInt16.toNat_lt _

/-- an accepted data packet: type, identifier, number of records and of positions -/
theorem data_facts {c spare : Bytes} {p : Package} {l : ServiceDataSet} (h : Package.decode {} c spare = .ret 0 none p)
    (hb : p.ServicesFrameData = some (.appdata l)) :
    p.PacketType = 1 ∧ p.PacketIdentifier = u16 [byteAt c 7, byteAt c 8] ∧ l.length < 10000 ∧
      (positions (subsOf l)).length < 2147483648 := by
  obtain ⟨-, ht, hp, b, hb', hd⟩ := decode_ok_facts h
  obtain rfl : b = .appdata l := by rw [hb] at hb'; exact (Option.some.inj hb').symm
  obtain ⟨h1, hd⟩ := decodeBody_appdata hd
  obtain ⟨hc, hr⟩ := sds_count hd
  obtain ⟨hl, hl2⟩ := bodyBytes_length c
  have hlen : l.length < 10000 := by omega
  refine ⟨by rw [ht, h1], hp, hlen, ?_⟩
  have h2 : (positions (subsOf l)).length ≤ (subsOf l).length := by unfold positions; exact List.length_filterMap_le _ _
  have h3 : ∀ l : ServiceDataSet, (∀ r ∈ l, r.RecordDataSet.length ≤ 65535) → (subsOf l).length ≤ 65535 * l.length := by
    intro l
    induction l with
    | nil => intro _; simp [subsOf]
    | cons r l ih =>
      intro hr
      rw [subsOf_cons, List.length_append, List.length_cons]
      have := ih fun x hx => hr x (List.mem_cons_of_mem _ hx)
      have h5 := hr r List.mem_cons_self
      have h6 : (r.RecordDataSet.filterMap (·.SubrecordData)).length ≤ r.RecordDataSet.length := List.length_filterMap_le _ _
      omega
  have := h3 l hr
  omega

/-- `Package.Decode` on ten bytes or more, incomplete header: the identifier is already known -/
theorem header_short_pid (p : Package) (c : Bytes) (h10 : 10 ≤ c.length) (h : c.length < headerSize c) :
    ∃ q, Package.decodeHeaderM p c = .err .eof q ∧ q.PacketIdentifier = u16 [byteAt c 7, byteAt c 8] := by
  have step_ex : ∀ {α β : Type} {m : Dec Package α} {f : α → Dec Package β} {s s1 : Package} {r r1 : Bytes} {a : α} {w : UInt16}
      (_ : m s r = .ok a s1 r1) (_ : ∃ q, f a s1 r1 = .err .eof q ∧ q.PacketIdentifier = w),
      ∃ q, (m >>= f) s r = .err .eof q ∧ q.PacketIdentifier = w := by
    intro α β m f s s1 r r1 a w h k
    rw [Dec.bind_ok h]; exact k
  match c, h10 with
  | b0 :: b1 :: b2 :: b3 :: b4 :: b5 :: b6 :: b7 :: b8 :: b9 :: r, _ =>
    obtain ⟨f1, f2, f3, f4, f5⟩ := fmt_text b2
    unfold Package.decodeHeaderM
    refine step_ex (Dec.readByteTo_cons _ _ _ _) ?_; try dsimp only
    refine step_ex (Dec.readByteTo_cons _ _ _ _) ?_; try dsimp only
    refine step_ex (Dec.readByte_cons _ _ _) ?_
    refine step_ex (Dec.upd_apply _ _ _) ?_; try dsimp only
    refine step_ex (Dec.readByteTo_cons _ _ _ _) ?_; try dsimp only
    refine step_ex (Dec.readByteTo_cons _ _ _ _) ?_; try dsimp only
    refine step_ex (read2 _ _ _ _ _ rfl) ?_; try dsimp only
    refine step_ex (Dec.upd_apply _ _ _) ?_; try dsimp only
    refine step_ex (read2 _ _ _ _ _ rfl) ?_; try dsimp only
    refine step_ex (Dec.upd_apply _ _ _) ?_; try dsimp only
    refine step_ex (Dec.readByteTo_cons _ _ _ _) ?_; try dsimp only
    refine step_ex (Dec.get_apply _ _) ?_; try dsimp only
    rw [f1, f2, f3, f4, f5, route_eq]
    unfold headerSize routed at h
    have e : byteAt (b0 :: b1 :: b2 :: b3 :: b4 :: b5 :: b6 :: b7 :: b8 :: b9 :: r) 2 = b2 := rfl
    rw [e] at h
    revert h
    cases b2.toNat.testBit 5 with
    | false =>
      intro h
      match r with
      | [] => exact ⟨_, rfl, rfl⟩
      | _ :: _ => simp at h; omega
    | true =>
      intro h
      match r with
      | [] | [_] | [_, _] | [_, _, _] | [_, _, _, _] | [_, _, _, _, _] => exact ⟨_, rfl, rfl⟩
      | _ :: _ :: _ :: _ :: _ :: _ :: _ => simp at h; omega

/-- whenever Decode returns, the identifier is the one of bytes 7 and 8 (ten bytes or more) -/
theorem decode_pid {c spare : Bytes} {code : UInt8} {e : Option Err} {p : Package} (h10 : 10 ≤ c.length)
    (h : Package.decode {} c spare = .ret code e p) : p.PacketIdentifier = u16 [byteAt c 7, byteAt c 8] := by
  by_cases hc : headerSize c ≤ c.length
  · rw [decode_verdict {} c spare hc] at h
    obtain ⟨b, w, hvd, rfl⟩ := apply_ret h
    rfl
  · obtain ⟨q, hq, hp⟩ := header_short_pid {} c h10 (by omega)
    unfold Package.decode at h
    rw [hq] at h
    cases h
    exact hp

/-- the reply packets answer -/
theorem reply_answers (pid : UInt16) (code st : UInt8) (rns : List UInt16) (hn : rns.length < 10000) :
    ∃ out, createPtResponse pid code st (rns.map confirmation) = .ok out ∧ Answers out pid code rns := by
  obtain ⟨out, h, hfr, hlen, ha⟩ := ptReply pid code st rns hn
  refine ⟨out, h, hfr, hlen, fun spare => ?_⟩
  obtain ⟨q, r, h1, h2, -, h3, h4, h5, h6, h7⟩ := ha spare
  refine ⟨q, r, h1, h2, h3, h4, h5, h6, fun hne => ?_⟩
  obtain ⟨rec, h8, h9, -⟩ := h7 hne
  exact ⟨rec, h8, h9⟩

/-- the answer, byte by byte, is an answer -/
theorem answerBytes_answers (pid : UInt16) (code st : UInt8) (rns : List UInt16) (hn : rns.length < 10000) :
    Answers (answerBytes pid.toNat code st (rns.map (·.toNat))) pid code rns := by
  obtain ⟨out, h, ha⟩ := reply_answers pid code st rns hn
  rw [createPtResponse_bytes pid code st rns hn] at h
  cases h
  exact ha

/-- the record exported for the data packet `p` with records `l` -/
def exportOf (now : Bytes) (pid : UInt16) (l : List ServiceDataRecord) : NavRecord := {
  ServerID := serverId
  IMEI := (((subsOf l).filterMap (·.term?)).getLast?.map (·.IMEI)).getD []
  ClientID := (l.getLast?.map (·.ObjectIdentifier)).getD 0
  ReceivedDt := now
  PacketID := packetIdAfter pid.toUInt32 l
  NavigationTimestamp := ((positions (subsOf l)).getLast?.map fun d => unixOf d.NavigationTime).getD 0
  AnSensors := (subsOf l).flatMap (·.readings)
  LiquidSensors := ((subsOf l).filterMap (·.liquid?)).map liquidOf
  LocStates := (positions (subsOf l)).map locOf
  LocStatesCount := Int32.ofNat (positions (subsOf l)).length }

/-- the acknowledgement of a data packet with identifier `pid` and records `l`, byte by byte: the services named are the
source service of the last record -/
def ackBytes (pid : UInt16) (l : List ServiceDataRecord) : Bytes :=
  answerBytes pid.toNat 0 ((l.getLast?.map (·.SourceServiceType)).getD 0) (l.map fun r => r.RecordNumber.toNat)

/-- an accepted data packet without record responses -/
theorem handle_data_bytes (now spare c : Bytes) (p : Package) (l : ServiceDataSet) (h : Package.decode {} c spare = .ret 0 none p)
    (hb : p.ServicesFrameData = some (.appdata l)) (hn : NoResponses l) :
    Answers (ackBytes p.PacketIdentifier l) p.PacketIdentifier 0 (l.map (·.RecordNumber)) ∧
      (handlePacket now spare ({} : LoopVars).reset c).seen = .done (
        (if (positions (subsOf l)).isEmpty then [] else [.save (exportOf now p.PacketIdentifier l)]) ++ [.write (ackBytes p.PacketIdentifier l)] ++
        (if (subsOf l).any (·.isLogin) then [.write (resultPacket p.PacketIdentifier 0)] else [])) := by
  obtain ⟨ht, -, hlen, -⟩ := data_facts h hb
  unfold handlePacket
  rw [h]
  simp only [ht, if_true, hb]
  obtain ⟨s', hs, hsc⟩ := recLoop_eq p.PacketIdentifier
    { vars := { ({} : LoopVars).reset with isPkgSave := false },
      exp := { ServerID := serverId, PacketID := p.PacketIdentifier.toUInt32, ReceivedDt := now, LocStatesCount := 0 } } l hn
  rw [hs]
  simp only
  have h1 : s'.vars.srResponsesRecord = (l.map (·.RecordNumber)).map confirmation := by
    rw [hsc.responses]; simp [LoopVars.reset]
  have hst : s'.vars.serviceType = (l.getLast?.map (·.SourceServiceType)).getD 0 := hsc.serviceType
  have hmap : (l.map fun r => r.RecordNumber.toNat) = (l.map (·.RecordNumber)).map (·.toNat) := by simp
  have hack := createPtResponse_bytes p.PacketIdentifier 0 s'.vars.serviceType (l.map (·.RecordNumber)) (by simpa using hlen)
  have ha := answerBytes_answers p.PacketIdentifier 0 s'.vars.serviceType (l.map (·.RecordNumber)) (by simpa using hlen)
  rw [hst, ← hmap] at hack ha
  refine ⟨ha, ?_⟩
  rw [h1, hst, hack]
  change (Handled.seen _) = .done (_ ++ [.write (ackBytes p.PacketIdentifier l)] ++ _)
  simp only [Handled.seen]
  have h2 : s'.vars.isPkgSave = !(positions (subsOf l)).isEmpty := by rw [hsc.save]; simp
  have h3 : s'.vars.srResultCodePkg = if (subsOf l).any (·.isLogin) then resultPacket p.PacketIdentifier 0 else [] := by
    rw [hsc.result]; rfl
  have h4 : s'.exp = exportOf now p.PacketIdentifier l := by
    rw [hsc.exp]; unfold exportOf; simp
  rw [h2, h3, h4]
  have h5 : (if (if (subsOf l).any (·.isLogin) then resultPacket p.PacketIdentifier 0 else []).length > 0 then
      [Effect.write (if (subsOf l).any (·.isLogin) then resultPacket p.PacketIdentifier 0 else [])] else []) =
      (if (subsOf l).any (·.isLogin) then [Effect.write (resultPacket p.PacketIdentifier 0)] else []) := by
    by_cases hl : (subsOf l).any (·.isLogin)
    · simp only [hl, if_true]; rw [if_pos (resultPacket_ne _ _)]
    · simp only [hl]; rfl
  rw [h5]
  cases (positions (subsOf l)).isEmpty <;> rfl

/-- the same with some acknowledgement -/
theorem handle_data (now spare c : Bytes) (p : Package) (l : ServiceDataSet) (h : Package.decode {} c spare = .ret 0 none p)
    (hb : p.ServicesFrameData = some (.appdata l)) (hn : NoResponses l) :
    ∃ ack, Answers ack p.PacketIdentifier 0 (l.map (·.RecordNumber)) ∧
      (handlePacket now spare ({} : LoopVars).reset c).seen = .done (
        (if (positions (subsOf l)).isEmpty then [] else [.save (exportOf now p.PacketIdentifier l)]) ++ [.write ack] ++
        (if (subsOf l).any (·.isLogin) then [.write (resultPacket p.PacketIdentifier 0)] else [])) :=
  ⟨_, handle_data_bytes now spare c p l h hb hn⟩

/-- a data packet with a record response: nothing happens -/
theorem handle_received (now spare c : Bytes) (p : Package) (l : ServiceDataSet) (h : Package.decode {} c spare = .ret 0 none p)
    (hb : p.ServicesFrameData = some (.appdata l)) (hn : ¬ NoResponses l) :
    (handlePacket now spare ({} : LoopVars).reset c).seen = .done [] := by
  obtain ⟨ht, -, hlen, -⟩ := data_facts h hb
  unfold handlePacket
  rw [h]
  simp only [ht, if_true, hb]
  obtain ⟨v, hv⟩ := recLoop_received p.PacketIdentifier
    { vars := { ({} : LoopVars).reset with isPkgSave := false },
      exp := { ServerID := serverId, PacketID := p.PacketIdentifier.toUInt32, ReceivedDt := now, LocStatesCount := 0 } } l hn
  rw [hv]
  rfl

/-- a response packet: nothing happens -/
theorem handle_response (now spare c : Bytes) (p : Package) (r : PtResponse) (h : Package.decode {} c spare = .ret 0 none p)
    (hb : p.ServicesFrameData = some (.response r)) : (handlePacket now spare ({} : LoopVars).reset c).seen = .done [] := by
  obtain ⟨-, ht, -, b, hb', hd⟩ := decode_ok_facts h
  obtain rfl : b = .response r := by rw [hb] at hb'; exact (Option.some.inj hb').symm
  have := decodeBody_response hd
  unfold handlePacket
  rw [h]
  simp only [ht, this, if_false]
  rfl

/-- a rejected packet -/
theorem handle_rejected_bytes (now spare c : Bytes) (p : Package) (code : UInt8) (e : Err) (h : Package.decode {} c spare = .ret code (some e) p) :
    Answers (answerBytes p.PacketIdentifier.toNat code 0 []) p.PacketIdentifier code [] ∧
      (handlePacket now spare ({} : LoopVars).reset c).seen = .done [.write (answerBytes p.PacketIdentifier.toNat code 0 [])] := by
  have hn := createPtResponse_bytes p.PacketIdentifier code ({} : LoopVars).reset.serviceType [] (by simp)
  refine ⟨answerBytes_answers p.PacketIdentifier code 0 [] (by simp), ?_⟩
  unfold handlePacket
  rw [h]
  simp only
  have : createPtResponse p.PacketIdentifier code ({} : LoopVars).reset.serviceType [] = .ok (answerBytes p.PacketIdentifier.toNat code 0 []) := hn
  rw [this]
  rfl

/-- the same with some answer -/
theorem handle_rejected (now spare c : Bytes) (p : Package) (code : UInt8) (e : Err) (h : Package.decode {} c spare = .ret code (some e) p) :
    ∃ nack, Answers nack p.PacketIdentifier code [] ∧
      (handlePacket now spare ({} : LoopVars).reset c).seen = .done [.write nack] :=
  ⟨_, handle_rejected_bytes now spare c p code e h⟩

end Egts
