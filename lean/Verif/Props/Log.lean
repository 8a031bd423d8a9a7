import Verif.Spec.Log
import Verif.Props.AnyStream
import Verif.Props.Config
import Verif.Props.Resources
import Verif.Props.StoredSize
set_option autoImplicit false
/- C119: what the log tells. -/
namespace Egts
open Frame
variable [P : Platform]

/-! ### one packet -/

def effOf : Act → Option Effect
  | .eff e => some e
  | .log _ => none

/-- the actions of a handler without its messages -/
def effsOf (l : List Act) : List Effect := l.filterMap effOf

omit P in
theorem effsOf_append (a b : List Act) : effsOf (a ++ b) = effsOf a ++ effsOf b := List.filterMap_append

omit P in
theorem effsOf_logs (l : List LogMsg) : effsOf (l.map .log) = [] := by
  induction l with
  | nil => rfl
  | cons m l ih => exact ih

/-- messages about the records of a packet (whatever was received before it) -/
def recordsLog (now : Bytes) (pid : UInt16) (l : List ServiceDataRecord) : List LogMsg :=
  recLoopLog pid { vars := { ({} : LoopVars).reset with isPkgSave := false }, exp := {
    ServerID := serverId, PacketID := pid.toUInt32, ReceivedDt := now, LocStatesCount := 0 } } l

theorem acts_panic (now spare c : Bytes) (v : LoopVars) (h : Package.decode {} c spare = .panic) :
    packetActs now spare v.reset c = [.log .received] := by
  unfold packetActs; rw [h]

theorem acts_rejected (now spare c : Bytes) (v : LoopVars) (p : Package) (code : UInt8) (e : Err) (h : Package.decode {} c spare = .ret code (some e) p) :
    packetActs now spare v.reset c = [.log .received, .log (.decodeFailed e), .eff (.write (answerBytes p.PacketIdentifier.toNat code 0 []))] := by
  unfold packetActs; rw [h]
  simp only
  have : createPtResponse p.PacketIdentifier code v.reset.serviceType [] = .ok (answerBytes p.PacketIdentifier.toNat code 0 []) :=
    createPtResponse_bytes p.PacketIdentifier code v.reset.serviceType [] (by simp)
  rw [this]

theorem acts_response (now spare c : Bytes) (v : LoopVars) (p : Package) (r : PtResponse) (h : Package.decode {} c spare = .ret 0 none p)
    (hb : p.ServicesFrameData = some (.response r)) : packetActs now spare v.reset c = [.log .received, .log .response] := by
  obtain ⟨-, ht, -, b, hb', hd⟩ := decode_ok_facts h
  obtain rfl : b = .response r := by rw [hb] at hb'; exact (Option.some.inj hb').symm
  have h1 := decodeBody_response hd
  have h0 : p.PacketType = 0 := by
    have hc : headerSize c ≤ c.length := (decode_ok_facts h).1
    have h' := h
    rw [decode_verdict {} c spare hc] at h'
    obtain ⟨b, w, hvd, -⟩ := apply_ret h'
    obtain ⟨-, _, _, _, -, -, -, h01, -⟩ := verdict_accept hvd
    rw [ht]
    exact h01.resolve_right h1
  unfold packetActs
  rw [h]
  simp [h0]

theorem acts_received (now spare c : Bytes) (v : LoopVars) (p : Package) (l : ServiceDataSet) (h : Package.decode {} c spare = .ret 0 none p)
    (hb : p.ServicesFrameData = some (.appdata l)) (hn : ¬ NoResponses l) :
    packetActs now spare v.reset c = [.log .received, .log .appdata] ++ (recordsLog now p.PacketIdentifier l).map .log := by
  obtain ⟨ht, -, hlen, -⟩ := data_facts h hb
  unfold packetActs
  rw [h]
  simp only [ht, if_true, hb]
  obtain ⟨v', hv⟩ := recLoop_received p.PacketIdentifier
    { vars := { v.reset with isPkgSave := false },
      exp := { ServerID := serverId, PacketID := p.PacketIdentifier.toUInt32, ReceivedDt := now, LocStatesCount := 0 } } l hn
  rw [hv]
  simp only [List.append_nil]
  rfl

theorem acts_data (now spare c : Bytes) (v : LoopVars) (p : Package) (l : ServiceDataSet) (h : Package.decode {} c spare = .ret 0 none p)
    (hb : p.ServicesFrameData = some (.appdata l)) (hn : NoResponses l) :
    packetActs now spare v.reset c = [.log .received, .log .appdata] ++ (recordsLog now p.PacketIdentifier l).map .log ++
      (if (positions (subsOf l)).isEmpty then [] else [.eff (.save (exportOf now p.PacketIdentifier l))]) ++
      [.eff (.write (ackBytes p.PacketIdentifier l)), .log (.ackSent (ackBytes p.PacketIdentifier l))] ++
      (if (subsOf l).any (·.isLogin) then [.eff (.write (resultPacket p.PacketIdentifier 0)), .log (.resultSent (resultPacket p.PacketIdentifier 0))]
        else []) := by
  obtain ⟨ht, -, hlen, -⟩ := data_facts h hb
  unfold packetActs
  rw [h]
  simp only [ht, if_true, hb]
  obtain ⟨s', hs, hsc⟩ := recLoop_eq p.PacketIdentifier
    { vars := { v.reset with isPkgSave := false },
      exp := { ServerID := serverId, PacketID := p.PacketIdentifier.toUInt32, ReceivedDt := now, LocStatesCount := 0 } } l hn
  rw [hs]
  simp only
  have h1 : s'.vars.srResponsesRecord = (l.map (·.RecordNumber)).map confirmation := by
    rw [hsc.responses]; simp [LoopVars.reset]
  have hst : s'.vars.serviceType = (l.getLast?.map (·.SourceServiceType)).getD 0 := hsc.serviceType
  have hmap : (l.map fun r => r.RecordNumber.toNat) = (l.map (·.RecordNumber)).map (·.toNat) := by simp
  have hack := createPtResponse_bytes p.PacketIdentifier 0 s'.vars.serviceType (l.map (·.RecordNumber)) (by simpa using hlen)
  rw [hst, ← hmap] at hack
  rw [h1, hst, hack]
  have h2 : s'.vars.isPkgSave = !(positions (subsOf l)).isEmpty := by rw [hsc.save]; simp
  have h3 : s'.vars.srResultCodePkg = if (subsOf l).any (·.isLogin) then resultPacket p.PacketIdentifier 0 else [] := by
    rw [hsc.result]; rfl
  have h4 : s'.exp = exportOf now p.PacketIdentifier l := by
    rw [hsc.exp]; unfold exportOf; simp
  rw [h2, h3, h4]
  have h6 : answerBytes p.PacketIdentifier.toNat 0 ((l.getLast?.map (·.SourceServiceType)).getD 0) (l.map fun r => r.RecordNumber.toNat) =
    ackBytes p.PacketIdentifier l := rfl
  simp only [h6]
  by_cases hl : (subsOf l).any (·.isLogin) = true
  · simp only [hl, if_true]
    have := resultPacket_ne p.PacketIdentifier 0
    rw [if_pos this]
    cases (positions (subsOf l)).isEmpty <;> simp [recordsLog] <;> rfl
  · simp only [hl]
    cases (positions (subsOf l)).isEmpty <;> simp [recordsLog] <;> rfl


/-! ### the stream -/

omit P in
theorem recvLog_packet (tail : Tail) (chunks : List Bytes) (c : Bytes) (rest : List Bytes) (h : recvPacket tail chunks = .packet c rest) :
    recvLog tail chunks = [] := by
  unfold recvPacket at h
  unfold recvLog
  cases h1 : readFull tail 10 [] chunks with
  | eof => rw [h1] at h; cases h
  | failed => rw [h1] at h; cases h
  | blocked => rfl
  | full hdr rest =>
    rw [h1] at h
    simp only at h ⊢
    split at h
    · cases h
    · rename_i h2
      rw [if_neg h2]
      cases h3 : readFull tail (restLen hdr).toNat [] rest with
      | full b r => rfl
      | eof => rw [h3] at h; cases h
      | failed => rw [h3] at h; cases h
      | blocked => rfl

omit P in
theorem recvLog_end (tail : Tail) (chunks : List Bytes) (hi : Incomplete chunks.flatten) : recvLog tail chunks = endNote tail chunks.flatten := by
  obtain ⟨h1, h2⟩ := readFull_eq tail 10 [] chunks
  unfold recvLog endNote
  by_cases hlt : chunks.flatten.length < 10
  · have hno : ¬ (10 ≤ chunks.flatten.length ∧ byteAt chunks.flatten 0 ≠ 1) := by omega
    rw [h2 hlt, if_neg hno]
    cases tail with
    | eof =>
      simp only [List.nil_append]
      by_cases he : chunks.flatten = []
      · rw [if_pos he, if_pos he]
      · rw [if_neg he, if_neg he, if_pos hlt]
    | error => simp only; rw [if_pos hlt]
    | silent => rfl
  · obtain ⟨rest, hr, hrf⟩ := h1 (by omega)
    rw [hr]
    simp only [List.nil_append]
    have hb : (chunks.flatten.take 10).getD 0 0 = byteAt chunks.flatten 0 := by
      unfold byteAt
      rw [List.getD_eq_getElem?_getD, List.getD_eq_getElem?_getD, List.getElem?_take_of_lt (by omega)]
    rw [hb]
    by_cases h0 : byteAt chunks.flatten 0 = 1
    · rw [if_neg (by simpa using h0), if_neg (by simp [h0])]
      have hl : chunks.flatten.length < 10 + (restLen (chunks.flatten.take 10)).toNat := by
        rw [restLen_eq _ (by omega)]
        rcases hi with hi | hi | hi
        · omega
        · exact absurd h0 hi
        · exact hi
      obtain ⟨-, h4⟩ := readFull_eq tail (restLen (chunks.flatten.take 10)).toNat [] rest
      rw [h4 (by rw [hrf, List.length_drop]; omega)]
      have hne : chunks.flatten ≠ [] := by intro e; rw [e] at hlt; simp at hlt
      cases tail with
      | eof =>
        simp only
        rw [if_neg hne, if_neg hlt]
        split <;> first | rfl | (rename_i hx; split at hx <;> cases hx)
      | error => simp only; rw [if_neg hlt]
      | silent => rfl
    · rw [if_pos (by simpa using h0), if_pos ⟨by omega, h0⟩]

/-- the packets of a stream, up to the first that crashes the process -/
def actsAll (env : Env) (tail : Tail) (rest : Bytes) : Nat → List Bytes → List Act
  | _, [] => (endNote tail rest).map .log
  | k, c :: cs => packetActs (env.now k) (env.spare k) ({} : LoopVars).reset c ++
    match react (env.now k) (env.spare k) c with
    | none => []
    | some _ => actsAll env tail rest (k + 1) cs

theorem packetActs_indep (now spare c : Bytes) (v w : LoopVars) : packetActs now spare v.reset c = packetActs now spare w.reset c := rfl

theorem conn_acts (env : Env) (tail : Tail) (rest : Bytes) (hi : Incomplete rest) (cs : List Bytes) : ∀ (fuel k : Nat) (v : LoopVars) (chunks : List Bytes),
    (∀ c ∈ cs, Taken c) → chunks.flatten = cs.flatten ++ rest → chunks.flatten.length < fuel →
    connActs env tail fuel k v chunks = actsAll env tail rest k cs := by
  induction cs with
  | nil =>
    intro fuel k v chunks _ he hf
    simp only [List.flatten_nil, List.nil_append] at he
    obtain ⟨n, rfl⟩ : ∃ n, fuel = n + 1 := ⟨fuel - 1, by omega⟩
    unfold connActs actsAll
    rw [recvLog_end tail chunks (by rw [he]; exact hi), he]
    rcases recv_eq tail chunks with ⟨e, h1, h2⟩ | ⟨c, r, h1, h2⟩
    · rw [h1]; simp
    · rw [he, recv_incomplete tail rest hi] at h2; cases h2
  | cons c cs ih =>
    intro fuel k v chunks ht he hf
    obtain ⟨n, rfl⟩ : ∃ n, fuel = n + 1 := ⟨fuel - 1, by omega⟩
    rw [List.flatten_cons, List.append_assoc] at he
    have hc := ht c (by simp)
    unfold connActs actsAll
    rcases recv_eq tail chunks with ⟨e, h1, h2⟩ | ⟨c', r, h1, h2⟩
    · rw [he, recv_taken tail c _ hc] at h2; cases h2
    · rw [he, recv_taken tail c _ hc] at h2
      injection h2 with h2
      injection h2 with h2 h3
      subst h2
      rw [recvLog_packet tail chunks _ _ h1, h1]
      simp only [List.map_nil, List.nil_append]
      congr 1
      have h := react_eq (env.now k) (env.spare k) c (taken_ten hc)
      rw [handlePacket_indep _ _ _ {} v] at h
      revert h
      cases handlePacket (env.now k) (env.spare k) v.reset c with
      | panic => cases react (env.now k) (env.spare k) c <;> simp [Handled.seen]
      | diverge => cases react (env.now k) (env.spare k) c <;> simp [Handled.seen]
      | done l v' =>
        cases react (env.now k) (env.spare k) c with
        | none => simp [Handled.seen]
        | some l' =>
          intro _
          simp only
          exact ih n (k + 1) v' r (fun x hx => ht x (by simp [hx])) h3.symm (by
            have := taken_ten hc
            rw [← h3]; rw [he, List.length_append] at hf; omega)

theorem acts_stream (env : Env) (tail : Tail) (chunks cs : List Bytes) (rest : Bytes) (h : CutInto chunks.flatten cs rest) :
    handleConnActs env true tail chunks = .log .opened :: actsAll env tail rest 0 cs := by
  unfold handleConnActs
  rw [if_pos rfl, conn_acts env tail rest h.incomplete cs _ 0 {} chunks h.taken h.all (by omega)]

/-- the kinds of packets -/
theorem packet_cases (now spare c : Bytes) (h10 : 10 ≤ c.length) :
    (Package.decode {} c spare = .panic ∧ react now spare c = none) ∨
    (∃ code e p, Package.decode {} c spare = .ret code (some e) p ∧ react now spare c = some [.write (answerBytes p.PacketIdentifier.toNat code 0 [])]) ∨
    (∃ p r, Package.decode {} c spare = .ret 0 none p ∧ p.ServicesFrameData = some (.response r) ∧ react now spare c = some []) ∨
    (∃ p l, Package.decode {} c spare = .ret 0 none p ∧ p.ServicesFrameData = some (.appdata l) ∧ ¬ NoResponses l ∧ (subsOf l).any (·.isResponse) = true ∧
      react now spare c = some []) ∨
    (∃ p l, Package.decode {} c spare = .ret 0 none p ∧ p.ServicesFrameData = some (.appdata l) ∧ NoResponses l ∧ (subsOf l).any (·.isResponse) = false ∧
      react now spare c = some ((if (positions (subsOf l)).isEmpty then [] else [.save (exportOf now p.PacketIdentifier l)]) ++
        [.write (ackBytes p.PacketIdentifier l)] ++
        (if (subsOf l).any (·.isLogin) then [.write (resultPacket p.PacketIdentifier 0)] else []))) := by
  unfold react
  cases hd : Package.decode {} c spare with
  | panic => exact .inl ⟨rfl, rfl⟩
  | diverge => exact absurd hd (decode_terminates _ _ _)
  | ret code e p =>
    cases e with
    | some e =>
      have hp : p.PacketIdentifier.toNat = word16At c 7 := by
        rw [decode_pid h10 hd, u16_toNat]; simp [word16At, leValue]
      exact .inr (.inl ⟨code, e, p, rfl, by rw [hp]⟩)
    | none =>
      obtain rfl : code = 0 := by
        rcases decode_codes_partial {} p c spare code none hd with h | h | ⟨-, h | h | h | h | h⟩
        · exact h.1
        all_goals simp at h
      obtain ⟨-, ht, -, b, hb, -⟩ := decode_ok_facts hd
      simp only [hb]
      cases b with
      | response r => exact .inr (.inr (.inl ⟨p, r, rfl, hb, rfl⟩))
      | appdata l =>
        by_cases hn : NoResponses l
        · have h1 : (subsOf l).any (·.isResponse) = false := by simpa [NoResponses] using hn
          exact .inr (.inr (.inr (.inr ⟨p, l, rfl, hb, hn, h1, by simp only [h1]; rfl⟩)))
        · have h1 : (subsOf l).any (·.isResponse) = true := by
            unfold NoResponses at hn
            push Not at hn
            simpa using hn
          exact .inr (.inr (.inr (.inl ⟨p, l, rfl, hb, hn, h1, by simp only [h1]; rfl⟩)))

/-- the messages do not change what is done for a packet -/
theorem packet_effs (now spare c : Bytes) (h10 : 10 ≤ c.length) :
    effsOf (packetActs now spare ({} : LoopVars).reset c) = (react now spare c).getD [] := by
  rcases packet_cases now spare c h10 with ⟨h, hr⟩ | ⟨code, e, p, h, hr⟩ | ⟨p, r, h, hb, hr⟩ | ⟨p, l, h, hb, hn, -, hr⟩ | ⟨p, l, h, hb, hn, -, hr⟩
  · rw [hr, acts_panic now spare c {} h]; rfl
  · rw [hr, acts_rejected now spare c {} p code e h]; rfl
  · rw [hr, acts_response now spare c {} p r h hb]; rfl
  · rw [hr, acts_received now spare c {} p l h hb hn, effsOf_append, effsOf_logs]; rfl
  · rw [hr, acts_data now spare c {} p l h hb hn, effsOf_append, effsOf_append, effsOf_append, effsOf_append, effsOf_logs]
    simp only [Option.getD_some]
    cases (positions (subsOf l)).isEmpty <;> cases (subsOf l).any (·.isLogin) <;> rfl

/-- C119: the messages belong to what the server really does: without them the actions are those of the handler. -/
theorem log_harmless (env : Env) (hasStore : Bool) (tail : Tail) (chunks : List Bytes) :
    effsOf (handleConnActs env hasStore tail chunks) = (handleConn env hasStore tail chunks).1 := by
  cases hasStore with
  | false => rfl
  | true =>
    obtain ⟨⟨cs, rest⟩, h, -⟩ := cut_unique chunks.flatten
    simp only at h
    rw [acts_stream env tail chunks cs rest h, stream_behaviour env tail chunks cs rest h]
    change effsOf (actsAll env tail rest 0 cs) = _
    have : ∀ (k : Nat), (∀ c ∈ cs, Taken c) → effsOf (actsAll env tail rest k cs) = (reactAll env tail rest k cs).1 := by
      clear h
      induction cs with
      | nil => intro k _; exact effsOf_logs _
      | cons c cs ih =>
        intro k ht
        unfold actsAll reactAll
        rw [effsOf_append, packet_effs _ _ c (taken_ten (ht c (by simp)))]
        cases react (env.now k) (env.spare k) c with
        | none => rfl
        | some l => simp only [Option.getD_some]; rw [ih (k + 1) fun x hx => ht x (by simp [hx])]
    exact this 0 h.taken

/-! ### the messages of the records -/

theorem subStepLog_debug (pid : UInt16) (s : ScanSt) (rd : RecordData) : ∀ m ∈ subStepLog pid s rd, m.level = .debug := by
  intro m hm
  unfold subStepLog at hm
  rw [createSrResultCode_eq] at hm
  simp only [resultLog] at hm
  split at hm
  all_goals first | (split at hm) | skip
  all_goals simp only [List.mem_singleton, List.not_mem_nil] at hm
  all_goals (subst hm; rfl)

theorem subLoopLog_debug (pid : UInt16) (s : ScanSt) (rds : List RecordData) : ∀ m ∈ subLoopLog pid s rds, m.level = .debug := by
  induction rds generalizing s with
  | nil => intro m hm; simp [subLoopLog] at hm
  | cons rd rds ih =>
    intro m hm
    unfold subLoopLog at hm
    rcases List.mem_append.mp hm with h | h
    · exact subStepLog_debug pid s rd m h
    · split at h
      · exact ih _ m h
      · simp at h

omit P in
theorem printed_debug {l : List LogMsg} (h : ∀ m ∈ l, m.level = .debug) : printedAt .info l = [] := by
  unfold printedAt
  rw [List.filter_eq_nil_iff]
  intro m hm
  rw [h m hm]
  decide

omit P in
theorem printed_append (lv : LogLevel) (a b : List LogMsg) : printedAt lv (a ++ b) = printedAt lv a ++ printedAt lv b := List.filter_append ..

theorem recLoopLog_info (pid : UInt16) (s : ScanSt) (l : List ServiceDataRecord) :
    printedAt .info (recLoopLog pid s l) = (lookedAt l).map fun r => .service r.SourceServiceType := by
  induction l generalizing s with
  | nil => rfl
  | cons r l ih =>
    unfold recLoopLog lookedAt
    rw [List.cons_append]
    have hcons : ∀ x : List LogMsg, printedAt .info (.service r.SourceServiceType :: x) = .service r.SourceServiceType :: printedAt .info x := fun _ => rfl
    rw [hcons, printed_append, printed_debug (subLoopLog_debug pid _ _), List.nil_append]
    by_cases hr : (r.RecordDataSet.filterMap (·.SubrecordData)).any (·.isResponse) = true
    · rw [if_pos hr]
      obtain ⟨v, hv⟩ := subLoop_received pid (s.enter r) r.RecordDataSet (List.any_eq_true.mp hr)
      have : recStep pid s r = .received v := hv
      rw [this]
      rfl
    · rw [if_neg hr, recStep_eq pid s r (fun d hd => by
        cases hx : d.isResponse with
        | false => rfl
        | true => exact absurd (List.any_eq_true.mpr ⟨d, hd, hx⟩) hr)]
      simp only [List.map_cons]
      rw [ih]

/-! ### the log with a storage -/

section
variable {W : Type} (ss : List (Saver W))

/-- the storage after some actions -/
def worldOf (a : List Act) (w : W) : W := (perform ss (effsOf a) w).2

omit P in
theorem logOf_append (hp : ∀ r w, (repoSave ss r w).1 ≠ .panic) (a b : List Act) (w : W) :
    logOf ss (a ++ b) w = logOf ss a w ++ logOf ss b (worldOf ss a w) := by
  induction a generalizing w with
  | nil => rfl
  | cons x a ih =>
    cases x with
    | log m =>
      simp only [List.cons_append, logOf]
      rw [ih w]
      rfl
    | eff e =>
      cases e with
      | write o =>
        simp only [List.cons_append, logOf]
        rw [ih w]
        rfl
      | save r =>
        simp only [List.cons_append, logOf]
        have he : effsOf (.eff (.save r) :: a) = .save r :: effsOf a := rfl
        have := hp r w
        cases hr : repoSave ss r w with
        | mk ret w' =>
          rw [hr] at this
          cases ret with
          | ok => simp only [worldOf, he, perform, hr]; exact ih w'
          | err e => simp only [worldOf, he, perform, hr, List.cons_append]; rw [ih w']; rfl
          | panic => exact absurd rfl this

omit P in
theorem logOf_logs (l : List LogMsg) (w : W) : logOf ss (l.map .log) w = l := by
  induction l with
  | nil => rfl
  | cons m l ih => simp only [List.map_cons, logOf, ih]

omit P in
theorem worldOf_logs (l : List LogMsg) (w : W) : worldOf ss (l.map .log) w = w := by
  unfold worldOf; rw [effsOf_logs]; rfl

end

/-- an accepted data packet without record responses -/
theorem logOf_data {W : Type} (ss : List (Saver W)) (hp : ∀ r w, (repoSave ss r w).1 ≠ .panic)
    (now spare c : Bytes) (v : LoopVars) (p : Package) (l : ServiceDataSet) (h : Package.decode {} c spare = .ret 0 none p)
    (hb : p.ServicesFrameData = some (.appdata l)) (hn : NoResponses l) (w : W) (b : List Act) :
    logOf ss (packetActs now spare v.reset c ++ b) w = [.received, .appdata] ++ recordsLog now p.PacketIdentifier l ++
      (if (positions (subsOf l)).isEmpty then [] else refusal (repoSave ss (exportOf now p.PacketIdentifier l) w).1) ++
      [.ackSent (ackBytes p.PacketIdentifier l)] ++
      (if (subsOf l).any (·.isLogin) then [.resultSent (resultPacket p.PacketIdentifier 0)] else []) ++
      logOf ss b (if (positions (subsOf l)).isEmpty then w else (repoSave ss (exportOf now p.PacketIdentifier l) w).2) := by
  rw [acts_data now spare c v p l h hb hn]
  simp only [List.append_assoc, List.cons_append, List.nil_append, logOf]
  rw [logOf_append ss hp, logOf_logs, worldOf_logs]
  congr 3
  cases (positions (subsOf l)).isEmpty with
  | true =>
    simp only [if_true, List.nil_append, logOf]
    congr 1
    by_cases hl : (subsOf l).any (·.isLogin) = true
    · simp only [hl, if_true, List.cons_append, List.nil_append, logOf]
    · simp only [hl]; rfl
  | false =>
    have := hp (exportOf now p.PacketIdentifier l) w
    simp only [Bool.false_eq_true, if_false, List.cons_append, List.nil_append, logOf]
    cases hr : repoSave ss (exportOf now p.PacketIdentifier l) w with
    | mk ret w' =>
      rw [hr] at this
      cases ret with
      | panic => exact absurd rfl this
      | ok =>
        simp only [refusal, List.nil_append]
        congr 1
        by_cases hl : (subsOf l).any (·.isLogin) = true
        · simp only [hl, if_true, List.cons_append, List.nil_append, logOf]
        · simp only [hl]; rfl
      | err e =>
        simp only [refusal, List.cons_append, List.nil_append]
        congr 2
        by_cases hl : (subsOf l).any (·.isLogin) = true
        · simp only [hl, if_true, List.cons_append, List.nil_append, logOf]
        · simp only [hl]; rfl

omit P in
theorem printed_refusal (r : Ret) : printedAt .info (refusal r) = refusal r := by
  cases r <;> rfl

omit P in
theorem printed_endNote (lv : LogLevel) (hl : lv = .info ∨ lv = .warn) (tail : Tail) (rest : Bytes) : printedAt lv (endNote tail rest) = endNote tail rest := by
  unfold endNote
  rcases hl with rfl | rfl <;> (split <;> (try split) <;> (try split) <;> (try split) <;> rfl)

theorem actsAll_info {W : Type} (ss : List (Saver W)) (hp : ∀ r w, (repoSave ss r w).1 ≠ .panic) (env : Env) (tail : Tail) (rest : Bytes)
    (cs : List Bytes) : ∀ (k : Nat) (w : W), (∀ c ∈ cs, Taken c) →
    printedAt .info (logOf ss (actsAll env tail rest k cs) w) =
      infoLog ss env k cs w ++ if (reactAll env tail rest k cs).2 = .crashed then [] else endNote tail rest := by
  induction cs with
  | nil =>
    intro k w _
    have : (reactAll env tail rest k []).2 ≠ .crashed := by
      simp only [reactAll]; unfold lastEnd
      split
      · simp
      · cases tail
        · simp only; split <;> simp
        all_goals simp
    rw [if_neg this]
    simp only [actsAll, logOf_logs, infoLog, List.nil_append]
    exact printed_endNote _ (.inl rfl) _ _
  | cons c cs ih =>
    intro k w ht
    have h10 := taken_ten (ht c (by simp))
    have hcs : ∀ x ∈ cs, Taken x := fun x hx => ht x (by simp [hx])
    unfold actsAll
    have hrec : printedAt .info [LogMsg.received] = [] := rfl
    rcases packet_cases (env.now k) (env.spare k) c h10 with ⟨h, hr⟩ | ⟨code, e, p, h, hr⟩ | ⟨p, r, h, hb, hr⟩ | ⟨p, l, h, hb, hn, ha, hr⟩ |
      ⟨p, l, h, hb, hn, ha, hr⟩
    · have h2 : (reactAll env tail rest k (c :: cs)).2 = .crashed := by simp only [reactAll, hr]
      rw [if_pos h2, hr, acts_panic _ _ _ {} h]
      simp only [infoLog, h, List.append_nil]
      rfl
    all_goals
      have h2 : (reactAll env tail rest k (c :: cs)).2 = (reactAll env tail rest (k + 1) cs).2 := by simp only [reactAll, hr]
      rw [h2]
      simp only [hr]
    · rw [acts_rejected _ _ _ {} p code e h]
      simp only [List.cons_append, List.nil_append, logOf, infoLog, h]
      rw [← ih (k + 1) w hcs]
      rfl
    · rw [acts_response _ _ _ {} p r h hb]
      simp only [List.cons_append, List.nil_append, logOf, infoLog, h, hb]
      rw [← ih (k + 1) w hcs]
      rfl
    · rw [acts_received _ _ _ {} p l h hb hn]
      simp only [List.append_assoc, List.cons_append, List.nil_append, logOf, infoLog, h, hb, ha]
      rw [logOf_append ss hp, logOf_logs, worldOf_logs, if_pos (Or.inl trivial)]
      rw [← ih (k + 1) w hcs, ← recLoopLog_info p.PacketIdentifier]
      rw [← printed_append]
      rfl
    · rw [logOf_data ss hp _ _ _ {} p l h hb hn]
      simp only [printed_append]
      rw [ih (k + 1) _ hcs]
      simp only [infoLog, h, hb, ha]
      have hrl : printedAt .info (recordsLog (env.now k) p.PacketIdentifier l) = _ := recLoopLog_info p.PacketIdentifier _ l
      rw [hrl]
      have h0 : printedAt .info [LogMsg.received, LogMsg.appdata] = [] := rfl
      have h1 : printedAt .info [LogMsg.ackSent (ackBytes p.PacketIdentifier l)] = [] := rfl
      have h3 : printedAt .info (if (subsOf l).any (·.isLogin) then [LogMsg.resultSent (resultPacket p.PacketIdentifier 0)] else []) = [] := by
        split <;> rfl
      rw [h0, h1, h3]
      cases hpos : (positions (subsOf l)).isEmpty with
      | true => simp [printedAt]
      | false => simp [printed_refusal]

/-- C119: the whole log of a connection at level INFO (the default), for any stream and any storage that does not panic: the connection, the rejected
packets with the errors, the service of each record looked at, the records that could not be stored, and the reason of the end, in the order of the stream;
nothing else. -/
theorem log_info {W : Type} (ss : List (Saver W)) (hp : ∀ r w, (repoSave ss r w).1 ≠ .panic) (env : Env) (tail : Tail) (chunks cs : List Bytes) (rest : Bytes)
    (w : W) (h : CutInto chunks.flatten cs rest) :
    printedAt .info (logOf ss (handleConnActs env true tail chunks) w) =
      .opened :: infoLog ss env 0 cs w ++ if (handleConn env true tail chunks).2 = .crashed then [] else endNote tail rest := by
  rw [acts_stream env tail chunks cs rest h, stream_behaviour env tail chunks cs rest h]
  have := actsAll_info ss hp env tail rest cs 0 w h.taken
  rw [List.cons_append, ← this]
  rfl

omit P in
theorem printed_warn_info (l : List LogMsg) : printedAt .warn (printedAt .info l) = printedAt .warn l := by
  unfold printedAt
  rw [List.filter_filter]
  congr 1
  funext m
  cases m <;> rfl

theorem infoLog_warn {W : Type} (ss : List (Saver W)) (env : Env) (cs : List Bytes) : ∀ (k : Nat) (w : W),
    printedAt .warn (infoLog ss env k cs w) = warnLog ss env k cs w := by
  induction cs with
  | nil => intro k w; rfl
  | cons c cs ih =>
    intro k w
    unfold infoLog warnLog
    cases Package.decode {} c (env.spare k) with
    | panic => rfl
    | diverge => rfl
    | ret code e p =>
      cases e with
      | some e => simp only; rw [← ih (k + 1) w]; rfl
      | none =>
        simp only
        split
        · rename_i l _
          rw [printed_append]
          have hs : printedAt .warn ((lookedAt l).map fun r => LogMsg.service r.SourceServiceType) = [] := by
            unfold printedAt
            rw [List.filter_eq_nil_iff]
            intro m hm
            obtain ⟨r, -, rfl⟩ := List.mem_map.mp hm
            simp [LogMsg.level, LogLevel.num]
          rw [hs, List.nil_append]
          split
          · exact ih _ _
          · rw [printed_append, ih]
            congr 1
            cases (repoSave ss (exportOf (env.now k) p.PacketIdentifier l) w).1 <;> rfl
        · exact ih _ _

/-- C119: the whole log at level WARN -/
theorem log_warn {W : Type} (ss : List (Saver W)) (hp : ∀ r w, (repoSave ss r w).1 ≠ .panic) (env : Env) (tail : Tail) (chunks cs : List Bytes) (rest : Bytes)
    (w : W) (h : CutInto chunks.flatten cs rest) :
    printedAt .warn (logOf ss (handleConnActs env true tail chunks) w) =
      warnLog ss env 0 cs w ++ if (handleConn env true tail chunks).2 = .crashed then [] else endNote tail rest := by
  rw [← printed_warn_info, log_info ss hp env tail chunks cs rest w h, List.cons_append]
  have : ∀ x, printedAt .warn (LogMsg.opened :: x) = printedAt .warn x := fun _ => rfl
  rw [this, printed_append, infoLog_warn]
  congr 1
  split
  · rfl
  · exact printed_endNote _ (.inr rfl) _ _

/-! ### the size of the log -/

theorem subStepLog_length (pid : UInt16) (s : ScanSt) (rd : RecordData) : (subStepLog pid s rd).length ≤ 1 := by
  unfold subStepLog
  rw [createSrResultCode_eq]
  simp only [resultLog]
  split
  all_goals first | (split <;> simp) | simp

theorem subLoopLog_length (pid : UInt16) (rds : List RecordData) : ∀ (s : ScanSt), (subLoopLog pid s rds).length ≤ rds.length := by
  induction rds with
  | nil => intro s; simp [subLoopLog]
  | cons rd rds ih =>
    intro s
    unfold subLoopLog
    have h1 := subStepLog_length pid s rd
    rw [List.length_append, List.length_cons]
    split
    · have := ih (by assumption); omega
    · simp; omega

theorem recLoopLog_length (pid : UInt16) (l : List ServiceDataRecord) : ∀ (s : ScanSt), (recLoopLog pid s l).length ≤ l.length + subCount l := by
  induction l with
  | nil => intro s; simp [recLoopLog]
  | cons r l ih =>
    intro s
    unfold recLoopLog
    have h1 := subLoopLog_length pid r.RecordDataSet (recStart s r)
    simp only [List.cons_append, List.length_append, List.length_cons, subCount, List.map_cons, List.sum_cons]
    split
    · have := ih (by assumption); unfold subCount at this; omega
    · simp; omega

omit P in
theorem refusal_length (r : Ret) : (refusal r).length ≤ 1 := by cases r <;> simp [refusal]

omit P in
theorem endNote_length (tail : Tail) (rest : Bytes) : (endNote tail rest).length ≤ 1 := by
  unfold endNote
  split
  · simp
  · cases tail <;> simp only <;> (try split) <;> (try split) <;> simp

theorem actsAll_length {W : Type} (ss : List (Saver W)) (hp : ∀ r w, (repoSave ss r w).1 ≠ .panic) (env : Env) (tail : Tail) (rest : Bytes)
    (cs : List Bytes) : ∀ (k : Nat) (w : W), (∀ c ∈ cs, Taken c) →
    (logOf ss (actsAll env tail rest k cs) w).length ≤ cs.flatten.length + 1 := by
  induction cs with
  | nil =>
    intro k w _
    simp only [actsAll, logOf_logs, List.flatten_nil, List.length_nil, Nat.zero_add]
    exact endNote_length _ _
  | cons c cs ih =>
    intro k w ht
    have h10 := taken_ten (ht c (by simp))
    have hcs : ∀ x ∈ cs, Taken x := fun x hx => ht x (by simp [hx])
    unfold actsAll
    rw [List.flatten_cons, List.length_append]
    rcases packet_cases (env.now k) (env.spare k) c h10 with ⟨h, hr⟩ | ⟨code, e, p, h, hr⟩ | ⟨p, r, h, hb, hr⟩ | ⟨p, l, h, hb, hn, ha, hr⟩ |
      ⟨p, l, h, hb, hn, ha, hr⟩
    · rw [hr, acts_panic _ _ _ {} h]
      simp [logOf]
    all_goals simp only [hr]
    · rw [acts_rejected _ _ _ {} p code e h]
      have := ih (k + 1) w hcs
      simp only [List.cons_append, List.nil_append, logOf, List.length_cons]
      omega
    · rw [acts_response _ _ _ {} p r h hb]
      have := ih (k + 1) w hcs
      simp only [List.cons_append, List.nil_append, logOf, List.length_cons]
      omega
    · rw [acts_received _ _ _ {} p l h hb hn]
      simp only [List.cons_append, List.nil_append, logOf]
      rw [logOf_append ss hp, logOf_logs, worldOf_logs]
      have := ih (k + 1) w hcs
      have hc := accepted_subs h hb
      have hl := recLoopLog_length p.PacketIdentifier l { vars := { ({} : LoopVars).reset with isPkgSave := false }, exp := {
        ServerID := serverId, PacketID := p.PacketIdentifier.toUInt32, ReceivedDt := env.now k, LocStatesCount := 0 } }
      simp only [List.length_cons, List.length_append, recordsLog] at *
      omega
    · rw [logOf_data ss hp _ _ _ {} p l h hb hn]
      have := ih (k + 1) (if (positions (subsOf l)).isEmpty then w else (repoSave ss (exportOf (env.now k) p.PacketIdentifier l) w).2) hcs
      have hc := accepted_subs h hb
      have hl := recLoopLog_length p.PacketIdentifier l { vars := { ({} : LoopVars).reset with isPkgSave := false }, exp := {
        ServerID := serverId, PacketID := p.PacketIdentifier.toUInt32, ReceivedDt := env.now k, LocStatesCount := 0 } }
      have h1 : (if (positions (subsOf l)).isEmpty then [] else refusal (repoSave ss (exportOf (env.now k) p.PacketIdentifier l) w).1).length ≤ 1 := by
        split
        · simp
        · exact refusal_length _
      have h2 : (if (subsOf l).any (·.isLogin) then [LogMsg.resultSent (resultPacket p.PacketIdentifier 0)] else []).length ≤ 1 := by
        split <;> simp
      simp only [List.length_cons, List.length_append, recordsLog, List.length_nil] at *
      omega

omit P in
theorem printed_length (lv : LogLevel) (l : List LogMsg) : (printedAt lv l).length ≤ l.length := List.length_filter_le ..

/-- C119: a connection cannot fill the log: at any level it prints at most one message for each byte received, and two more. -/
theorem log_bounded {W : Type} (ss : List (Saver W)) (hp : ∀ r w, (repoSave ss r w).1 ≠ .panic) (env : Env) (hasStore : Bool) (tail : Tail)
    (chunks : List Bytes) (w : W) (lv : LogLevel) :
    (printedAt lv (logOf ss (handleConnActs env hasStore tail chunks) w)).length ≤ chunks.flatten.length + 2 := by
  refine le_trans (printed_length _ _) ?_
  cases hasStore with
  | false => simp [handleConnActs, logOf]
  | true =>
    obtain ⟨⟨cs, rest⟩, h, -⟩ := cut_unique chunks.flatten
    simp only at h
    rw [acts_stream env tail chunks cs rest h, h.all, List.length_append]
    have := actsAll_length ss hp env tail rest cs 0 w h.taken
    simp only [logOf, List.length_cons]
    omega

/-! ### what cannot be overlooked -/

omit P in
/-- C119: no configuration hides an error message -/
theorem errors_always_printed (s : Settings) (l : List LogMsg) (m : LogMsg) (hm : m ∈ l) (hl : m.level = .error) : m ∈ printedAt s.GetLogLevel l := by
  unfold printedAt
  rw [List.mem_filter, hl]
  refine ⟨hm, ?_⟩
  unfold Settings.GetLogLevel
  repeat' split
  all_goals decide

theorem warnLog_quiet {W : Type} (ss : List (Saver W)) (hs : ∀ r w, (repoSave ss r w).1 = .ok) (env : Env) (cs : List Bytes) :
    ∀ (k : Nat) (w : W), (∀ c ∈ cs, ∀ spare, ∃ p, Package.decode {} c spare = .ret 0 none p) → warnLog ss env k cs w = [] := by
  induction cs with
  | nil => intro k w _; rfl
  | cons c cs ih =>
    intro k w h
    obtain ⟨p, hp⟩ := h c (by simp) (env.spare k)
    have hcs : ∀ x ∈ cs, ∀ spare, ∃ p, Package.decode {} x spare = .ret 0 none p := fun x hx => h x (by simp [hx])
    unfold warnLog
    rw [hp]
    simp only
    split
    · split
      · exact ih _ _ hcs
      · rw [hs, ih _ _ hcs]; rfl
    · exact ih _ _ hcs

/-- C119: no false alarm: if every packet is accepted and everything is stored, the log at WARN tells at most why the connection has ended. -/
theorem log_quiet {W : Type} (ss : List (Saver W)) (hs : ∀ r w, (repoSave ss r w).1 = .ok) (env : Env) (tail : Tail) (chunks cs : List Bytes) (rest : Bytes)
    (w : W) (h : CutInto chunks.flatten cs rest) (ha : ∀ c ∈ cs, ∀ spare, ∃ p, Package.decode {} c spare = .ret 0 none p) :
    printedAt .warn (logOf ss (handleConnActs env true tail chunks) w) = endNote tail rest := by
  rw [log_warn ss (fun r w => by rw [hs]; simp) env tail chunks cs rest w h, warnLog_quiet ss hs env cs 0 w ha, List.nil_append]
  rw [if_neg]
  rw [stream_behaviour env tail chunks cs rest h]
  have : ∀ k, (∀ c ∈ cs, Taken c) → (reactAll env tail rest k cs).2 ≠ .crashed := by
    clear h
    induction cs with
    | nil =>
      intro k _
      simp only [reactAll]; unfold lastEnd
      split
      · simp
      · cases tail
        · simp only; split <;> simp
        all_goals simp
    | cons c cs ih =>
      intro k ht
      simp only [reactAll]
      obtain ⟨p, hp⟩ := ha c (by simp) (env.spare k)
      rcases packet_cases (env.now k) (env.spare k) c (taken_ten (ht c (by simp))) with ⟨h, hr⟩ | ⟨code, e, p, h, hr⟩ | ⟨p, r, h, hb, hr⟩ |
        ⟨p, l, h, hb, hn, ha', hr⟩ | ⟨p, l, h, hb, hn, ha', hr⟩
      · rw [hp] at h; cases h
      all_goals
        rw [hr]
        exact ih (fun x hx => ha x (by simp [hx])) (k + 1) fun x hx => ht x (by simp [hx])
  exact this 0 h.taken

omit P in
theorem printed_error_warn (l : List LogMsg) : printedAt .error (printedAt .warn l) = printedAt .error l := by
  unfold printedAt
  rw [List.filter_filter]
  congr 1
  funext m
  cases m <;> rfl

theorem warnLog_error {W : Type} (ss : List (Saver W)) (env : Env) (cs : List Bytes) : ∀ (k : Nat) (w : W),
    printedAt .error (warnLog ss env k cs w) = warnLog ss env k cs w := by
  induction cs with
  | nil => intro k w; rfl
  | cons c cs ih =>
    intro k w
    unfold warnLog
    cases Package.decode {} c (env.spare k) with
    | panic => rfl
    | diverge => rfl
    | ret code e p =>
      cases e with
      | some e =>
        simp only
        conv => rhs; rw [← ih (k + 1) w]
        rfl
      | none =>
        simp only
        split
        · rename_i l _
          split
          · exact ih _ _
          · rw [printed_append, ih]
            congr 1
            cases (repoSave ss (exportOf (env.now k) p.PacketIdentifier l) w).1 <;> rfl
        · exact ih _ _

/-- C119: even at level ERROR, the highest that can be configured, every rejected packet and every record that a storage has refused is reported, in
order, until the process crashes; then a failure to read. -/
theorem log_error {W : Type} (ss : List (Saver W)) (hp : ∀ r w, (repoSave ss r w).1 ≠ .panic) (env : Env) (tail : Tail) (chunks cs : List Bytes) (rest : Bytes)
    (w : W) (h : CutInto chunks.flatten cs rest) : ∃ last, printedAt .error (logOf ss (handleConnActs env true tail chunks) w) = warnLog ss env 0 cs w ++ last ∧
      ∀ m ∈ last, m = .readFailed ∨ m = .bodyFailed := by
  rw [← printed_error_warn, log_warn ss hp env tail chunks cs rest w h, printed_append, warnLog_error]
  refine ⟨_, rfl, ?_⟩
  intro m hm
  have hm' := List.mem_filter.mp hm
  obtain ⟨h1, h2⟩ := hm'
  split at h1
  · simp at h1
  · unfold endNote at h1
    revert h1
    split
    · intro h1; simp at h1; subst h1; simp [LogMsg.level, LogLevel.num] at h2
    · cases tail with
      | silent => intro h1; simp at h1
      | error => simp only; split <;> intro h1 <;> simp at h1 <;> simp [h1]
      | eof =>
        simp only
        split
        · intro h1; simp at h1; subst h1; simp [LogMsg.level, LogLevel.num] at h2
        · split <;> intro h1 <;> simp at h1 <;> simp [h1]

end Egts
