import Verif.Spec.Credentials
import Verif.Props.Log
import Verif.Props.Resend
import Verif.Props.Work
import Verif.Props.SubWire
set_option autoImplicit false
/- C120: what the server does with user names and passwords. -/
namespace Egts
open Frame
variable [P : Platform]

theorem subStep_alike {x y : RecordData} (h : AlikeSub x y) (pid : UInt16) (s : ScanSt) :
    subStep pid s x = subStep pid s y ∧ subStepLog pid s x = subStepLog pid s y := by
  rcases h.2 with h | ⟨a, b, h1, h2⟩
  · unfold subStep subStepLog; rw [h]; exact ⟨rfl, rfl⟩
  · unfold subStep subStepLog; rw [h1, h2]; exact ⟨rfl, rfl⟩

theorem subLoop_alike {xs ys : List RecordData} (h : List.Forall₂ AlikeSub xs ys) (pid : UInt16) : ∀ (s : ScanSt),
    subLoop pid s xs = subLoop pid s ys ∧ subLoopLog pid s xs = subLoopLog pid s ys := by
  induction h with
  | nil => intro s; exact ⟨rfl, rfl⟩
  | cons h _ ih =>
    intro s
    unfold subLoop subLoopLog
    rw [(subStep_alike h pid s).1, (subStep_alike h pid s).2]
    simp only [fun s => (ih s).1, fun s => (ih s).2, and_self]

theorem recLoop_alike {l m : List ServiceDataRecord} (h : List.Forall₂ AlikeRecord l m) (pid : UInt16) : ∀ (s : ScanSt),
    recLoop pid s l = recLoop pid s m ∧ recLoopLog pid s l = recLoopLog pid s m := by
  induction h with
  | nil => intro s; exact ⟨rfl, rfl⟩
  | @cons r t l m h _ ih =>
    intro s
    have e1 : recStart s r = recStart s t := by rw [h.1]; rfl
    have e3 : r.SourceServiceType = t.SourceServiceType := by rw [h.1]
    have e2 : recStep pid s r = recStep pid s t := by
      show subLoop pid (recStart s r) r.RecordDataSet = subLoop pid (recStart s t) t.RecordDataSet
      rw [e1, (subLoop_alike h.2 pid _).1]
    unfold recLoop recLoopLog
    rw [e1, e2, e3, (subLoop_alike h.2 pid _).2]
    simp only [fun s => (ih s).1, fun s => (ih s).2, and_self]

theorem packet_alike {c d : Bytes} (h : AlikePackets c d) (now spare : Bytes) (v : LoopVars) :
    handlePacket now spare v c = handlePacket now spare v d ∧ packetActs now spare v c = packetActs now spare v d := by
  obtain ⟨l, m, ha, h⟩ := h
  obtain ⟨p, q, hp, hq, hid, hl, hm⟩ := h spare
  have t1 := (data_facts hp hl).1
  have t2 := (data_facts hq hm).1
  unfold handlePacket packetActs
  rw [hp, hq]
  simp only [t1, t2, if_true, hl, hm, hid]
  rw [(recLoop_alike ha q.PacketIdentifier _).1, (recLoop_alike ha q.PacketIdentifier _).2]
  exact ⟨rfl, rfl⟩

theorem react_alike {c d : Bytes} (hc : 10 ≤ c.length) (hd : 10 ≤ d.length) (h : AlikePackets c d) (now spare : Bytes) :
    react now spare c = react now spare d := by
  have h1 := react_eq now spare c hc
  have h2 := react_eq now spare d hd
  rw [(packet_alike h now spare _).1, h2] at h1
  revert h1
  cases react now spare c <;> cases react now spare d <;> simp [eq_comm]

/-- C120: nothing that a client or an operator can see depends on the credentials: if the packets of two streams differ only in user names, passwords and server
sequences, the server does the same for both (answers and records, byte for byte, and the end of the connection), and logs the same. -/
theorem credentials_unused {W : Type} (ss : List (Saver W)) (env : Env) (tail : Tail) (chunks chunks' cs ds : List Bytes) (rest : Bytes) (w : W)
    (h : CutInto chunks.flatten cs rest) (h' : CutInto chunks'.flatten ds rest) (ha : List.Forall₂ (fun c d => c = d ∨ AlikePackets c d) cs ds) :
    handleConn env true tail chunks = handleConn env true tail chunks' ∧
    logOf ss (handleConnActs env true tail chunks) w = logOf ss (handleConnActs env true tail chunks') w := by
  rw [stream_behaviour env tail chunks cs rest h, stream_behaviour env tail chunks' ds rest h', acts_stream env tail chunks cs rest h,
    acts_stream env tail chunks' ds rest h']
  have hc := h.taken
  have hd := h'.taken
  clear h h'
  suffices H : ∀ k, reactAll env tail rest k cs = reactAll env tail rest k ds ∧ actsAll env tail rest k cs = actsAll env tail rest k ds by
    rw [(H 0).1, (H 0).2]; exact ⟨rfl, rfl⟩
  induction ha with
  | nil => intro k; exact ⟨rfl, rfl⟩
  | @cons c d cs ds hcd _ ih =>
    intro k
    have ih := ih (fun x hx => hc x (by simp [hx])) (fun x hx => hd x (by simp [hx])) (k + 1)
    have hr : react (env.now k) (env.spare k) c = react (env.now k) (env.spare k) d := by
      rcases hcd with rfl | hcd
      · rfl
      · exact react_alike (taken_ten (hc c (by simp))) (taken_ten (hd d (by simp))) hcd _ _
    have hp : packetActs (env.now k) (env.spare k) ({} : LoopVars).reset c = packetActs (env.now k) (env.spare k) ({} : LoopVars).reset d := by
      rcases hcd with rfl | hcd
      · rfl
      · exact (packet_alike hcd _ _ _).2
    unfold reactAll actsAll
    rw [hr, hp, ih.1, ih.2]
    exact ⟨rfl, rfl⟩

/-- C120: every login is granted: whatever the user name and the password, the answer is the acknowledgement of the packet and the result code 0 (OK). -/
theorem login_granted (env : Env) (c : Bytes) (pid : Nat) (l : List ServiceDataRecord) (h : DataPacket c pid l) (hn : NoResponses l)
    (hl : ∃ a, SubData.auth a ∈ subsOf l) :
    writesOf (handleConn env true .silent [c]).1 = [ackBytes (UInt16.ofNat pid) l, resultPacket (UInt16.ofNat pid) 0] := by
  obtain ⟨a, ha⟩ := hl
  have h1 : (subsOf l).any (·.isLogin) = true := List.any_eq_true.mpr ⟨_, ha, rfl⟩
  rw [alone_taken env c (framed_taken (data_packet_framed c pid l h)), react_data _ _ c pid l h hn]
  by_cases hp : (positions (subsOf l)).isEmpty <;> simp [writesOf, h1, hp]

/-! ### a login with any user name and password -/

/-- the content of a login -/
def loginContent (u p : Bytes) : Bytes := u ++ 0 :: (p ++ [0])

/-- a record with a login and a position -/
def loginRecord (u p : Bytes) : ServiceDataRecord := { cutRecord with
  RecordLength := UInt16.ofNat ((loginContent u p).length + 27)
  RecordDataSet := [⟨7, UInt16.ofNat (loginContent u p).length, some (.auth ⟨u, p, []⟩)⟩, ⟨16, 21, some (.pos (exFix 49))⟩] }

def loginBody (u p : Bytes) : Bytes :=
  (leBytes 2 ((loginContent u p).length + 27) ++ [1, 0, 0, 2, 2]) ++ (([7] ++ leBytes 2 (loginContent u p).length ++ loginContent u p) ++
    [16, 21, 0, 1, 0, 0, 0, 0, 0, 0, 128, 0, 0, 0, 128, 1, 0, 0, 0, 1, 0, 0, 0, 0])

/-- a packet with that record -/
def loginPacket (pid : Nat) (u p : Bytes) : Bytes := packet (dataHeader pid (loginBody u p).length) (loginBody u p)

theorem loginPacket_data (pid : Nat) (u p : Bytes) (hp : pid < 65536) (hu : (0 : UInt8) ∉ u) (hpw : (0 : UInt8) ∉ p) (hl : u.length + p.length < 65000) :
    DataPacket (loginPacket pid u p) pid [loginRecord u p] := by
  have hc : (loginContent u p).length = u.length + p.length + 2 := by simp [loginContent]; omega
  have hb : (loginBody u p).length = u.length + p.length + 36 := by simp [loginBody, leBytes_len, hc]; omega
  refine ⟨_, _, rfl, ?_, by intro h; rw [h] at hb; simp at hb, data_header pid _ hp (by omega), ?_⟩
  · simp [loginPacket, packet, dataHeader, leBytes_len, hb]; omega
  · have h16 : (UInt16.ofNat ((loginContent u p).length + 27)).toNat = (loginContent u p).length + 27 := UInt16.toNat_ofNat_of_lt' (by rw [hc]; show _ < 65536; omega)
    have h17 : (UInt16.ofNat (loginContent u p).length).toNat = (loginContent u p).length := UInt16.toNat_ofNat_of_lt' (by rw [hc]; show _ < 65536; omega)
    have hh := cut_header (UInt16.ofNat ((loginContent u p).length + 27)) (loginRecord u p).RecordDataSet
    rw [h16] at hh
    have := CompleteRecords.cons (r := loginRecord u p) (rest := []) hh
      (data := ([7] ++ leBytes 2 (loginContent u p).length ++ loginContent u p) ++
        [16, 21, 0, 1, 0, 0, 0, 0, 0, 0, 128, 0, 0, 0, 128, 1, 0, 0, 0, 1, 0, 0, 0, 0])
      (by show _ = (UInt16.ofNat ((loginContent u p).length + 27)).toNat
          rw [h16]; simp [leBytes_len]; omega)
      (by
        refine .cons ⟨loginContent u p, .auth ⟨u, p, []⟩, rfl, h17.symm, rfl, rfl, (auth_wire _ _).2 ⟨hu, hpw, .inl ⟨rfl, rfl⟩⟩⟩ ?_
        refine .cons (rest := []) ⟨[1, 0, 0, 0, 0, 0, 0, 128, 0, 0, 0, 128, 1, 0, 0, 0, 1, 0, 0, 0, 0], .pos (exFix 49), by simp [leBytes], rfl, rfl, rfl, ?_⟩ .nil
        kernel_rfl) .nil
    rw [List.append_nil] at this
    exact this

theorem login_noResponses (u p : Bytes) : NoResponses [loginRecord u p] := by
  intro d hd
  have : d = .auth ⟨u, p, []⟩ ∨ d = .pos (exFix 49) := by simpa [subsOf, loginRecord] using hd
  rcases this with rfl | rfl <;> rfl

/-- any two logins are alike -/
theorem login_alike (pid : Nat) (u p u' p' : Bytes) (hp : pid < 65536) (hu : (0 : UInt8) ∉ u) (hpw : (0 : UInt8) ∉ p) (hl : u.length + p.length < 65000)
    (hu' : (0 : UInt8) ∉ u') (hpw' : (0 : UInt8) ∉ p') (hl' : u'.length + p'.length < 65000) :
    AlikePackets (loginPacket pid u p) (loginPacket pid u' p') := by
  refine ⟨[loginRecord u p], [loginRecord u' p'], .cons ⟨rfl, .cons ⟨rfl, .inr ⟨_, _, rfl, rfl⟩⟩ (.cons ⟨rfl, .inl rfl⟩ .nil)⟩ .nil, fun spare => ?_⟩
  obtain ⟨q, h1, h2, h3, -⟩ := data_packet_accepted _ _ _ (loginPacket_data pid u p hp hu hpw hl) {} spare
  obtain ⟨q', h1', h2', h3', -⟩ := data_packet_accepted _ _ _ (loginPacket_data pid u' p' hp hu' hpw' hl') {} spare
  exact ⟨q, q', h1, h1', UInt16.toNat_inj.mp (h3.trans h3'.symm), h2, h2'⟩

/-- C120 is false of the code in its first part, that only a client that has logged in with the right credentials can store records: whatever the right credentials
are, a client with other ones is told that its login has succeeded, and its position is stored; -/
theorem wrong_password_stores (env : Env) (pid : Nat) (u p : Bytes) (hp : pid < 65536) (hu : (0 : UInt8) ∉ u) (hpw : (0 : UInt8) ∉ p)
    (hl : u.length + p.length < 65000) :
    writesOf (handleConn env true .silent [loginPacket pid u p]).1 =
      [ackBytes (UInt16.ofNat pid) [loginRecord u p], resultPacket (UInt16.ofNat pid) 0] ∧
    ∃ r, savesOf (handleConn env true .silent [loginPacket pid u p]).1 = [r] ∧ r.LocStates = [locOf (exFix 49)] := by
  have hd := loginPacket_data pid u p hp hu hpw hl
  refine ⟨login_granted env _ pid _ hd (login_noResponses u p) ⟨⟨u, p, []⟩, by simp [subsOf, loginRecord]⟩, ?_⟩
  rw [saves_data env _ pid _ hd (login_noResponses u p), if_neg (by simp [positions, subsOf, loginRecord, SubData.pos?])]
  exact ⟨_, rfl, rfl⟩

/-- and so is the position of a client that has not logged in at all. -/
theorem no_login_stores (env : Env) : (subsOf [exFixRecord 49]).any (·.isLogin) = false ∧ DataPacket (fixPacket 9 1) 9 [exFixRecord 49] ∧
    ∃ r, savesOf (handleConn env true .silent [fixPacket 9 1]).1 = [r] ∧ r.LocStates = [locOf (exFix 49)] := by
  have hd : DataPacket (fixPacket 9 1) 9 [exFixRecord 49] := fixPacket_data 9 1 49 (.inr ⟨rfl, rfl⟩)
  refine ⟨rfl, hd, ?_⟩
  rw [saves_data env _ 9 _ hd (exFix_noResponses _), if_neg (by simp [positions, subsOf, exFixRecord, SubData.pos?])]
  exact ⟨_, rfl, rfl⟩

/-- two clients with different passwords of different lengths, whose packets are cut differently by the network: the same answers and records -/
example (env : Env) : handleConn env true .silent [(loginPacket 7 [97] [98]).take 5, (loginPacket 7 [97] [98]).drop 5] =
    handleConn env true .silent [loginPacket 7 [97, 98, 99] [49, 50, 51, 52]] := by
  have hcut : ∀ u p : Bytes, (0 : UInt8) ∉ u → (0 : UInt8) ∉ p → u.length + p.length < 65000 → CutInto (loginPacket 7 u p) [loginPacket 7 u p] [] :=
    fun u p hu hp hl => ⟨by simp, by simpa using framed_taken (data_packet_framed _ _ _ (loginPacket_data 7 u p (by decide) hu hp hl)), .inl (by simp)⟩
  refine (credentials_unused ([] : List (Saver Unit)) env .silent _ _ _ _ [] () (by simpa using hcut [97] [98] (by decide) (by decide) (by decide))
    (by simpa using hcut [97, 98, 99] [49, 50, 51, 52] (by decide) (by decide) (by decide)) (.cons (.inr ?_) .nil)).1
  exact login_alike 7 _ _ _ _ (by decide) (by decide) (by decide) (by decide) (by decide) (by decide) (by decide)

end Egts
