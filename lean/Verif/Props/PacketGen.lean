import Verif.Props.Library
import Verif.Props.PackageEx
import Verif.Props.Config
import Verif.Model.PacketGen
import Verif.Lemmas.KernelRfl
set_option autoImplicit false
/- C55, C56 and the exit status of packet-gen. -/
namespace Egts
open Frame
variable [P : Platform]

/-- arguments in their ranges on the wire -/
structure GenArgs.Valid (a : GenArgs) : Prop where
  pid : 1 ≤ a.pid.toInt ∧ a.pid.toInt < 65536
  oid : 1 ≤ a.oid.toInt ∧ a.oid.toInt < 4294967296
  liquid : 0 ≤ a.liquid.toInt ∧ a.liquid.toInt < 4294967296
  lat : 0 ≤ a.lat ∧ a.lat ≤ 90
  lon : 0 ≤ a.lon ∧ a.lon ≤ 180
  ts : a.ts ≠ []

/-- the surroundings let the program come to the point where it waits for the answer -/
structure GenNet.Up (net : GenNet) (a : GenArgs) : Prop where
  parsed : (net.parsed a.ts).isSome
  resolves : net.resolves = true
  dials : net.dials = true
  writes : net.writes = true

omit P in
theorem int64_toUInt64 (x : Int64) (h : 0 ≤ x.toInt) : (x.toUInt64.toNat : Int) = x.toInt := by
  have h1 : x.toUInt64.toNat = x.toBitVec.toNat := rfl
  have h2 : x.toInt = x.toBitVec.toInt := rfl
  rw [h1, h2]
  rw [h2] at h
  rw [BitVec.toInt_eq_toNat_cond] at h ⊢
  split at h
  · simp_all
  · omega

omit P in
theorem GenArgs.pid16_eq (a : GenArgs) (h : a.Valid) : (a.pid16.toNat : Int) = a.pid.toInt := by
  have h1 := int64_toUInt64 a.pid (by have := h.pid; omega)
  have h2 := h.pid
  unfold GenArgs.pid16
  rw [UInt64.toNat_toUInt16]
  omega

omit P in
theorem GenArgs.oid32_eq (a : GenArgs) (h : a.Valid) : (a.oid32.toNat : Int) = a.oid.toInt := by
  have h1 := int64_toUInt64 a.oid (by have := h.oid; omega)
  have h2 := h.oid
  unfold GenArgs.oid32
  rw [UInt64.toNat_toUInt32]
  omega

omit P in
theorem GenArgs.liquid32_eq (a : GenArgs) (h : a.Valid) : (a.liquid32.toNat : Int) = a.liquid.toInt := by
  have h1 := int64_toUInt64 a.liquid (by have := h.liquid; omega)
  have h2 := h.liquid
  unfold GenArgs.liquid32
  rw [UInt64.toNat_toUInt32]
  omega

theorem gen_pos_encode (a : GenArgs) : ∃ b, a.pos.encode = .ok b ∧ b.length = 24 := by
  unfold SrPosData.encode
  have hf : parseFlags (a.pos.ALTE ++ a.pos.LOHS ++ a.pos.LAHS ++ a.pos.MV ++ a.pos.BB ++ a.pos.CS ++ a.pos.FIX ++ a.pos.VLD) = .ok 155 := by
    show parseFlags [49, 48, 48, 49, 49, 48, 49, 49] = .ok 155
    decide +kernel
  rw [hf]
  have ha : a.pos.ALTE = [49] := rfl
  refine ⟨_, rfl, ?_⟩
  rw [ha]
  simp [length_le32, length_le16]

omit P in
theorem gen_liquid_encode (a : GenArgs) : ∃ b, a.liquidSensor.encode = .ok b ∧ b.length = 7 := by
  unfold SrLiquidLevelSensor.encode
  have hf : parseFlags ([48] ++ a.liquidSensor.LiquidLevelSensorErrorFlag ++ a.liquidSensor.LiquidLevelSensorValueUnit
    ++ a.liquidSensor.RawDataFlag ++ fmtBin 3 a.liquidSensor.LiquidLevelSensorNumber.toNat) = .ok 65 := by
    show parseFlags ([48] ++ [49] ++ [48, 48] ++ [48] ++ fmtBin 3 1) = .ok 65
    decide +kernel
  rw [hf]
  refine ⟨_, rfl, ?_⟩
  simp [length_le32, length_le16]

theorem gen_pos_wf (a : GenArgs) (h : a.Valid) : (SubData.pos a.pos : SubData).WellFormed := by
  refine ⟨⟨?_, ?_, ?_, ?_, ?_, ?_⟩, ?_, ?_, rfl, ⟨351477040, by norm_num, rfl⟩, h.lat, h.lon⟩
  · simp [SrPosData.FlagsOk, IsBit, GenArgs.pos]
  · show (34 : UInt16).toNat * 10 < _; decide
  · exact .inl rfl
  · exact .inl rfl
  · show (191 : UInt32).toNat < _; decide
  · show (30 : UInt32).toNat < _; decide
  · intro h
    have : (0 : UInt8) = 1 := h
    cases this
  · intro h; exact absurd rfl h

theorem gen_rds_encode (a : GenArgs) : ∃ b, RecordDataSet.encode a.record.RecordDataSet = .ok b ∧ b.length = 37 := by
  obtain ⟨b1, h1, l1⟩ := gen_pos_encode a
  obtain ⟨b2, h2, l2⟩ := gen_liquid_encode a
  have e1 : RecordData.encode ⟨16, 0, some (.pos a.pos)⟩ = .ok ([16] ++ le16 (len16 b1) ++ b1) :=
    rd_encode_eq _ _ 16 (len16 b1) _ rfl rfl (by
      show lengthOf a.pos.encode = _
      rw [h1]; rfl) h1
  have e2 : RecordData.encode ⟨27, 0, some (.liquid a.liquidSensor)⟩ = .ok ([27] ++ le16 (len16 b2) ++ b2) :=
    rd_encode_eq _ _ 27 (len16 b2) _ rfl rfl (by
      show lengthOf a.liquidSensor.encode = _
      rw [h2]; rfl) h2
  refine ⟨[16] ++ le16 (len16 b1) ++ b1 ++ ([27] ++ le16 (len16 b2) ++ b2 ++ []), ?_, ?_⟩
  · show RecordDataSet.encode [_, _] = _
    simp only [RecordDataSet.encode, encodeAll, e1, e2, Go.ok_bind, Go.pure_def]
  · simp [length_le16, l1, l2]

theorem gen_record_encode (a : GenArgs) : ∃ b, a.record.encode = .ok b ∧ b.length = 52 := by
  obtain ⟨b, hb, hl⟩ := gen_rds_encode a
  unfold ServiceDataRecord.encode
  rw [hb]
  have hf : parseFlags (a.record.SourceServiceOnDevice ++ a.record.RecipientServiceOnDevice ++ a.record.Group
    ++ a.record.RecordProcessingPriority ++ a.record.TimeFieldExists ++ a.record.EventIDFieldExists
    ++ a.record.ObjectIDFieldExists) = .ok 19 := by
    show parseFlags [48, 48, 48, 49, 48, 48, 49, 49] = .ok 19
    decide +kernel
  simp only [Go.ok_bind, hf]
  refine ⟨_, rfl, ?_⟩
  have h1 : a.record.ObjectIDFieldExists = [49] := rfl
  have h2 : a.record.EventIDFieldExists = [49] := rfl
  have h3 : a.record.TimeFieldExists = [48] := rfl
  rw [h1, h2, h3]
  simp [length_le32, length_le16, hl]

theorem gen_body (a : GenArgs) (b : Bytes) (h : a.package.HasBody b) : b.length = 52 := by
  obtain ⟨b1, h1, l1⟩ := gen_record_encode a
  have h2 : ServiceDataSet.encode [a.record] = .ok b := h
  simp only [ServiceDataSet.encode, encodeAll, h1, Go.ok_bind, Go.pure_def, List.append_nil] at h2
  rw [← Go.ok.inj h2, l1]

theorem gen_wf (a : GenArgs) (h : a.Valid) : a.package.WellFormed := by
  obtain ⟨b1, h1, l1⟩ := gen_pos_encode a
  obtain ⟨b2, h2, l2⟩ := gen_liquid_encode a
  refine ⟨⟨⟨_, _, isBit0, isBit0, rfl⟩, isBit0, ⟨_, _, isBit0, isBit0, rfl⟩, isBit0, ⟨_, _, isBit1, isBit0, rfl⟩⟩, .inr rfl,
    .inl ⟨rfl, _, rfl, by simp, ?_⟩, ?_⟩
  · intro e he
    rw [List.mem_singleton.mp he]
    refine ⟨⟨isBit0, isBit0, isBit0, ⟨_, _, isBit1, isBit0, rfl⟩, isBit0, isBit1, isBit1⟩, ?_, ?_⟩
    · obtain ⟨b, hb, hl⟩ := gen_rds_encode a
      exact ⟨b, hb, by omega, .inl rfl⟩
    · intro rd hrd
      have : rd = ⟨16, 0, some (.pos a.pos)⟩ ∨ rd = ⟨27, 0, some (.liquid a.liquidSensor)⟩ := by
        simpa [GenArgs.record] using hrd
      rcases this with rfl | rfl
      · exact ⟨⟨_, rfl, .inl rfl⟩, ⟨_, b1, rfl, h1, by omega, .inl rfl⟩, _, rfl, gen_pos_wf a h⟩
      · exact ⟨⟨_, rfl, .inl rfl⟩, ⟨_, b2, rfl, h2, by omega, .inl rfl⟩, _, rfl, isBit1, ⟨_, _, isBit0, isBit0, rfl⟩, isBit0, by show (1 : UInt8).toNat < 8; decide⟩
  · intro b hb
    have h11 : a.package.headerBytes = 11 := rfl
    rw [gen_body a b hb, h11]
    decide

/-- Encode leaves the packet identifier in place -/
theorem encode_keeps_pid (p q : Package) (out : Bytes) (h : p.encode = .ok (out, q)) : q.PacketIdentifier = p.PacketIdentifier := by
  unfold Package.encode at h
  cases hp : parseFlags (p.Prefix ++ p.Route ++ p.EncryptionAlg ++ p.Compression ++ p.Priority) with
  | err e => rw [hp] at h; simp at h
  | panic => rw [hp] at h; simp at h
  | ok fl =>
    rw [hp] at h
    simp only [Go.ok_bind] at h
    cases hs : p.ServicesFrameData with
    | none =>
      simp only [hs, Go.ok_bind, Go.pure_def] at h
      split at h
      · rw [← (Prod.mk.inj (Go.ok.inj h)).2]
      · rw [← (Prod.mk.inj (Go.ok.inj h)).2]
    | some body =>
      simp only [hs] at h
      cases hb : body.encode with
      | err e => rw [hb] at h; simp at h
      | panic => rw [hb] at h; simp at h
      | ok sfrd =>
        simp only [hb, Go.ok_bind, Go.pure_def] at h
        split at h
        · rw [← (Prod.mk.inj (Go.ok.inj h)).2]
        · rw [← (Prod.mk.inj (Go.ok.inj h)).2]

/-- packet-gen accepts an answer that confirms its packet -/
theorem checkAck_answers (ack : Bytes) (pid : UInt16) (rns : List UInt16) (hne : rns ≠ []) (h : Answers ack pid 0 rns) (spare : Bytes) :
    checkAck pid (Package.decode {} ack spare) = .exit .done 1 := by
  obtain ⟨q, r, hd, -, hb, h1, h2, -, h4⟩ := h.2.2 spare
  obtain ⟨rec, h5, h6⟩ := h4 hne
  rw [hd]
  unfold checkAck
  simp only [hb, h1, h2, h5]
  have : (ackStatuses [rec]).find? (· ≠ 0) = none := by
    rw [List.find?_eq_none]
    intro x hx
    unfold ackStatuses at hx
    simp only [List.flatMap_cons, List.flatMap_nil, List.append_nil, h6] at hx
    rw [List.mem_filterMap] at hx
    obtain ⟨rd, hrd, hx⟩ := hx
    obtain ⟨rn, -, rfl⟩ := List.mem_map.mp hrd
    simp at hx
    simp [← hx]
  rw [this]
  simp

omit P in
theorem readAck_whole (timeout : Int64) (delay : Nat) (b : Bytes) (hb : b.length ≤ 1024)
    (h1 : timeout.toInt * 1000000000 ≤ 9223372036854775807) (h2 : (delay : Int) < timeout.toInt * 1000000000) :
    readAck timeout (some (delay, b)) = some b := by
  have ht : (timeout * 1000000000).toInt = timeout.toInt * 1000000000 := conn_ttl_seconds { ConnTTl := timeout } (by show _ ≤ timeout.toInt * 1000000000; omega) h1
  unfold readAck
  simp only [ht]
  rw [if_neg (by omega), if_pos h2, List.take_of_length_le hb]

/-- C55: for arguments in their ranges packet-gen sends a packet for which the server, however it is split into reads, saves exactly one
record, with the given object and packet identifiers, the given position up to the resolution of the wire format, and the given liquid level,
and sends exactly one answer; and packet-gen, if it reads that answer within its timeout, reports success. -/
theorem gen_end_to_end (a : GenArgs) (h : a.Valid) (env : Env) :
    ∃ sent, (∀ net : GenNet, net.Up a → (genMain a net).1 = some sent) ∧ ∀ chunks : List Bytes, chunks.flatten = sent →
      ∃ effects r ack s, handleConn env true .silent chunks = (effects, .waiting) ∧ savesOf effects = [r] ∧ writesOf effects = [ack] ∧
        (r.ClientID.toNat : Int) = a.oid.toInt ∧ (r.PacketID.toNat : Int) = a.pid.toInt ∧ r.LocStates = [s] ∧ s.Speed = 34 ∧
        |s.Latitude - a.lat| ≤ 90 / fullScale + 90 / 2 ^ 51 ∧ |s.Longitude - a.lon| ≤ 180 / fullScale + 180 / 2 ^ 51 ∧
        (∃ q, r.LiquidSensors = [q] ∧ q.SensorNumber = 1 ∧ q.ModuleNumber = 1 ∧ (q.ValueMm.toNat : Int) = a.liquid.toInt) ∧
        r.AnSensors = [] ∧
        ∀ (net : GenNet) (delay : Nat), net.Up a → net.reply = some (delay, ack) → (delay : Int) < a.timeout.toInt * 1000000000 →
          a.timeout.toInt * 1000000000 ≤ 9223372036854775807 → (genMain a net).2 = .exit .done 1 := by
  obtain ⟨out, q, he, hf, hall⟩ := library_to_server env a.package [a.record] (gen_wf a h) rfl rfl
    (by
      intro d hd
      have : d = .pos a.pos ∨ d = .liquid a.liquidSensor := by simpa [subsOf, GenArgs.record] using hd
      rcases this with rfl | rfl <;> rfl)
    (by
      intro b hb
      have h11 : a.package.headerBytes = 11 := rfl
      rw [gen_body a b hb, h11]
      decide)
  have hq : q.PacketIdentifier = a.pid16 := encode_keeps_pid _ _ _ he
  have hpid : a.pid ≠ 0 := by
    intro h0
    have := h.pid.1
    rw [h0] at this
    exact absurd this (by decide)
  have hoid : a.oid ≠ 0 := by
    intro h0
    have := h.oid.1
    rw [h0] at this
    exact absurd this (by decide)
  have hmain : ∀ net : GenNet, net.Up a → genMain a net = match readAck a.timeout net.reply with
        | none => (some out, .exit .readFailed 1)
        | some b => (some out, checkAck q.PacketIdentifier (Package.decode {} b (zeros (1024 - b.length)))) := by
    intro net hn
    unfold genMain
    obtain ⟨t, ht⟩ := Option.isSome_iff_exists.mp hn.parsed
    rw [if_neg hpid, if_neg hoid, if_neg h.ts, ht]
    simp only [he, hn.resolves, hn.dials, hn.writes]
    rfl
  refine ⟨out, ?_, ?_⟩
  · intro net hn
    rw [hmain net hn]
    cases readAck a.timeout net.reply <;> rfl
  · intro chunks hch
    obtain ⟨effects, ack, more, h1, h2, h3, h4, -, h6⟩ := hall chunks hch
    have hpos : positions (subsOf [a.record]) = [a.pos] := rfl
    obtain ⟨r, hr, hrep⟩ := h6 (by rw [hpos]; simp)
    have hmore : more = [] := h4 (by
      intro d hd
      have : d = .pos a.pos ∨ d = .liquid a.liquidSensor := by simpa [subsOf, GenArgs.record] using hd
      rcases this with rfl | rfl <;> rfl)
    have hloc := hrep.locations
    rw [hpos] at hloc
    obtain ⟨s, ls, hs1, hs2, hs3⟩ := List.forall₂_cons_left_iff.mp hloc
    obtain rfl := List.forall₂_nil_left_iff.mp hs2
    obtain ⟨rec, hrec, hcl⟩ := hrep.client
    obtain rfl : a.record = rec := by simpa using hrec
    refine ⟨effects, r, ack, s, h1, hr, by rw [h2, hmore], ?_, ?_, hs3, hs1.2.2.1, hs1.1, hs1.2.1, ⟨_, hrep.liquid, rfl, rfl, ?_⟩, ?_, ?_⟩
    · rw [hcl, ← a.oid32_eq h]; rfl
    · rw [hrep.number (by intro rec hrec; rw [List.mem_singleton.mp hrec]; rfl), ← a.pid16_eq h]; rfl
    · rw [← a.liquid32_eq h]; rfl
    · rw [hrep.analog]; rfl
    · intro net delay hn hrep' hd hto
      rw [hmain net hn, hrep', readAck_whole _ _ _ (by have := h3.2.1; simp at this; omega) hto hd]
      simp only [hq]
      exact checkAck_answers ack a.pid16 [1] (by simp) h3 _

/-- arguments as in the example of the documentation (with a timeout), in their ranges (test of the hypotheses) -/
def exArgs : GenArgs := { pid := 1, oid := 12, ts := [50, 48, 50, 49], lat := 45, lon := 60, liquid := 700, timeout := 5 }

omit P in
theorem exArgs_valid : exArgs.Valid :=
  ⟨by decide, by decide, by decide, by constructor <;> norm_num [exArgs], by constructor <;> norm_num [exArgs], by decide⟩

example (env : Env) : ∃ sent ack, ∀ delay : Nat, delay < 5000000000 →
    genMain exArgs { parsed := fun _ => some 0, reply := some (delay, ack) } = (some sent, .exit .done 1) := by
  obtain ⟨sent, h1, h2⟩ := gen_end_to_end exArgs exArgs_valid env
  obtain ⟨effects, r, ack, s, -, -, -, -, -, -, -, -, -, -, -, h⟩ := h2 [sent] (by simp)
  refine ⟨sent, ack, fun delay hd => ?_⟩
  have e : exArgs.timeout.toInt = 5 := by decide
  exact Prod.ext (h1 _ ⟨rfl, rfl, rfl, rfl⟩) (h _ delay ⟨rfl, rfl, rfl, rfl⟩ rfl (by rw [e]; omega) (by rw [e]; decide))

/-! ### C56 -/

/-- C56 is false of the code: whatever time is given by -time, the record saved for the packet of packet-gen has the time 2021-02-20T00:30:40Z
(1613781040 s after 1970). -/
theorem gen_time_ignored (a : GenArgs) (h : a.Valid) (env : Env) (net : GenNet) (hn : net.Up a) :
    ∃ sent r, (genMain a net).1 = some sent ∧ savesOf (handleConn env true .silent [sent]).1 = [r] ∧ r.NavigationTimestamp = 1613781040 := by
  obtain ⟨out, q, he, hf, hall⟩ := library_to_server env a.package [a.record] (gen_wf a h) rfl rfl
    (by
      intro d hd
      have : d = .pos a.pos ∨ d = .liquid a.liquidSensor := by simpa [subsOf, GenArgs.record] using hd
      rcases this with rfl | rfl <;> rfl)
    (by
      intro b hb
      have h11 : a.package.headerBytes = 11 := rfl
      rw [gen_body a b hb, h11]
      decide)
  obtain ⟨sent, hs, -⟩ := gen_end_to_end a h env
  have hs' := hs net hn
  have : sent = out := by
    obtain ⟨t, ht⟩ := Option.isSome_iff_exists.mp hn.parsed
    unfold genMain at hs'
    have hpid : a.pid ≠ 0 := by
      intro h0
      have := h.pid.1
      rw [h0] at this
      exact absurd this (by decide)
    have hoid : a.oid ≠ 0 := by
      intro h0
      have := h.oid.1
      rw [h0] at this
      exact absurd this (by decide)
    rw [if_neg hpid, if_neg hoid, if_neg h.ts, ht] at hs'
    simp only [he, hn.resolves, hn.dials, hn.writes] at hs'
    cases hr : readAck a.timeout net.reply with
    | none => rw [hr] at hs'; simpa using hs'.symm
    | some b => rw [hr] at hs'; simpa using hs'.symm
  subst this
  obtain ⟨effects, ack, more, h1, -, -, -, -, h6⟩ := hall [sent] (by simp)
  have hpos : positions (subsOf [a.record]) = [a.pos] := rfl
  obtain ⟨r, hr, hrep⟩ := h6 (by rw [hpos]; simp)
  obtain ⟨p, hp, ht⟩ := hrep.time
  rw [hpos] at hp
  obtain rfl : a.pos = p := by simpa using hp
  refine ⟨sent, r, hs', by rw [h1, hr], ?_⟩
  rw [ht]
  have : a.pos.NavigationTime = 351477040 * 1000000000 := rfl
  rw [this]
  decide

/-- C56 (partial): the packet carries the given time exactly if that time is the second 2021-02-20T00:30:40Z. Missing: all other times. -/
theorem gen_time_partial (a : GenArgs) (h : a.Valid) (env : Env) (net : GenNet) (hn : net.Up a) (t : Int)
    (_ : net.parsed a.ts = some t) :
    ∃ sent r, (genMain a net).1 = some sent ∧ savesOf (handleConn env true .silent [sent]).1 = [r] ∧
      (r.NavigationTimestamp = unixOf t ↔ 351477040 * 1000000000 ≤ t ∧ t < 351477041 * 1000000000) := by
  obtain ⟨sent, r, h1, h2, h3⟩ := gen_time_ignored a h env net hn
  refine ⟨sent, r, h1, h2, ?_⟩
  rw [h3]
  unfold unixOf
  omega

/-! ### C62: exit status -/

/-- C62 is false of the code: whatever happens, a run of packet-gen that ends does so with exit status 1, also after the message that the packet was
sent and processed. -/
theorem gen_exit_status (a : GenArgs) (net : GenNet) (m : GenMsg) (s : Nat) (h : (genMain a net).2 = .exit m s) : s = 1 := by
  have hc : ∀ (p : UInt16) (o : PkgOut), checkAck p o = .exit m s → s = 1 := by
    intro p o ho
    unfold checkAck at ho
    repeat' split at ho
    all_goals first | (cases ho; rfl) | cases ho
  unfold genMain at h
  repeat' split at h
  all_goals first | exact hc _ _ h | (cases h; rfl) | cases h

/-- C62 is false of the code: a successful run has exit status 1. -/
theorem gen_success_status (env : Env) : ∃ ack, (genMain exArgs { parsed := fun _ => some 0, reply := some (1000, ack) }).2 = .exit .done 1 := by
  obtain ⟨sent, h1, h2⟩ := gen_end_to_end exArgs exArgs_valid env
  obtain ⟨effects, r, ack, s, -, -, -, -, -, -, -, -, -, -, -, h⟩ := h2 [sent] (by simp)
  have e : exArgs.timeout.toInt = 5 := by decide
  exact ⟨ack, h _ 1000 ⟨rfl, rfl, rfl, rfl⟩ rfl (by rw [e]; decide) (by rw [e]; decide)⟩

/-- C62 (partial): every run that ends with another message than success has a non-zero exit status, and no run loops for ever. Missing: status 0
after success, which the code does not give. -/
theorem gen_failure_status_partial (a : GenArgs) (net : GenNet) :
    (∀ m s, (genMain a net).2 = .exit m s → m ≠ .done → s ≠ 0) ∧ (genMain a net).2 ≠ .hang := by
  constructor
  · intro m s h _
    rw [gen_exit_status a net m s h]
    decide
  · have hc : ∀ (p : UInt16) (c spare : Bytes), checkAck p (Package.decode {} c spare) ≠ .hang := by
      intro p c spare ho
      have hd := decode_terminates {} c spare
      unfold checkAck at ho
      repeat' split at ho
      all_goals first | (rename_i hx; exact hd hx) | cases ho
    intro h
    unfold genMain at h
    repeat' split at h
    all_goals first | exact hc _ _ _ h | cases h

/-! ### C63: the default timeout -/

/-- C63 is false of the code: without -timeout packet-gen does not wait for an answer: it sends the packet and reports a failed read, whatever the
server answers and however fast. -/
theorem gen_default_timeout (a : GenArgs) (h : a.Valid) (ht : a.timeout = 0) (net : GenNet) (hn : net.Up a) :
    (genMain a net).2 = .exit .readFailed 1 := by
  have hpid : a.pid ≠ 0 := by
    intro h0
    have := h.pid.1
    rw [h0] at this
    exact absurd this (by decide)
  have hoid : a.oid ≠ 0 := by
    intro h0
    have := h.oid.1
    rw [h0] at this
    exact absurd this (by decide)
  obtain ⟨t, hp⟩ := Option.isSome_iff_exists.mp hn.parsed
  obtain ⟨out, q, -, -, -, he, -⟩ := package_roundtrip a.package (gen_wf a h) []
  have hr : readAck a.timeout net.reply = none := by
    unfold readAck
    rw [ht]
    cases net.reply with
    | none => rfl
    | some x => exact if_pos (by decide)
  unfold genMain
  rw [if_neg hpid, if_neg hoid, if_neg h.ts, hp]
  simp only [he, hn.resolves, hn.dials, hn.writes, hr]
  rfl

/-- C63 (partial): with -timeout n packet-gen waits up to n seconds: an answer that arrives before is read, one that does not is reported as a failed
read. Missing: the documented default of 5 seconds. -/
theorem gen_timeout_partial (a : GenArgs) (delay : Nat) (b : Bytes) (hb : b.length ≤ 1024)
    (h1 : a.timeout.toInt * 1000000000 ≤ 9223372036854775807) (h0 : 0 ≤ a.timeout.toInt) :
    readAck a.timeout (some (delay, b)) = if (delay : Int) < a.timeout.toInt * 1000000000 then some b else none := by
  by_cases h2 : (delay : Int) < a.timeout.toInt * 1000000000
  · rw [if_pos h2, readAck_whole _ _ _ hb h1 h2]
  · rw [if_neg h2]
    have ht : (a.timeout * 1000000000).toInt = a.timeout.toInt * 1000000000 :=
      conn_ttl_seconds { ConnTTl := a.timeout } (by show _ ≤ a.timeout.toInt * 1000000000; omega) h1
    unfold readAck
    simp only [ht, if_neg h2, ite_self]

/-! ### C64: what success means -/

/-- C64 (partial): packet-gen reports success only if it has read a RESPONSE packet with the identifier of its packet, result 0 and a record section in
which every confirmation has status 0. Missing: that there is a confirmation of its record (`gen_unconfirmed_success`). -/
theorem gen_success_partial (a : GenArgs) (net : GenNet) (s : Nat) (h : (genMain a net).2 = .exit .done s) :
    ∃ delay b q r l, net.reply = some (delay, b) ∧ Package.decode {} (b.take 1024) (zeros (1024 - (b.take 1024).length)) = .ret 0 none q ∧
      q.ServicesFrameData = some (.response r) ∧ r.ResponsePacketID = a.pid16 ∧ r.ProcessingResult = 0 ∧ r.SDR = some l ∧
      ∀ rec ∈ l, ∀ rd ∈ rec.RecordDataSet, ∀ x, rd.SubrecordType = 0 → rd.SubrecordData = some (.response x) → x.RecordStatus = 0 := by
  have hc : ∀ (p : UInt16) (c spare : Bytes), checkAck p (Package.decode {} c spare) = .exit .done s →
      ∃ q r l, Package.decode {} c spare = .ret 0 none q ∧
      q.ServicesFrameData = some (.response r) ∧ r.ResponsePacketID = p ∧ r.ProcessingResult = 0 ∧ r.SDR = some l ∧
      ∀ rec ∈ l, ∀ rd ∈ rec.RecordDataSet, ∀ x, rd.SubrecordType = 0 → rd.SubrecordData = some (.response x) → x.RecordStatus = 0 := by
    intro p c spare ho
    unfold checkAck at ho
    cases hd : Package.decode {} c spare with
    | panic => rw [hd] at ho; cases ho
    | diverge => rw [hd] at ho; cases ho
    | ret code e q =>
      rw [hd] at ho
      cases e with
      | some e => cases ho
      | none =>
        simp only at ho
        cases hb : q.ServicesFrameData with
        | none => rw [hb] at ho; cases ho
        | some body =>
          rw [hb] at ho
          cases body with
          | appdata l => cases ho
          | response r =>
            simp only at ho
            split at ho
            · cases ho
            · rename_i h1
              split at ho
              · cases ho
              · rename_i h2
                cases hl : r.SDR with
                | none => rw [hl] at ho; cases ho
                | some l =>
                  rw [hl] at ho
                  simp only at ho
                  cases hx : (ackStatuses l).find? (· ≠ 0) with
                  | some x => rw [hx] at ho; cases ho
                  | none =>
                    have hcode : code = 0 := by
                      rcases decode_codes_partial {} q c spare code none hd with h | h | ⟨-, h | h | h | h | h⟩
                      · exact h.1
                      all_goals simp at h
                    refine ⟨q, r, l, by rw [hcode], hb, by simpa using h1, by simpa using h2, hl, ?_⟩
                    rw [List.find?_eq_none] at hx
                    intro rec hrec rd hrd x ht hd
                    have := hx x.RecordStatus (by
                      unfold ackStatuses
                      rw [List.mem_flatMap]
                      refine ⟨rec, hrec, ?_⟩
                      rw [List.mem_filterMap]
                      exact ⟨rd, hrd, by rw [if_pos ht, hd]⟩)
                    simpa using this
  unfold genMain at h
  split at h
  · cases h
  split at h
  · cases h
  split at h
  · cases h
  split at h
  · cases h
  split at h
  · cases h
  · cases h
  rename_i out q he
  split at h
  · cases h
  split at h
  · cases h
  split at h
  · cases h
  cases hr : readAck a.timeout net.reply with
  | none => rw [hr] at h; cases h
  | some b =>
    rw [hr] at h
    simp only at h
    obtain ⟨q', r, l, h1, h2, h3, h4⟩ := hc _ _ _ h
    unfold readAck at hr
    cases hrep : net.reply with
    | none => rw [hrep] at hr; cases hr
    | some x =>
      obtain ⟨delay, b'⟩ := x
      rw [hrep] at hr
      simp only at hr
      split at hr
      · cases hr
      · split at hr
        · obtain rfl := Option.some.inj hr
          exact ⟨delay, b', q', r, l, rfl, h1, h2, by rw [h3, encode_keeps_pid _ _ _ he]; rfl, h4⟩
        · cases hr

/-- a RESPONSE to packet 7 with result 0 and a record without confirmations -/
def hollowAck : Bytes := [1, 0, 0, 11, 0, 10, 0, 8, 0, 0, 239, 7, 0, 0, 0, 0, 1, 0, 0, 2, 2, 178, 17]

/-- a RESPONSE to packet 7 with result 0 and without record section -/
def bareAck : Bytes := [1, 0, 0, 11, 0, 3, 0, 8, 0, 0, 2, 7, 0, 0, 12, 73]

/-- the run of packet-gen for packet 7 that gets the bytes `b` as answer -/
def genWith (b : Bytes) : Option Bytes × GenEnd :=
  genMain { exArgs with pid := 7 } { parsed := fun _ => some 0, reply := some (1000, b) }

theorem genWith_eq (b : Bytes) (hb : b.length ≤ 1024) : (genWith b).2 = checkAck 7 (Package.decode {} b (zeros (1024 - b.length))) := by
  have hv : ({ exArgs with pid := 7 } : GenArgs).Valid := ⟨by decide, exArgs_valid.oid, exArgs_valid.liquid, exArgs_valid.lat, exArgs_valid.lon, exArgs_valid.ts⟩
  obtain ⟨out, q, -, -, -, he, -⟩ := package_roundtrip _ (gen_wf _ hv) []
  have hq := encode_keeps_pid _ _ _ he
  unfold genWith genMain
  rw [if_neg (by decide), if_neg (by decide), if_neg (by decide)]
  simp only [he]
  have hr : readAck exArgs.timeout (some (1000, b)) = some b := readAck_whole _ _ _ hb (by decide) (by decide)
  simp only [hr, hq]
  rfl

/-- C64 is false of the code: an answer that confirms no record is reported as success. -/
theorem gen_unconfirmed_success : (genWith hollowAck).2 = .exit .done 1 := by
  rw [genWith_eq _ (by decide)]
  generalize zeros _ = spare
  have hs : Package.decode {} hollowAck spare = Package.decode {} hollowAck [] := by
    have := trailing_ignored_partial {} hollowAck [] [] spare (by decide) (by decide) (by decide)
    rwa [List.append_nil] at this
  rw [hs]
  have h : checkAck 7 (Package.decode {} hollowAck []) = .exit .done 1 := by kernel_rfl
  exact h

/-- C64, C65: a positive answer without record section makes packet-gen panic (main.go:210) -/
theorem gen_panics_bare : (genWith bareAck).2 = .panic := by
  rw [genWith_eq _ (by decide)]
  generalize zeros _ = spare
  have hs : Package.decode {} bareAck spare = Package.decode {} bareAck [] := by
    have := trailing_ignored_partial {} bareAck [] [] spare (by decide) (by decide) (by decide)
    rwa [List.append_nil] at this
  rw [hs]
  have h : checkAck 7 (Package.decode {} bareAck []) = .panic := by kernel_rfl
  exact h

/-! ### C65: an answer that arrives in pieces -/

/-- C65 is false of the code: packet-gen reads once; if less than 11 bytes of the answer have arrived by then it reports a broken answer, whatever
follows. -/
theorem gen_split_answer (a : GenArgs) (h : a.Valid) (net : GenNet) (hn : net.Up a) (delay : Nat) (b : Bytes) (hb : b.length < 11)
    (hr : net.reply = some (delay, b)) (h1 : a.timeout.toInt * 1000000000 ≤ 9223372036854775807)
    (h2 : (delay : Int) < a.timeout.toInt * 1000000000) : (genMain a net).2 = .exit .badAck 1 := by
  have hpid : a.pid ≠ 0 := by
    intro h0
    have := h.pid.1
    rw [h0] at this
    exact absurd this (by decide)
  have hoid : a.oid ≠ 0 := by
    intro h0
    have := h.oid.1
    rw [h0] at this
    exact absurd this (by decide)
  obtain ⟨t, hp⟩ := Option.isSome_iff_exists.mp hn.parsed
  obtain ⟨out, q, -, -, -, he, -⟩ := package_roundtrip a.package (gen_wf a h) []
  unfold genMain
  rw [if_neg hpid, if_neg hoid, if_neg h.ts, hp]
  simp only [he, hn.resolves, hn.dials, hn.writes, hr, readAck_whole _ _ _ (show b.length ≤ 1024 by omega) h1 h2]
  obtain ⟨q', hq⟩ := decode_short {} b (zeros (1024 - b.length)) (by have := headerSize_cases b; omega)
  show checkAck q.PacketIdentifier (Package.decode {} b (zeros (1024 - b.length))) = _
  rw [hq]
  rfl

/-- C65 (partial): an answer that has arrived completely is accepted (for every answer that confirms the packet and fits the buffer). Missing: answers in pieces. -/
theorem gen_whole_answer_partial (a : GenArgs) (h : a.Valid) (net : GenNet) (hn : net.Up a) (delay : Nat) (b : Bytes) (hb : b.length ≤ 1024)
    (rns : List UInt16) (hne : rns ≠ []) (hans : Answers b a.pid16 0 rns)
    (hr : net.reply = some (delay, b)) (h1 : a.timeout.toInt * 1000000000 ≤ 9223372036854775807)
    (h2 : (delay : Int) < a.timeout.toInt * 1000000000) : (genMain a net).2 = .exit .done 1 := by
  have hpid : a.pid ≠ 0 := by
    intro h0
    have := h.pid.1
    rw [h0] at this
    exact absurd this (by decide)
  have hoid : a.oid ≠ 0 := by
    intro h0
    have := h.oid.1
    rw [h0] at this
    exact absurd this (by decide)
  obtain ⟨t, hp⟩ := Option.isSome_iff_exists.mp hn.parsed
  obtain ⟨out, q, -, -, -, he, -⟩ := package_roundtrip a.package (gen_wf a h) []
  unfold genMain
  rw [if_neg hpid, if_neg hoid, if_neg h.ts, hp]
  simp only [he, hn.resolves, hn.dials, hn.writes, hr, readAck_whole _ _ _ hb h1 h2]
  show checkAck q.PacketIdentifier (Package.decode {} b (zeros (1024 - b.length))) = _
  rw [encode_keeps_pid _ _ _ he]
  exact checkAck_answers b a.pid16 rns hne hans _

end Egts
