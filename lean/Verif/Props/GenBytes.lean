import Verif.Props.PacketGen
import Verif.Spec.Gen
import Verif.Props.Conform
import Verif.Props.PassOn
set_option autoImplicit false
/- C90: the packet that packet-gen sends, byte by byte; C91: packet-gen and the hemispheres. -/
namespace Egts
open Frame
variable [P : Platform]

theorem gen_pos_bytes (a : GenArgs) : a.pos.encode = .ok (leBytes 4 351477040 ++ leBytes 4 (rawOfLat a.lat).toNat ++ leBytes 4 (rawOfLon a.lon).toNat ++ [155] ++
    leBytes 2 340 ++ [172] ++ leBytes 3 191 ++ [144, 0] ++ leBytes 3 30) := by
  unfold SrPosData.encode
  have hf : parseFlags (a.pos.ALTE ++ a.pos.LOHS ++ a.pos.LAHS ++ a.pos.MV ++ a.pos.BB ++ a.pos.CS ++ a.pos.FIX ++ a.pos.VLD) = .ok 155 := by
    show parseFlags [49, 48, 48, 49, 49, 48, 49, 49] = .ok 155
    decide +kernel
  have hn : rawOfNavTime a.pos.NavigationTime = 351477040 := rawOfNavTime_sec 351477040 (by norm_num)
  rw [hf, hn]
  have ha : a.pos.ALTE = [49] := rfl
  have hs : a.pos.speedWord = 340 := by show SrPosData.speedWord _ = _; kernel_rfl
  have h1 : a.pos.Latitude = a.lat := rfl
  have h2 : a.pos.Longitude = a.lon := rfl
  rw [ha, hs, h1, h2]
  have h3 : a.pos.Odometer = 191 := rfl
  have h4 : a.pos.Altitude = 30 := rfl
  have h5 : a.pos.Direction &&& ~~~(a.pos.DirectionHighestBit <<< 7) = 172 := by show (172 : UInt8) &&& ~~~((0 : UInt8) <<< 7) = 172; decide
  have h6 : a.pos.DigitalInputs = 144 := rfl
  have h7 : a.pos.Source = 0 := rfl
  rw [h3, h4, h5, h6, h7]
  have k1 : (351477040 : UInt32).toNat = 351477040 := by decide
  have k2 : (340 : UInt16).toNat = 340 := by decide
  have k3 : (191 : UInt32).toNat = 191 := by decide
  have k4 : (30 : UInt32).toNat = 30 := by decide
  simp only [Go.ok_bind, Go.pure_def, le24_eq, le32_eq (351477040 : UInt32), le32_eq (rawOfLat _), le32_eq (rawOfLon _), le16_eq, k1, k2, k3, k4, BEq.rfl, if_true]

omit P in
theorem gen_liquid_bytes (a : GenArgs) : a.liquidSensor.encode = .ok ([65] ++ leBytes 2 1 ++ leBytes 4 a.liquid32.toNat) := by
  unfold SrLiquidLevelSensor.encode
  have hf : parseFlags ([48] ++ a.liquidSensor.LiquidLevelSensorErrorFlag ++ a.liquidSensor.LiquidLevelSensorValueUnit
    ++ a.liquidSensor.RawDataFlag ++ fmtBin 3 a.liquidSensor.LiquidLevelSensorNumber.toNat) = .ok 65 := by
    show parseFlags ([48] ++ [49] ++ [48, 48] ++ [48] ++ fmtBin 3 1) = .ok 65
    decide +kernel
  rw [hf]
  have h1 : a.liquidSensor.LiquidLevelSensorData = a.liquid32 := rfl
  rw [h1]
  simp only [Go.ok_bind, Go.pure_def, le32_eq, le16_eq]
  rfl

theorem gen_body_bytes (a : GenArgs) :
    ServiceDataSet.encode [a.record] = .ok (genBody a.oid32.toNat (rawOfLat a.lat).toNat (rawOfLon a.lon).toNat a.liquid32.toNat) := by
  have h1 := gen_pos_bytes a
  have h2 := gen_liquid_bytes a
  generalize hb1 : leBytes 4 351477040 ++ leBytes 4 (rawOfLat a.lat).toNat ++ leBytes 4 (rawOfLon a.lon).toNat ++ [155] ++
    leBytes 2 340 ++ [172] ++ leBytes 3 191 ++ [144, 0] ++ leBytes 3 30 = b1 at h1
  generalize hb2 : [65] ++ leBytes 2 1 ++ leBytes 4 a.liquid32.toNat = b2 at h2
  have l1 : b1.length = 24 := by rw [← hb1]; simp [leBytes_len]
  have l2 : b2.length = 7 := by rw [← hb2]; simp [leBytes_len]
  have k1 : len16 b1 = 24 := by unfold len16; rw [l1]; rfl
  have k2 : len16 b2 = 7 := by unfold len16; rw [l2]; rfl
  have e1 : RecordData.encode ⟨16, 0, some (.pos a.pos)⟩ = .ok ([16] ++ le16 (len16 b1) ++ b1) :=
    rd_encode_eq _ _ 16 (len16 b1) _ rfl rfl (by
      show lengthOf a.pos.encode = _
      rw [h1]; rfl) h1
  have e2 : RecordData.encode ⟨27, 0, some (.liquid a.liquidSensor)⟩ = .ok ([27] ++ le16 (len16 b2) ++ b2) :=
    rd_encode_eq _ _ 27 (len16 b2) _ rfl rfl (by
      show lengthOf a.liquidSensor.encode = _
      rw [h2]; rfl) h2
  have e3 : RecordDataSet.encode a.record.RecordDataSet = .ok ([16, 24, 0] ++ b1 ++ ([27, 7, 0] ++ b2)) := by
    show RecordDataSet.encode [_, _] = _
    rw [k1] at e1
    rw [k2] at e2
    simp only [RecordDataSet.encode, encodeAll, e1, e2, Go.ok_bind, Go.pure_def, List.append_nil]
    rfl
  have e4 : a.record.encode = .ok (genBody a.oid32.toNat (rawOfLat a.lat).toNat (rawOfLon a.lon).toNat a.liquid32.toNat) := by
    unfold ServiceDataRecord.encode
    rw [e3]
    have hf : parseFlags (a.record.SourceServiceOnDevice ++ a.record.RecipientServiceOnDevice ++ a.record.Group
      ++ a.record.RecordProcessingPriority ++ a.record.TimeFieldExists ++ a.record.EventIDFieldExists
      ++ a.record.ObjectIDFieldExists) = .ok 19 := by
      show parseFlags [48, 48, 48, 49, 48, 48, 49, 49] = .ok 19
      decide +kernel
    have f1 : a.record.ObjectIDFieldExists = [49] := rfl
    have f2 : a.record.EventIDFieldExists = [49] := rfl
    have f3 : a.record.TimeFieldExists = [48] := rfl
    have f4 : a.record.RecordLength = 0 := rfl
    have f5 : a.record.RecordNumber = 1 := rfl
    have f6 : a.record.EventIdentifier = 3436 := rfl
    have f7 : a.record.ObjectIdentifier = a.oid32 := rfl
    have f8 : a.record.SourceServiceType = 2 := rfl
    have f9 : a.record.RecipientServiceType = 2 := rfl
    have f10 : len16 ([16, 24, 0] ++ b1 ++ ([27, 7, 0] ++ b2)) = 37 := by
      unfold len16
      rw [List.length_append, List.length_append, List.length_append, l1, l2]; rfl
    have g1 : (if ([49] : Bytes) == [49] then le32 a.oid32 else []) = leBytes 4 a.oid32.toNat := by rw [← le32_eq]; rfl
    have g2 : (if ([49] : Bytes) == [49] then le32 3436 else []) = leBytes 4 3436 := by decide
    have g3 : (if ([48] : Bytes) == [49] then le32 a.record.Time else []) = [] := rfl
    have g4 : (if (0 : UInt16) = 0 then (37 : UInt16) else 0) = 37 := rfl
    have g5 : le16 37 ++ le16 1 ++ [(19 : UInt8)] = [37, 0, 1, 0, 19] := by decide
    simp only [Go.ok_bind, hf]
    rw [f1, f2, f3, f4, f5, f6, f7, f8, f9, f10, g1, g2, g3, g4, g5, genBody, ← hb2, ← hb1]
    simp only [Go.pure_def, List.append_nil, List.append_assoc]
  simp only [ServiceDataSet.encode, encodeAll, e4, Go.ok_bind, Go.pure_def, List.append_nil]

theorem gen_package_bytes (a : GenArgs) : ∃ q, a.package.encode = .ok (packet (genHead a.pid16.toNat)
    (genBody a.oid32.toNat (rawOfLat a.lat).toNat (rawOfLon a.lon).toNat a.liquid32.toNat), q) := by
  have hf : parseFlags (a.package.Prefix ++ a.package.Route ++ a.package.EncryptionAlg ++ a.package.Compression ++ a.package.Priority) = .ok 2 := by
    show parseFlags [48, 48, 48, 48, 48, 48, 49, 48] = .ok 2
    decide +kernel
  have hb := gen_body_bytes a
  generalize hg : genBody a.oid32.toNat (rawOfLat a.lat).toNat (rawOfLon a.lon).toNat a.liquid32.toNat = b at hb
  have hl : b.length = 52 := by rw [← hg]; simp [genBody, leBytes_len]
  have hk : len16 b = 52 := by unfold len16; rw [hl]; rfl
  obtain ⟨hl', e1, e2⟩ := encode_eq a.package 2 b hf hb
  have e3 : hl' = 11 := by rw [e1]; rfl
  refine ⟨_, e2.trans (congrArg Go.ok (Prod.ext ?_ rfl))⟩
  rw [e3, hk, if_pos (by decide)]
  have hh : hdrOf a.package 2 11 52 = genHead a.pid16.toNat := by
    unfold hdrOf genHead
    rw [← le16_eq]
    rfl
  rw [hh, packet, le16_eq]
  simp only [List.append_assoc]

/-- C90: the packet that packet-gen sends is, byte by byte, the header 01 00 02 0B 00 34 00, packet identifier, 01 and its checksum, followed by
the body `genBody` and its checksum; the identifiers and the level are the arguments modulo 2^16, 2^32 and 2^32. Nothing is sent exactly when the
packet identifier or the object identifier is 0 or no time is given (or the surroundings fail). -/
theorem gen_bytes (a : GenArgs) (net : GenNet) (hn : net.Up a) :
    (genMain a net).1 = if a.pid = 0 ∨ a.oid = 0 ∨ a.ts = [] then none else
      some (packet (genHead (a.pid.toInt % 65536).toNat) (genBody (a.oid.toInt % 4294967296).toNat (rawOfLat a.lat).toNat (rawOfLon a.lon).toNat
        (a.liquid.toInt % 4294967296).toNat)) := by
  obtain ⟨q, hq⟩ := gen_package_bytes a
  have hx : ∀ x : Int64, (x.toUInt64.toNat : Int) % 4294967296 = x.toInt % 4294967296 := by
    intro x
    have h1 : x.toUInt64.toNat = x.toBitVec.toNat := rfl
    have h2 : x.toInt = x.toBitVec.toInt := rfl
    rw [h1, h2, BitVec.toInt_eq_toNat_cond]
    split <;> omega
  have h1 : (a.pid.toInt % 65536).toNat = a.pid16.toNat := by
    unfold GenArgs.pid16
    rw [UInt64.toNat_toUInt16]
    have := hx a.pid
    omega
  have h2 : (a.oid.toInt % 4294967296).toNat = a.oid32.toNat := by
    unfold GenArgs.oid32
    rw [UInt64.toNat_toUInt32]
    have := hx a.oid
    omega
  have h3 : (a.liquid.toInt % 4294967296).toNat = a.liquid32.toNat := by
    unfold GenArgs.liquid32
    rw [UInt64.toNat_toUInt32]
    have := hx a.liquid
    omega
  rw [h1, h2, h3]
  unfold genMain
  by_cases hp : a.pid = 0
  · simp [hp]
  by_cases ho : a.oid = 0
  · simp [hp, ho]
  by_cases ht : a.ts = []
  · simp [hp, ho, ht]
  obtain ⟨t, hpt⟩ := Option.isSome_iff_exists.mp hn.parsed
  rw [if_neg hp, if_neg ho, if_neg ht, if_neg (by simp [hp, ho, ht]), hpt]
  simp only [hq, hn.resolves, hn.dials, hn.writes]
  cases hr : readAck a.timeout net.reply <;> rfl

/-- C90: packet identifier, object identifier and time have no default: nothing is sent if one of them is not given -/
theorem gen_required (a : GenArgs) (net : GenNet) :
    (genMain { a with pid := ({} : GenArgs).pid } net).1 = none ∧ (genMain { a with oid := ({} : GenArgs).oid } net).1 = none ∧
    (genMain { a with ts := ({} : GenArgs).ts } net).1 = none := by
  refine ⟨?_, ?_, ?_⟩
  all_goals
    unfold genMain
    repeat' split
    all_goals first | rfl | contradiction

/-- C90: the raw coordinate of the packet is the given one scaled to the full range and cut off to an integer (up to the rounding of float64). -/
theorem gen_raw (a : GenArgs) (h : a.Valid) :
    |((rawOfLat a.lat).toNat : ℚ) - a.lat / 90 * fullScale| ≤ 1 + 1 / 2 ^ 20 ∧
    |((rawOfLon a.lon).toNat : ℚ) - a.lon / 180 * fullScale| ≤ 1 + 1 / 2 ^ 20 := by
  have key : ∀ (x : ℚ) (K : Nat), 0 < K → 0 ≤ x → x ≤ K → |((f2u32 (fmul (fdiv x K) 4294967295)).toNat : ℚ) - x / K * fullScale| ≤ 1 + 1 / 2 ^ 20 := by
    intro x K hK h0 h1
    obtain ⟨e0, e1, e2⟩ := enc_close x K hK h0 h1
    obtain ⟨f0, f1⟩ := f2u32_range _ e0 e1
    have hs : (fullScale : ℚ) = 4294967295 := by norm_num [fullScale]
    rw [hs]
    rw [abs_le] at e2 ⊢
    have : (4294967295 : ℚ) / 2 ^ 52 ≤ 1 / 2 ^ 20 := by norm_num
    constructor <;> linarith [e2.1, e2.2]
  exact ⟨key a.lat 90 (by norm_num) h.lat.1 h.lat.2, key a.lon 180 (by norm_num) h.lon.1 h.lon.2⟩

example (net : GenNet) (hn : net.Up exArgs) : (genMain exArgs net).1.map List.length = some 65 := by
  rw [gen_bytes exArgs net hn, if_neg (by decide)]
  simp [packet, genHead, genBody, leBytes_len]

/-! ### C91 -/

theorem gen_sent (a : GenArgs) (net : GenNet) (sent : Bytes) (h : (genMain a net).1 = some sent) : sent = packet (genHead a.pid16.toNat)
    (genBody a.oid32.toNat (rawOfLat a.lat).toNat (rawOfLon a.lon).toNat a.liquid32.toNat) := by
  obtain ⟨q, hq⟩ := gen_package_bytes a
  unfold genMain at h
  rw [hq] at h
  repeat' split at h
  all_goals first | (cases h; done) | (cases ‹Go.ok _ = Go.ok _›; exact (Option.some.inj h).symm)

omit P in
theorem leValue_leBytes4 (v : UInt32) : leValue (leBytes 4 v.toNat) = v.toNat := by
  have := v.toNat_lt
  simp [leValue, leBytes]
  omega

/-- C91 is false of the code: byte 41 of the packet, the flags of the position, is always 155: the flags LAHS (bit 5) and LOHS (bit 6) of the southern
and western hemispheres are never set, whatever coordinates are given. -/
theorem gen_hemisphere_fixed (a : GenArgs) (net : GenNet) (sent : Bytes) (h : (genMain a net).1 = some sent) :
    byteAt sent 41 = 155 ∧ (byteAt sent 41).toNat.testBit 5 = false ∧ (byteAt sent 41).toNat.testBit 6 = false := by
  have hs := gen_sent a net sent h
  have h1 : byteAt sent 41 = 155 := by
    rw [hs]
    simp [packet, genHead, genBody, leBytes, byteAt]
  rw [h1]
  exact ⟨rfl, by decide, by decide⟩

/-- what C91 asks for: the packet for a latitude and longitude says by its flags (bits 5 and 6 of byte 41) on which side of the equator and of the
meridian of Greenwich the position is, and holds (bytes 33-36 and 37-40) the absolute values in units of 90/4294967295 and 180/4294967295 degrees,
up to one unit (and the rounding of float64) -/
def PositionSent (lat lon : ℚ) (sent : Bytes) : Prop :=
  (byteAt sent 41).toNat.testBit 5 = decide (lat < 0) ∧ (byteAt sent 41).toNat.testBit 6 = decide (lon < 0) ∧
  |(leValue ((sent.drop 33).take 4) : ℚ) - |lat| / 90 * fullScale| ≤ 1 + 1 / 2 ^ 20 ∧
  |(leValue ((sent.drop 37).take 4) : ℚ) - |lon| / 180 * fullScale| ≤ 1 + 1 / 2 ^ 20

/-- C91 (partial): northern and eastern positions are sent as given. Missing: southern and western ones (`gen_hemisphere_wrong`). -/
theorem gen_position_partial (a : GenArgs) (h : a.Valid) (net : GenNet) (sent : Bytes) (hs : (genMain a net).1 = some sent) :
    PositionSent a.lat a.lon sent := by
  obtain ⟨-, h5, h6⟩ := gen_hemisphere_fixed a net sent hs
  obtain ⟨r1, r2⟩ := gen_raw a h
  obtain ⟨e1, e2⟩ : leValue ((sent.drop 33).take 4) = (rawOfLat a.lat).toNat ∧ leValue ((sent.drop 37).take 4) = (rawOfLon a.lon).toNat := by
    rw [gen_sent a net sent hs]
    constructor
    · refine Eq.trans (congrArg leValue ?_) (leValue_leBytes4 (rawOfLat a.lat))
      simp [packet, genHead, genBody, leBytes]
    · refine Eq.trans (congrArg leValue ?_) (leValue_leBytes4 (rawOfLon a.lon))
      simp [packet, genHead, genBody, leBytes]
  have n1 : ¬ a.lat < 0 := not_lt.mpr h.lat.1
  have n2 : ¬ a.lon < 0 := not_lt.mpr h.lon.1
  refine ⟨by rw [h5]; simp [n1], by rw [h6]; simp [n2], ?_, ?_⟩
  · rw [e1, abs_of_nonneg h.lat.1]; exact r1
  · rw [e2, abs_of_nonneg h.lon.1]; exact r2

/-- C91 is false of the code for every southern or western position -/
theorem gen_hemisphere_wrong (a : GenArgs) (net : GenNet) (sent : Bytes) (hs : (genMain a net).1 = some sent) (hneg : a.lat < 0 ∨ a.lon < 0) :
    ¬ PositionSent a.lat a.lon sent := by
  obtain ⟨-, h5, h6⟩ := gen_hemisphere_fixed a net sent hs
  rintro ⟨k5, k6, -⟩
  rw [h5] at k5
  rw [h6] at k6
  rcases hneg with h | h
  · simp [h] at k5
  · simp [h] at k6

/-- arguments with a southern position that is sent (test of the hypotheses) -/
example : ∃ sent, (genMain { exArgs with lat := -33 } { parsed := fun _ => some 0 }).1 = some sent ∧ ¬ PositionSent (-33) 60 sent := by
  have h := gen_bytes { exArgs with lat := -33 } { parsed := fun _ => some 0 } ⟨rfl, rfl, rfl, rfl⟩
  rw [if_neg (by decide)] at h
  exact ⟨_, h, gen_hemisphere_wrong { exArgs with lat := -33 } _ _ h (.inl (by norm_num))⟩

example (net : GenNet) (sent : Bytes) (hs : (genMain exArgs net).1 = some sent) : PositionSent 45 60 sent :=
  gen_position_partial exArgs exArgs_valid net sent hs

end Egts
