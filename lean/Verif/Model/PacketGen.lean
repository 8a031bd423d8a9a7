import Verif.Model.Package
set_option autoImplicit false
/- Model of cli/packet-gen/main.go. -/
namespace Egts
variable [P : Platform]

/-- the flags, main.go:46-64. An `int` has 64 bits on the supported platforms; `lat` and `lon` are finite numbers. The
server address only reaches the network calls and is left out. -/
structure GenArgs where
  pid : Int64 := 0
  oid : Int64 := 0
  ts : Bytes := []
  liquid : Int64 := 0
  lat : F64 := 0
  lon : F64 := 0
  timeout : Int64 := 0                                                  -- 61: the default is 0

/-- the surroundings of one run: the result of `time.Parse(time.RFC3339, ts)` (an instant in nanoseconds since 2010; main.go:80),
whether the address resolves, the connection is established and the bytes are written (main.go:159-175), and what
arrives from the server after the call of SetReadDeadline: nothing ever, or `delay` nanoseconds later the bytes `bytes` that
are available to the first successful Read. -/
structure GenNet where
  parsed : Bytes → Option Int
  resolves : Bool := true
  dials : Bool := true
  writes : Bool := true
  reply : Option (Nat × Bytes) := none

/-- the message printed before the program ends (cli/packet-gen/main.go:66-225) -/
inductive GenMsg where
  | needPid | needOid | needTime | badTime | encodeFailed | resolveFailed | dialFailed | writeFailed | readFailed | badAck | notAck
  | wrongPid (actual expected : UInt16)
  | badResult (r : UInt8)
  | badStatus (s : UInt8)
  | done
deriving DecidableEq

/-- how a run ends: a message and the exit status, a Go panic, or an endless loop (cli/packet-gen/main.go:66-225) -/
inductive GenEnd where
  | exit (msg : GenMsg) (status : Nat)
  | panic
  | hang
deriving DecidableEq

/-- `uint16(pid)`, main.go:96. -/
def GenArgs.pid16 (a : GenArgs) : UInt16 := a.pid.toUInt64.toUInt16
/-- `uint32(oid)`, main.go:109. -/
def GenArgs.oid32 (a : GenArgs) : UInt32 := a.oid.toUInt64.toUInt32
/-- `uint32(liqLvl)`, main.go:145. -/
def GenArgs.liquid32 (a : GenArgs) : UInt32 := a.liquid.toUInt64.toUInt32

/-- main.go:115-135. The time is the constant of line 116, 2021-02-20T00:30:40Z; the parsed timestamp of line 80 is not
used. -/
def GenArgs.pos (a : GenArgs) : SrPosData := {
  NavigationTime := 351477040 * 1000000000
  Latitude := a.lat
  Longitude := a.lon
  ALTE := [49]
  LOHS := [48]
  LAHS := [48]
  MV := [49]
  BB := [49]
  CS := [48]
  FIX := [49]
  VLD := [49]
  DirectionHighestBit := 0
  AltitudeSign := 0
  Speed := 34
  Direction := 172
  Odometer := 191
  DigitalInputs := 144
  Source := 0
  Altitude := 30 }

/-- main.go:139-146. -/
def GenArgs.liquidSensor (a : GenArgs) : SrLiquidLevelSensor := {
  LiquidLevelSensorErrorFlag := [49]
  LiquidLevelSensorValueUnit := [48, 48]
  RawDataFlag := [48]
  LiquidLevelSensorNumber := 1
  ModuleAddress := 1
  LiquidLevelSensorData := a.liquid32 }

/-- main.go:99-149. -/
def GenArgs.record (a : GenArgs) : ServiceDataRecord := {
  RecordNumber := 1
  SourceServiceOnDevice := [48]
  RecipientServiceOnDevice := [48]
  Group := [48]
  RecordProcessingPriority := [49, 48]
  TimeFieldExists := [48]
  EventIDFieldExists := [49]
  ObjectIDFieldExists := [49]
  EventIdentifier := 3436
  ObjectIdentifier := a.oid32
  SourceServiceType := 2
  RecipientServiceType := 2
  RecordDataSet := [⟨16, 0, some (.pos a.pos)⟩, ⟨27, 0, some (.liquid a.liquidSensor)⟩] }

/-- main.go:86-151. -/
def GenArgs.package (a : GenArgs) : Package := {
  ProtocolVersion := 1
  SecurityKeyID := 0
  Prefix := [48, 48]
  Route := [48]
  EncryptionAlg := [48, 48]
  Compression := [48]
  Priority := [49, 48]
  HeaderLength := 11
  HeaderEncoding := 0
  PacketIdentifier := a.pid16
  PacketType := 1
  ServicesFrameData := some (.appdata [a.record]) }

/-- the statuses looked at by main.go:210-221: those of the subrecords of type 0 that are record responses, in order. -/
def ackStatuses (l : ServiceDataSet) : List UInt8 :=
  l.flatMap fun rec => rec.RecordDataSet.filterMap fun rd =>
    if rd.SubrecordType = 0 then match rd.SubrecordData with
      | some (.response x) => some x.RecordStatus
      | _ => none
    else none

/-- main.go:186-224: what the program makes of the decoded answer. The exit status of line 224 is 1. -/
def checkAck (pid : UInt16) (o : PkgOut) : GenEnd :=
  match o with
  | .panic => .panic
  | .diverge => .hang
  | .ret _ (some _) _ => .exit .badAck 1                                -- 188-191
  | .ret _ none q =>
    match q.ServicesFrameData with
    | some (.response ack) =>
      if ack.ResponsePacketID ≠ pid then .exit (.wrongPid ack.ResponsePacketID pid) 1   -- 199-203
      else if ack.ProcessingResult ≠ 0 then .exit (.badResult ack.ProcessingResult) 1   -- 205-208
      else match ack.SDR with
        | none => .panic                                                -- 210: type assertion on a nil interface
        | some l => match (ackStatuses l).find? (· ≠ 0) with
          | some s => .exit (.badStatus s) 1                            -- 214-217
          | none => .exit .done 1                                       -- 223-224
    | _ => .exit .notAck 1                                              -- 193-197

/-- main.go:177-184: the result of the one Read, in a buffer of 1024 bytes. The deadline is `time.Duration(ackTimeout) * time.Second`
in int64 arithmetic from now; a deadline that is not in the future makes Read fail at once. -/
def readAck (timeout : Int64) (reply : Option (Nat × Bytes)) : Option Bytes :=
  match reply with
  | none => none
  | some (delay, b) =>
    if (timeout * 1000000000).toInt ≤ 0 then none
    else if (delay : Int) < (timeout * 1000000000).toInt then some (b.take 1024) else none

/-- `main`, main.go:44-225: the bytes sent to the server, if any, and the end of the program. `ackBuf[:ackLen]` keeps the
rest of the buffer as spare capacity (main.go:187). -/
def genMain (a : GenArgs) (net : GenNet) : Option Bytes × GenEnd :=
  if a.pid = 0 then (none, .exit .needPid 1)                            -- 66-69
  else if a.oid = 0 then (none, .exit .needOid 1)                       -- 71-74
  else if a.ts = [] then (none, .exit .needTime 1)                      -- 76-79
  else match net.parsed a.ts with
  | none => (none, .exit .badTime 1)                                    -- 80-84
  | some _ => match a.package.encode with
    | .panic => (none, .panic)
    | .err _ => (none, .exit .encodeFailed 1)                           -- 153-157
    | .ok (out, q) =>
      if !net.resolves then (none, .exit .resolveFailed 1)              -- 159-163
      else if !net.dials then (none, .exit .dialFailed 1)               -- 165-169
      else if !net.writes then (none, .exit .writeFailed 1)             -- 171-175
      else match readAck a.timeout net.reply with
        | none => (some out, .exit .readFailed 1)                       -- 179-184
        | some b => (some out, checkAck q.PacketIdentifier (Package.decode {} b (zeros (1024 - b.length))))

end Egts
