import Verif.Model.Package
import Verif.Go.Time
set_option autoImplicit false
/- Model of cli/receiver/server/server.go and of the record types of cli/receiver/storage/packet.go. -/
namespace Egts
variable [P : Platform]

/-- `LocState`, storage/packet.go:24-29. -/
structure LocState where
  Latitude : F64 := 0
  Longitude : F64 := 0
  Speed : UInt16 := 0
  NavigationDt : Bytes := []
deriving DecidableEq

/-- `LiquidSensor`, storage/packet.go:31-38. -/
structure LiquidSensor where
  SensorNumber : UInt8 := 0
  ModuleNumber : UInt16 := 0
  ErrorFlag : Bytes := []
  ValueUnit : Bytes := []
  ValueMm : UInt32 := 0
  ValueL : F64 := 0
deriving DecidableEq

/-- `AnSensor`, storage/packet.go:40-43. -/
structure AnSensor where
  SensorNumber : UInt8 := 0
  Value : UInt32 := 0
deriving DecidableEq

/-- `NavRecord`, storage/packet.go:7-18 (nil and empty slices are identified here; the JSON model distinguishes them
by emptiness, which is right because the server only ever appends to nil slices). -/
structure NavRecord where
  ServerID : Bytes := []
  IMEI : Bytes := []
  ClientID : UInt32 := 0
  ReceivedDt : Bytes := []
  PacketID : UInt32 := 0
  NavigationTimestamp : Int := 0
  AnSensors : List AnSensor := []
  LiquidSensors : List LiquidSensor := []
  LocStates : List LocState := []
  LocStatesCount : Int32 := 0
deriving DecidableEq

/-- the record section of the packages built by `createPtResponse` (server.go:335-350) and `createSrResultCode`
(server.go:383-398). -/
def replyRecord (rl : UInt16) (serviceType : UInt8) (rds : List RecordData) : ServiceDataRecord := {
  RecordLength := rl
  RecordNumber := 1
  SourceServiceOnDevice := [48]
  RecipientServiceOnDevice := [48]
  Group := [49]
  RecordProcessingPriority := [48, 48]
  TimeFieldExists := [48]
  EventIDFieldExists := [48]
  ObjectIDFieldExists := [48]
  SourceServiceType := serviceType
  RecipientServiceType := serviceType
  RecordDataSet := rds }

/-- the package of server.go:353-367 and 400-414. -/
def replyPackage (fdl pid : UInt16) (body : Body) : Package := {
  ProtocolVersion := 1
  SecurityKeyID := 0
  Prefix := [48, 48]
  Route := [48]
  EncryptionAlg := [48, 48]
  Compression := [48]
  Priority := [48, 48]
  HeaderLength := 11
  HeaderEncoding := 0
  FrameDataLength := fdl
  PacketIdentifier := pid + 1                                           -- 364, 411 (uint16 wraps)
  PacketType := 0                                                       -- PtResponsePacket
  ServicesFrameData := some body }

/-- `createPtResponse`, server.go:328-370 (`srResponses` empty stands for nil). -/
def createPtResponse (pid : UInt16) (resultCode serviceType : UInt8) (srResponses : List RecordData) : Go Bytes := do
  let sdr ← (if srResponses.isEmpty then .ok none else do               -- 334
      let rl ← RecordDataSet.length16 srResponses                       -- 337
      pure (some [replyRecord rl serviceType srResponses]) : Go (Option ServiceDataSet))
  let sec : PtResponse := { ResponsePacketID := pid, ProcessingResult := resultCode, SDR := sdr } -- 329-332
  let fdl ← sec.length16                                                -- 363
  let (out, _) ← (replyPackage fdl pid (.response sec)).encode          -- 369
  pure out

/-- `createSrResultCode`, server.go:372-417. -/
def createSrResultCode (pid : UInt16) (resultCode : UInt8) : Go Bytes := do
  let rds : List RecordData := [⟨9, 1, some (.result { ResultCode := resultCode })⟩] -- 373-381
  let rl ← RecordDataSet.length16 rds                                   -- 385
  let sfd : ServiceDataSet := [replyRecord rl 1 rds]                    -- 383-398 (AuthService = 1)
  let fdl ← ServiceDataSet.length16 sfd                                 -- 410
  let (out, _) ← (replyPackage fdl pid (.appdata sfd)).encode           -- 416
  pure out

/-- the variables of `handleConn` declared outside its loop, server.go:58-64 (`recvPacket` is assigned on every
path that reads it, line 109). -/
structure LoopVars where
  isPkgSave : Bool := false
  srResultCodePkg : Bytes := []
  serviceType : UInt8 := 0
  srResponsesRecord : List RecordData := []

/-- the assignments at the label `Received`, server.go:74-77. -/
def LoopVars.reset (v : LoopVars) : LoopVars :=
  { v with serviceType := 0, srResponsesRecord := [], srResultCodePkg := [] }

/-- `x, err = createSrResultCode(...)`: on an error the bytes are nil (server.go:171, 180; Package.Encode returns nil
with every error, egts_pkg.go:140-225). `none` is a panic. -/
def bytesOrNil : Go Bytes → Option Bytes
  | .ok b => some b
  | .err _ => some []
  | .panic => none

/-- state of the two nested loops of server.go:151-291. -/
structure ScanSt where
  vars : LoopVars := {}
  exp : NavRecord := {}
  packetIDBytes : Bytes := []

/-- how a loop iteration ends (the `goto Received` and `return` of server.go:91-314) -/
inductive Flow (α : Type) where
  | next (s : α)
  | received (v : LoopVars)                                             -- `goto Received`
  | panic

/-- `if subRecData.AnalogSensorFieldExistsN == "1" { append }`, server.go:218-243. -/
def anIf (flag : Bytes) (n : UInt8) (v : UInt32) (l : List AnSensor) : List AnSensor :=
  if flag == [49] then l ++ [⟨n, v⟩] else l

/-- body of the loop over the subrecords of a record, server.go:168-288. -/
def subStep (pid : UInt16) (s : ScanSt) (rd : RecordData) : Flow ScanSt :=
  match rd.SubrecordData with
  | some (.auth _) =>                                                   -- 169-173
    match bytesOrNil (createSrResultCode pid 0) with
    | some b => .next { s with vars := { s.vars with srResultCodePkg := b } }
    | none => .panic
  | some (.response _) => .received s.vars                              -- 174-176
  | some (.term d) =>                                                   -- 177-184
    match bytesOrNil (createSrResultCode pid 0) with
    | some b => .next { s with
        vars := { s.vars with srResultCodePkg := b }
        exp := { s.exp with IMEI := d.IMEI } }
    | none => .panic
  | some (.pos d) => .next { s with                                     -- 185-207
      vars := { s.vars with isPkgSave := true }
      exp := { s.exp with
        NavigationTimestamp := unixOf d.NavigationTime
        LocStates := s.exp.LocStates ++ [{
          Latitude := d.Latitude
          Longitude := d.Longitude
          Speed := d.Speed
          NavigationDt := rfc3339 (unixOf d.NavigationTime) }]
        LocStatesCount := s.exp.LocStatesCount + 1 } }
  | some (.ad d) => .next { s with                                      -- 216-243
      exp := { s.exp with
        AnSensors := anIf d.ASFE8 8 d.ANS8 <| anIf d.ASFE7 7 d.ANS7 <| anIf d.ASFE6 6 d.ANS6 <|
          anIf d.ASFE5 5 d.ANS5 <| anIf d.ASFE4 4 d.ANS4 <| anIf d.ASFE3 3 d.ANS3 <|
          anIf d.ASFE2 2 d.ANS2 <| anIf d.ASFE1 1 d.ANS1 s.exp.AnSensors } }
  | some (.absAn d) => .next { s with                                   -- 244-246
      exp := { s.exp with AnSensors := s.exp.AnSensors ++ [⟨d.SensorNumber, d.Value⟩] } }
  | some (.absCntr d) =>                                                -- 248-268
    if d.CounterNumber = 110 then .next { s with
      packetIDBytes := be32 d.CounterValue                              -- 254
      exp := { s.exp with PacketID := d.CounterValue } }                -- 255
    else if d.CounterNumber = 111 then
      let tmpBuf := be32 d.CounterValue                                 -- 258-259
      let b := if s.packetIDBytes.length = 4 then s.packetIDBytes.set 3 (tmpBuf.getD 3 0) else tmpBuf -- 261-265
      .next { s with
        packetIDBytes := b
        exp := { s.exp with PacketID := u32 b } }                       -- 267
    else .next s
  | some (.liquid d) =>                                                 -- 269-287
    let sensor : LiquidSensor := {
      SensorNumber := d.LiquidLevelSensorNumber
      ModuleNumber := d.ModuleAddress
      ErrorFlag := d.LiquidLevelSensorErrorFlag
      ValueUnit := d.LiquidLevelSensorValueUnit }
    let sensor :=
      if d.LiquidLevelSensorValueUnit = [48, 48] ∨ d.LiquidLevelSensorValueUnit = [48, 49] then
        { sensor with ValueMm := d.LiquidLevelSensorData }              -- 281-282
      else if d.LiquidLevelSensorValueUnit = [49, 48] then
        { sensor with ValueL := fdiv (f64OfInt d.LiquidLevelSensorData.toNat) 10 } -- 283-284
      else sensor
    .next { s with exp := { s.exp with LiquidSensors := s.exp.LiquidSensors ++ [sensor] } }
  | _ => .next s                                                        -- 208 and kinds without a case

/-- loop over the subrecords, server.go:167-289. -/
def subLoop (pid : UInt16) : ScanSt → List RecordData → Flow ScanSt
  | s, [] => .next s
  | s, rd :: rds =>
    match subStep pid s rd with
    | .next s => subLoop pid s rds
    | .received v => .received v
    | .panic => .panic

/-- the record response of server.go:154-161. -/
def confirmation (rn : UInt16) : RecordData :=
  ⟨0, 3, some (.response { ConfirmedRecordNumber := rn, RecordStatus := 0 })⟩

/-- body of the loop over the records, server.go:151-291. -/
def recStep (pid : UInt16) (s : ScanSt) (rec : ServiceDataRecord) : Flow ScanSt :=
  subLoop pid { s with
    packetIDBytes := zeros 4                                            -- 152
    vars := { s.vars with
      srResponsesRecord := s.vars.srResponsesRecord ++ [confirmation rec.RecordNumber] -- 154-161
      serviceType := rec.SourceServiceType }                            -- 162
    exp := { s.exp with ClientID := rec.ObjectIdentifier } } rec.RecordDataSet -- 165

/-- loop over the records, server.go:151-291. -/
def recLoop (pid : UInt16) : ScanSt → List ServiceDataRecord → Flow ScanSt
  | s, [] => .next s
  | s, r :: rs =>
    match recStep pid s r with
    | .next s => recLoop pid s rs
    | .received v => .received v
    | .panic => .panic

/-- externally visible actions of a connection handler: `conn.Write` (its error is ignored, lines 133, 304, 309) and
`s.store.Save` (its error is only logged, line 294). -/
inductive Effect where
  | write (b : Bytes)
  | save (r : NavRecord)

/-- processing of one packet: the actions performed, in order, and the loop variables afterwards (server.go:119-314) -/
inductive Handled where
  | done (effects : List Effect) (v : LoopVars)
  | panic
  | diverge

/-- text `EGTS_GATE0`, server.go:321. -/
def serverId : Bytes := [69, 71, 84, 83, 95, 71, 65, 84, 69, 48]

/-- server.go:119-314: everything after a packet has been received; `now` is the text of line 121, `spare` the bytes of
`recvPacket` between its length and its capacity. -/
def handlePacket (now : Bytes) (spare : Bytes) (v : LoopVars) (c : Bytes) : Handled :=
  match Package.decode {} c spare with                                  -- 123-124
  | .panic => .panic
  | .diverge => .diverge
  | .ret code (some _) p =>                                             -- 125
    match createPtResponse p.PacketIdentifier code v.serviceType [] with -- 128
    | .ok b => .done [.write b] v                                       -- 133
    | .err _ => .done [] v                                              -- 131
    | .panic => .panic
  | .ret code none p =>
    if p.PacketType = 1 then                                            -- 139
      match p.ServicesFrameData with
      | some (.appdata l) =>
        let exp : NavRecord := {                                        -- 142-147
          ServerID := serverId, PacketID := p.PacketIdentifier.toUInt32, ReceivedDt := now, LocStatesCount := 0 }
        match recLoop p.PacketIdentifier { vars := { v with isPkgSave := false }, exp := exp } l with -- 149-291
        | .panic => .panic
        | .received v => .done [] v
        | .next s =>
          let saves := if s.vars.isPkgSave then [Effect.save s.exp] else [] -- 293-297
          match createPtResponse p.PacketIdentifier code s.vars.serviceType s.vars.srResponsesRecord with -- 299
          | .panic => .panic
          | .err _ => .done saves s.vars                                -- 302
          | .ok b => .done (saves ++ [.write b] ++                      -- 304
              (if s.vars.srResultCodePkg.length > 0 then [.write s.vars.srResultCodePkg] else [])) s.vars -- 308-309
      | _ => .panic                                                     -- type assertion of line 151
    else .done [] v                                                     -- 312

/-- what a connection delivers after its last byte: end of stream, an error, or nothing (the peer stays silent) (the errors of server.go:83, 103) -/
inductive Tail where
  | eof
  | error
  | silent
deriving DecidableEq

/-- result of `io.ReadFull` (server.go:83, 103) -/
inductive ReadOut where
  | full (b : Bytes) (rest : List Bytes)
  | eof
  | failed                                                              -- io.ErrUnexpectedEOF or another error
  | blocked
deriving DecidableEq

/-- `io.ReadFull(conn, buf)` with `n` bytes still to be read and `acc` already read.  The connection is the list of
the byte strings that successive `Read` calls make available (a `Read` returns at most one of them and at
most as many bytes as the buffer can take), followed by `tail` (server.go:83, 103) -/
def readFull (tail : Tail) : Nat → Bytes → List Bytes → ReadOut
  | 0, acc, chunks => .full acc chunks
  | _ + 1, acc, [] =>
    match tail with
    | .eof => if acc = [] then .eof else .failed
    | .error => .failed
    | .silent => .blocked
  | n + 1, acc, ch :: rest =>
    if n + 1 < ch.length then .full (acc ++ ch.take (n + 1)) (ch.drop (n + 1) :: rest)
    else readFull tail (n + 1 - ch.length) (acc ++ ch) rest

/-- how a connection handler ends (or that it waits for data) (the ends of server.go:55-317) -/
inductive End where
  | closed          -- the handler returned at once
  | closedByTimer   -- the handler returned after waiting for connTimer (lines 111-113)
  | waiting         -- blocked in a read
  | crashed         -- run-time panic: the process dies
  | diverged        -- the fuel of the model ran out (proved impossible)
deriving DecidableEq

/-- result of lines 79-117. -/
inductive Recv where
  | packet (c : Bytes) (rest : List Bytes)
  | stop (e : End)
deriving DecidableEq

/-- lines 96-102: number of bytes to read after the ten header bytes (all arithmetic in uint16). -/
def restLen (hdr : Bytes) : UInt16 :=
  let bodyLen := u16 (sl hdr 5 7)                                       -- 96
  let pkgLen := (hdr.getD 3 0).toUInt16                                 -- 97
  let pkgLen := if bodyLen > 0 then pkgLen + (bodyLen + 2) else pkgLen  -- 98-100
  pkgLen - 10                                                           -- 102

/-- reading one packet, server.go:79-117. -/
def recvPacket (tail : Tail) (chunks : List Bytes) : Recv :=
  match readFull tail 10 [] chunks with                                 -- 82-83
  | .eof => .stop .closedByTimer                                        -- 110-113
  | .failed => .stop .closed                                            -- 114-116
  | .blocked => .stop .waiting
  | .full hdr rest =>
    if hdr.getD 0 0 ≠ 1 then .stop .closed                              -- 90-93
    else
      match readFull tail (restLen hdr).toNat [] rest with              -- 102-103
      | .full buf rest => .packet (hdr ++ buf) rest                     -- 109
      | .blocked => .stop .waiting
      | _ => .stop .closed                                              -- 104-105

/-- what the run-time environment decides for the `k`-th packet of a connection: the text of the current time (line
121) and the bytes of `recvPacket` beyond its length. -/
structure Env where
  now : Nat → Bytes
  spare : Nat → Bytes

/-- the loop of `handleConn`, server.go:72-316, with at most `fuel` iterations: the actions performed, in order, and how
the handler ends. -/
def connLoop (env : Env) (tail : Tail) : Nat → Nat → LoopVars → List Bytes → List Effect × End
  | 0, _, _, _ => ([], .diverged)
  | fuel + 1, k, v, chunks =>
    match recvPacket tail chunks with
    | .stop e => ([], e)
    | .packet c rest =>
      match handlePacket (env.now k) (env.spare k) v.reset c with       -- 74-77 happen before the packet is read
      | .panic => ([], .crashed)
      | .diverge => ([], .diverged)
      | .done l v =>
        let (l', e) := connLoop env tail fuel (k + 1) v rest
        (l ++ l', e)

/-- `handleConn` with a storage (`hasStore = false`: server.go:66-69), server.go:55-317.  The bound on the number of
iterations suffices: every packet consumes at least ten bytes (`streamLoop_fuel`). -/
def handleConn (env : Env) (hasStore : Bool) (tail : Tail) (chunks : List Bytes) : List Effect × End :=
  if hasStore then connLoop env tail (chunks.flatten.length + 1) 0 {} chunks else ([], .closed)

end Egts
