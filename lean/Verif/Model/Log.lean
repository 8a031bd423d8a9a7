import Verif.Model.Storage
import Verif.Model.Config
set_option autoImplicit false
/- Model of the messages that the receiver logs while it serves a connection (the calls of `log` in cli/receiver/server/server.go:66-314), in
their order with the actions of Model/Server. Simplified: a message is its place in the code with the values that belong to it (the error, the service
type, the bytes sent); the address of the client, the texts and the time stamps are left out. What the log storage prints is in Model/JsonIndent. -/
namespace Egts
variable [P : Platform]

/-- the messages of cli/receiver/server/server.go:66-314 -/
inductive LogMsg where
  | noStore                                                             -- 67
  | opened                                                              -- 70
  | notEgts                                                             -- 91
  | bodyFailed                                                          -- 104
  | timedOut                                                            -- 112
  | readFailed                                                          -- 115
  | received                                                            -- 120
  | decodeFailed (e : Err)                                              -- 126
  | rejectionFailed (e : Err)                                           -- 130
  | appdata                                                             -- 140
  | service (n : UInt8)                                                 -- 163
  | subrecord (srt : UInt8)                                             -- 170-270: the kind of the subrecord, by its type code
  | resultFailed (e : Err)                                              -- 172, 181
  | saveFailed (e : StoreErr)                                           -- 295
  | ackFailed (e : Err)                                                 -- 301
  | ackSent (b : Bytes)                                                 -- 306
  | resultSent (b : Bytes)                                              -- 310
  | response                                                            -- 313

/-- the level of a message: the method of `log` that is called (cli/receiver/server/server.go:66-314) -/
def LogMsg.level : LogMsg → LogLevel
  | .noStore => .error
  | .opened => .info
  | .notEgts => .warn
  | .bodyFailed => .error
  | .timedOut => .warn
  | .readFailed => .error
  | .received => .debug
  | .decodeFailed _ => .error
  | .rejectionFailed _ => .error
  | .appdata => .debug
  | .service _ => .info
  | .subrecord _ => .debug
  | .resultFailed _ => .error
  | .saveFailed _ => .error
  | .ackFailed _ => .error
  | .ackSent _ => .debug
  | .resultSent _ => .debug
  | .response => .debug

/-- what a handler does, with its messages (cli/receiver/server/server.go:66-314) -/
inductive Act where
  | log (m : LogMsg)
  | eff (e : Effect)

/-- lines 171-173, 180-182 -/
def resultLog : Go Bytes → List LogMsg
  | .err e => [.resultFailed e]
  | _ => []

/-- messages of the body of the loop over the subrecords, server.go:168-288 -/
def subStepLog (pid : UInt16) (s : ScanSt) (rd : RecordData) : List LogMsg :=
  match rd.SubrecordData with
  | some (.auth _) => .subrecord 7 :: resultLog (createSrResultCode pid 0) -- 170-173
  | some (.response _) => [.subrecord 0]                                -- 175
  | some (.term _) => .subrecord 1 :: resultLog (createSrResultCode pid 0) -- 178-182
  | some (.pos _) => if s.vars.isPkgSave then [] else [.subrecord 16]   -- 187-189
  | some (.ext _) => [.subrecord 17]                                    -- 209
  | some (.ad _) => [.subrecord 18]                                     -- 217
  | some (.absAn _) => [.subrecord 24]                                  -- 245
  | some (.absCntr _) => [.subrecord 25]                                -- 249
  | some (.liquid _) => [.subrecord 27]                                 -- 270
  | _ => []

/-- loop over the subrecords, server.go:167-289 -/
def subLoopLog (pid : UInt16) : ScanSt → List RecordData → List LogMsg
  | _, [] => []
  | s, rd :: rds => subStepLog pid s rd ++
    match subStep pid s rd with
    | .next s => subLoopLog pid s rds
    | _ => []

/-- the state at line 167 of an iteration of the loop over the records (as in `recStep`) -/
def recStart (s : ScanSt) (rec : ServiceDataRecord) : ScanSt := { s with
    packetIDBytes := zeros 4                                            -- 152
    vars := { s.vars with
      srResponsesRecord := s.vars.srResponsesRecord ++ [confirmation rec.RecordNumber] -- 154-161
      serviceType := rec.SourceServiceType }                            -- 162
    exp := { s.exp with ClientID := rec.ObjectIdentifier } }            -- 165

/-- loop over the records, server.go:151-291 -/
def recLoopLog (pid : UInt16) : ScanSt → List ServiceDataRecord → List LogMsg
  | _, [] => []
  | s, r :: rs => .service r.SourceServiceType :: subLoopLog pid (recStart s r) r.RecordDataSet ++ -- 163
    match recStep pid s r with
    | .next s => recLoopLog pid s rs
    | _ => []

/-- server.go:119-314, as `handlePacket` -/
def packetActs (now : Bytes) (spare : Bytes) (v : LoopVars) (c : Bytes) : List Act :=
  .log .received :: match Package.decode {} c spare with                -- 120
  | .panic => []
  | .diverge => []
  | .ret code (some e) p => .log (.decodeFailed e) ::                   -- 126
    match createPtResponse p.PacketIdentifier code v.serviceType [] with -- 128
    | .ok b => [.eff (.write b)]                                        -- 133
    | .err e => [.log (.rejectionFailed e)]                             -- 130
    | .panic => []
  | .ret code none p =>
    if p.PacketType = 1 then .log .appdata ::                           -- 140
      match p.ServicesFrameData with
      | some (.appdata l) =>
        let exp : NavRecord := {                                        -- 142-147
          ServerID := serverId, PacketID := p.PacketIdentifier.toUInt32, ReceivedDt := now, LocStatesCount := 0 }
        (recLoopLog p.PacketIdentifier { vars := { v with isPkgSave := false }, exp := exp } l).map .log ++
        match recLoop p.PacketIdentifier { vars := { v with isPkgSave := false }, exp := exp } l with -- 149-291
        | .panic => []
        | .received _ => []
        | .next s =>
          (if s.vars.isPkgSave then [.eff (.save s.exp)] else []) ++    -- 293-294
          match createPtResponse p.PacketIdentifier code s.vars.serviceType s.vars.srResponsesRecord with -- 299
          | .panic => []
          | .err e => [.log (.ackFailed e)]                             -- 301
          | .ok b => [.eff (.write b), .log (.ackSent b)] ++            -- 304, 306
              (if s.vars.srResultCodePkg.length > 0 then
                [.eff (.write s.vars.srResultCodePkg), .log (.resultSent s.vars.srResultCodePkg)] else []) -- 309-310
      | _ => []
    else if p.PacketType = 0 then [.log .response]                      -- 313
    else []

/-- messages of reading a packet, server.go:79-117 -/
def recvLog (tail : Tail) (chunks : List Bytes) : List LogMsg :=
  match readFull tail 10 [] chunks with                                 -- 82-83
  | .eof => [.timedOut]                                                 -- 112
  | .failed => [.readFailed]                                            -- 115
  | .blocked => []
  | .full hdr rest =>
    if hdr.getD 0 0 ≠ 1 then [.notEgts]                                 -- 91
    else
      match readFull tail (restLen hdr).toNat [] rest with              -- 102-103
      | .full _ _ => []
      | .blocked => []
      | _ => [.bodyFailed]                                              -- 104

/-- the loop of `handleConn`, server.go:72-316, as `connLoop` -/
def connActs (env : Env) (tail : Tail) : Nat → Nat → LoopVars → List Bytes → List Act
  | 0, _, _, _ => []
  | fuel + 1, k, v, chunks =>
    (recvLog tail chunks).map .log ++
    match recvPacket tail chunks with
    | .stop _ => []
    | .packet c rest =>
      packetActs (env.now k) (env.spare k) v.reset c ++
      match handlePacket (env.now k) (env.spare k) v.reset c with
      | .done _ v => connActs env tail fuel (k + 1) v rest
      | _ => []

/-- `handleConn`, server.go:55-317, with its messages -/
def handleConnActs (env : Env) (hasStore : Bool) (tail : Tail) (chunks : List Bytes) : List Act :=
  if hasStore then .log .opened :: connActs env tail (chunks.flatten.length + 1) 0 {} chunks -- 70
  else [.log .noStore]                                                  -- 66-69

/-- the messages of a handler that works with the storages `ss`, as `perform`: the result of `Save` decides on the message of line 295; a panic ends
everything -/
def logOf {W : Type} (ss : List (Saver W)) : List Act → W → List LogMsg
  | [], _ => []
  | .log m :: l, w => m :: logOf ss l w
  | .eff (.write _) :: l, w => logOf ss l w
  | .eff (.save r) :: l, w =>
    match repoSave ss r w with                                          -- 294
    | (.ok, w) => logOf ss l w
    | (.err e, w) => .saveFailed e :: logOf ss l w                      -- 295
    | (.panic, _) => []

/-- what is printed at a level (logrus: messages whose level is at most the configured one, main.go:25) -/
def printedAt (level : LogLevel) (l : List LogMsg) : List LogMsg := l.filter fun m => m.level.num ≤ level.num

end Egts
