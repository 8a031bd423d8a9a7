import Verif.Model.Records
import Verif.Model.Crc
set_option autoImplicit false
/- Model of libs/egts/egts_pkg.go. -/
namespace Egts
variable [P : Platform]

/-- dynamic values of `Package.ServicesFrameData` (egts_pkg.go:31): the two kinds that Decode
creates and that the programs in cli/ pass to Encode. -/
inductive Body where
  | appdata (s : ServiceDataSet)
  | response (r : PtResponse)

/-- `Package`, egts_pkg.go:14-33. -/
structure Package where
  ProtocolVersion : UInt8 := 0
  SecurityKeyID : UInt8 := 0
  Prefix : Bytes := []
  Route : Bytes := []
  EncryptionAlg : Bytes := []
  Compression : Bytes := []
  Priority : Bytes := []
  HeaderLength : UInt8 := 0
  HeaderEncoding : UInt8 := 0
  FrameDataLength : UInt16 := 0
  PacketIdentifier : UInt16 := 0
  PacketType : UInt8 := 0
  PeerAddress : UInt16 := 0
  RecipientAddress : UInt16 := 0
  TimeToLive : UInt8 := 0
  HeaderCheckSum : UInt8 := 0
  ServicesFrameData : Option Body := none
  ServicesFrameDataCheckSum : UInt16 := 0

/-- outcome of `(*Package).Decode`: result code, error, receiver after the call (libs/egts/egts_pkg.go:36-137) -/
inductive PkgOut where
  | ret (code : UInt8) (err : Option Err) (p : Package)
  | panic
  | diverge

/-- Go slice expression `s[lo:hi]` where `backing` is `s` extended to its capacity; `none` is
the run-time panic (as in libs/egts/egts_pkg.go:36-137) -/
def goSlice (backing : Bytes) (lo hi : Nat) : Option Bytes :=
  if lo ≤ hi ∧ hi ≤ backing.length then some ((backing.drop lo).take (hi - lo)) else none

/-- header part of `(*Package).Decode`, egts_pkg.go:41-103 (every error in it is returned with
code 131). -/
def Package.decodeHeaderM : Dec Package Unit := do
  Dec.readByteTo fun p b => { p with ProtocolVersion := b }             -- 42
  Dec.readByteTo fun p b => { p with SecurityKeyID := b }               -- 46
  let flags ← Dec.readByte                                              -- 51
  let fb := fmtBin 8 flags.toNat                                        -- 54
  Dec.upd fun p => { p with                                             -- 55-59
    Prefix := sl fb 0 2, Route := sl fb 2 3, EncryptionAlg := sl fb 3 5,
    Compression := sl fb 5 6, Priority := sl fb 6 8 }
  Dec.readByteTo fun p b => { p with HeaderLength := b }                -- 61
  Dec.readByteTo fun p b => { p with HeaderEncoding := b }              -- 65
  let t ← Dec.read (zeros 2)                                            -- 69-70
  Dec.upd fun p => { p with FrameDataLength := u16 t }                  -- 73
  let t ← Dec.read t                                                    -- 75 (same buffer)
  Dec.upd fun p => { p with PacketIdentifier := u16 t }                 -- 78
  Dec.readByteTo fun p b => { p with PacketType := b }                  -- 80
  let p ← Dec.get
  Dec.when (p.Route == [49]) do                                         -- 84
    let t ← Dec.read t                                                  -- 85 (same buffer)
    Dec.upd fun p => { p with PeerAddress := u16 t }                    -- 88
    let t ← Dec.read t                                                  -- 90 (same buffer)
    Dec.upd fun p => { p with RecipientAddress := u16 t }               -- 93
    Dec.readByteTo fun p b => { p with TimeToLive := b }                -- 95
  Dec.readByteTo fun p b => { p with HeaderCheckSum := b }              -- 100

/-- the end of `(*Package).Decode`, egts_pkg.go:127-136: checksum of the body; `r` is the unread input. -/
def Package.decodeTail (p : Package) (backing : Bytes) (r : Bytes) : PkgOut :=
  match (Dec.read (zeros 2) : Dec Package Bytes) p r with               -- 127-128
  | .err e p => .ret 129 (some e) p
  | .panic => .panic
  | .diverge => .diverge
  | .ok c p _ =>
    let p := { p with ServicesFrameDataCheckSum := u16 c }              -- 131
    match goSlice backing p.HeaderLength.toNat
        (p.HeaderLength.toUInt16 + p.FrameDataLength).toNat with        -- 133 (uint16 addition wraps)
    | none => .panic
    | some b =>
      if p.ServicesFrameDataCheckSum ≠ crc16 b then .ret 137 (some .bodyCrc) p  -- 134
      else .ret 0 none p                                                -- 136

/-- `(*Package).Decode` on receiver `p`, egts_pkg.go:36-137.  `content ++ spare` are the bytes
of the argument slice up to its capacity. -/
def Package.decode (p : Package) (content spare : Bytes) : PkgOut :=
  let backing := content ++ spare
  match Package.decodeHeaderM p content with
  | .err e p => .ret 131 (some e) p
  | .panic => .panic
  | .diverge => .diverge
  | .ok _ p r =>
    match goSlice backing 0 (p.HeaderLength - 1).toNat with             -- 104 (byte subtraction wraps)
    | none => .panic
    | some h =>
      if p.HeaderCheckSum ≠ crc8 h then .ret 137 (some .headerCrc) p    -- 105
      else
        match (Dec.read (zeros p.FrameDataLength.toNat) : Dec Package Bytes) p r with -- 108-109
        | .err e p => .ret 132 (some e) p                               -- 110
        | .panic => .panic
        | .diverge => .diverge
        | .ok body p r =>
          if p.PacketType = 1 then                                      -- 113
            match ServiceDataSet.decode [] body with                    -- 114, 123
            | .err e s => .ret 129 (some e) { p with ServicesFrameData := some (.appdata s) }
            | .panic => .panic
            | .diverge => .diverge
            | .ok s => Package.decodeTail { p with ServicesFrameData := some (.appdata s) } backing r
          else if p.PacketType = 0 then                                 -- 116
            match PtResponse.decode {} body with                        -- 117, 123
            | .err e s => .ret 129 (some e) { p with ServicesFrameData := some (.response s) }
            | .panic => .panic
            | .diverge => .diverge
            | .ok s => Package.decodeTail { p with ServicesFrameData := some (.response s) } backing r
          else .ret 133 (some (.unsupportedPacketType p.PacketType)) p  -- 120

/-- dynamic dispatch of `Encode` on the body, egts_pkg.go:177. -/
def Body.encode : Body → Go Bytes
  | .appdata s => ServiceDataSet.encode s
  | .response r => r.encode

/-- `(*Package).Encode`, egts_pkg.go:140-225: the encoded bytes and the receiver after the
call (HeaderLength and FrameDataLength are filled in). -/
def Package.encode (p : Package) : Go (Bytes × Package) := do
  let flags ← parseFlags (p.Prefix ++ p.Route ++ p.EncryptionAlg ++ p.Compression ++ p.Priority) -- 156-159
  let hl : UInt8 := if p.HeaderLength = 0 then                          -- 165-170
      (if p.Route == [49] then 11 + 5 else 11) else p.HeaderLength
  let p := { p with HeaderLength := hl }
  let sfrd ← (match p.ServicesFrameData with                            -- 180-186
    | none => .ok []
    | some b => b.encode : Go Bytes)
  let p := { p with FrameDataLength := len16 sfrd }                     -- 187
  let hdr := [p.ProtocolVersion, p.SecurityKeyID, flags, p.HeaderLength, p.HeaderEncoding]
    ++ le16 p.FrameDataLength ++ le16 p.PacketIdentifier ++ [p.PacketType]
    ++ (if p.Route == [49] then                                         -- 200-212
        le16 p.PeerAddress ++ le16 p.RecipientAddress ++ [p.TimeToLive] else [])
  let out := hdr ++ [crc8 hdr]                                          -- 214
  if p.FrameDataLength > 0 then                                         -- 216
    pure (out ++ sfrd ++ le16 (crc16 sfrd), p)
  else pure (out, p)

end Egts
