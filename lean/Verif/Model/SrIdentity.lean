import Verif.Go.Basic
set_option autoImplicit false
/- Models of the identification subrecords: libs/egts/egts_sr_auth_info.go,
egts_sr_dispatcher_identity.go, egts_sr_term_identity.go. -/
namespace Egts

/-- `SrAuthInfo`, egts_sr_auth_info.go:12-16. -/
structure SrAuthInfo where
  UserName : Bytes := []
  UserPassword : Bytes := []
  ServerSequence : Bytes := []
deriving DecidableEq

/-- `buf.ReadString(0x00)` followed by `strings.TrimSuffix(s, "\x00")`: the bytes before the
first NUL; io.EOF when there is none. -/
def readNul {σ : Type} : Dec σ Bytes := fun s r =>
  if 0 ∈ r then .ok (r.takeWhile (· ≠ 0)) s ((r.dropWhile (· ≠ 0)).drop 1) else .err .eof s

/-- body of `(*SrAuthInfo).Decode`, egts_sr_auth_info.go:19-49. -/
def SrAuthInfo.decodeM : Dec SrAuthInfo Unit := do
  let t ← readNul                                                       -- 28
  Dec.upd fun e => { e with UserName := t }                             -- 32
  let t ← readNul                                                       -- 34
  Dec.upd fun e => { e with UserPassword := t }                         -- 38
  let r ← Dec.unread
  Dec.when (decide (r.length > 0)) do                                   -- 40
    let t ← readNul                                                     -- 41
    Dec.upd fun e => { e with ServerSequence := t }                     -- 45

/-- `(*SrAuthInfo).Decode`, egts_sr_auth_info.go:19-49. -/
def SrAuthInfo.decode (e : SrAuthInfo) (content : Bytes) : Out SrAuthInfo :=
  SrAuthInfo.decodeM.run e content

/-- `(*SrAuthInfo).Encode`, egts_sr_auth_info.go:52-74. -/
def SrAuthInfo.encode (e : SrAuthInfo) : Go Bytes :=
  .ok (e.UserName ++ [0] ++ e.UserPassword ++ [0]
    ++ (if e.ServerSequence ≠ [] then e.ServerSequence ++ [0] else []))

/-- `SrDispatcherIdentity`, egts_sr_dispatcher_identity.go:12-16. -/
structure SrDispatcherIdentity where
  DispatcherType : UInt8 := 0
  DispatcherID : UInt32 := 0
  Description : Bytes := []
deriving DecidableEq

/-- body of `(*SrDispatcherIdentity).Decode`, egts_sr_dispatcher_identity.go:19-37. -/
def SrDispatcherIdentity.decodeM : Dec SrDispatcherIdentity Unit := do
  Dec.readByteTo fun e b => { e with DispatcherType := b }              -- 24
  let t ← Dec.read (zeros 4)                                            -- 28-29
  Dec.upd fun e => { e with DispatcherID := u32 t }                     -- 32
  let r ← Dec.unread
  Dec.upd fun e => { e with Description := r }                          -- 34

/-- `(*SrDispatcherIdentity).Decode`, egts_sr_dispatcher_identity.go:19-37. -/
def SrDispatcherIdentity.decode (e : SrDispatcherIdentity) (content : Bytes) : Out SrDispatcherIdentity :=
  SrDispatcherIdentity.decodeM.run e content

/-- `(*SrDispatcherIdentity).Encode`, egts_sr_dispatcher_identity.go:40-61. -/
def SrDispatcherIdentity.encode (e : SrDispatcherIdentity) : Go Bytes :=
  .ok ([e.DispatcherType] ++ le32 e.DispatcherID ++ e.Description)

/-- `SrTermIdentity`, egts_sr_term_identity.go:12-29. -/
structure SrTermIdentity where
  TerminalIdentifier : UInt32 := 0
  MNE : Bytes := []
  BSE : Bytes := []
  NIDE : Bytes := []
  SSRA : Bytes := []
  LNGCE : Bytes := []
  IMSIE : Bytes := []
  IMEIE : Bytes := []
  HDIDE : Bytes := []
  HomeDispatcherIdentifier : UInt16 := 0
  IMEI : Bytes := []
  IMSI : Bytes := []
  LanguageCode : Bytes := []
  NetworkIdentifier : Bytes := []
  BufferSize : UInt16 := 0
  MobileNumber : Bytes := []
deriving DecidableEq

/-- body of `(*SrTermIdentity).Decode`, egts_sr_term_identity.go:32-115.
(Simplification: on a failing read of the network id, line 93, `NetworkIdentifier` is already
a zeroed 3-byte slice; the model leaves the field unchanged on that error.) -/
def SrTermIdentity.decodeM : Dec SrTermIdentity Unit := do
  let t ← Dec.read (zeros 4)                                            -- 39-40
  Dec.upd fun e => { e with TerminalIdentifier := u32 t }               -- 43
  let flags ← Dec.readByte                                              -- 45
  let fb := fmtBin 8 flags.toNat                                        -- 48
  Dec.upd fun e => { e with                                             -- 49-56
    MNE := sl fb 0 1, BSE := sl fb 1 2, NIDE := sl fb 2 3, SSRA := sl fb 3 4,
    LNGCE := sl fb 4 5, IMSIE := sl fb 5 6, IMEIE := sl fb 6 7, HDIDE := sl fb 7 8 }
  let _ ← Dec.optRead (·.HDIDE) (zeros 2) u16 fun e v => { e with HomeDispatcherIdentifier := v }  -- 58-65
  let _ ← Dec.optRead (·.IMEIE) (zeros 15) id fun e v => { e with IMEI := v }                      -- 67-73
  let _ ← Dec.optRead (·.IMSIE) (zeros 16) id fun e v => { e with IMSI := v }                      -- 75-81
  let _ ← Dec.optRead (·.LNGCE) (zeros 3) id fun e v => { e with LanguageCode := v }               -- 83-89
  let _ ← Dec.optRead (·.NIDE) (zeros 3) id fun e v => { e with NetworkIdentifier := v }           -- 91-96
  let _ ← Dec.optRead (·.BSE) (zeros 2) u16 fun e v => { e with BufferSize := v }               -- 98-104
  let _ ← Dec.optRead (·.MNE) (zeros 15) id fun e v => { e with MobileNumber := v }                -- 106-112
  pure ()

/-- `(*SrTermIdentity).Decode`, egts_sr_term_identity.go:32-115. -/
def SrTermIdentity.decode (e : SrTermIdentity) (content : Bytes) : Out SrTermIdentity :=
  SrTermIdentity.decodeM.run e content

/-- egts_sr_term_identity.go:142-149: write a string and pad it with zeros up to `n` bytes
(a longer string is written in full). -/
def padTo (n : Nat) (s : Bytes) : Bytes := s ++ zeros (n - s.length)

/-- `(*SrTermIdentity).Encode`, egts_sr_term_identity.go:118-189.  The error of ParseUint in
line 130 is overwritten in line 131, so malformed flags are written as the value ParseUint
returned together with the error. -/
def SrTermIdentity.encode (e : SrTermIdentity) : Go Bytes :=
  let flags := (parseUint2 (e.MNE ++ e.BSE ++ e.NIDE ++ e.SSRA ++ e.LNGCE ++ e.IMSIE ++ e.IMEIE
    ++ e.HDIDE) 8).1                                                    -- 130
  .ok (le32 e.TerminalIdentifier ++ [UInt8.ofNat flags]                 -- 126, 131
    ++ (if e.HDIDE == [49] then le16 e.HomeDispatcherIdentifier else []) -- 135-139
    ++ (if e.IMEIE == [49] then padTo 15 e.IMEI else [])                -- 141-150
    ++ (if e.IMSIE == [49] then padTo 16 e.IMSI else [])                -- 152-161
    ++ (if e.LNGCE == [49] then e.LanguageCode else [])                 -- 163-167
    ++ (if e.NIDE == [49] then e.NetworkIdentifier else [])             -- 169-173
    ++ (if e.BSE == [49] then le16 e.BufferSize else [])                -- 175-179
    ++ (if e.MNE == [49] then e.MobileNumber else []))                  -- 181-185

end Egts
