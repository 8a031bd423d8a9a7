import Verif.Model.Records
set_option autoImplicit false
/- What decoding into a value that was used before should give, and what it gives. -/
namespace Egts

/-- `used` is the outcome of decoding into a value that was used before, `fresh` that of decoding the same bytes into an empty one:
both succeed, or both fail with the same error (or both panic, or neither returns); after a success the used value is `keep` of the fresh one -/
def SameBut {σ : Type} (keep : σ → σ) (used fresh : Out σ) : Prop :=
  match fresh with
  | .ok q => used = .ok (keep q)
  | .err x _ => ∃ q, used = .err x q
  | .panic => used = .panic
  | .diverge => used = .diverge

/-- exactly the same -/
def Same {σ : Type} (used fresh : Out σ) : Prop := SameBut id used fresh

/-! Fields that stay from the old value `e`: `q` is the value decoded from the bytes alone. -/

/-- the altitude, unless it is announced; and `SourceData`, which the decoder never fills -/
def SrPosData.stale (e q : SrPosData) : SrPosData :=
  { q with Altitude := if q.ALTE = [49] then q.Altitude else e.Altitude, SourceData := e.SourceData }

/-- what is not announced -/
def SrExtPosData.stale (e q : SrExtPosData) : SrExtPosData := { q with
  VerticalDilutionOfPrecision := if q.VdopFieldExists = [49] then q.VerticalDilutionOfPrecision else e.VerticalDilutionOfPrecision
  HorizontalDilutionOfPrecision := if q.HdopFieldExists = [49] then q.HorizontalDilutionOfPrecision else e.HorizontalDilutionOfPrecision
  PositionDilutionOfPrecision := if q.PdopFieldExists = [49] then q.PositionDilutionOfPrecision else e.PositionDilutionOfPrecision
  Satellites := if q.SatellitesFieldExists = [49] then q.Satellites else e.Satellites
  NavigationSystem := if q.NavigationSystemFieldExists = [49] then q.NavigationSystem else e.NavigationSystem }

/-- what is not announced -/
def SrAdSensorsData.stale (e q : SrAdSensorsData) : SrAdSensorsData := { q with
  ADIO1 := if q.DIOE1 = [49] then q.ADIO1 else e.ADIO1
  ADIO2 := if q.DIOE2 = [49] then q.ADIO2 else e.ADIO2
  ADIO3 := if q.DIOE3 = [49] then q.ADIO3 else e.ADIO3
  ADIO4 := if q.DIOE4 = [49] then q.ADIO4 else e.ADIO4
  ADIO5 := if q.DIOE5 = [49] then q.ADIO5 else e.ADIO5
  ADIO6 := if q.DIOE6 = [49] then q.ADIO6 else e.ADIO6
  ADIO7 := if q.DIOE7 = [49] then q.ADIO7 else e.ADIO7
  ADIO8 := if q.DIOE8 = [49] then q.ADIO8 else e.ADIO8
  ANS1 := if q.ASFE1 = [49] then q.ANS1 else e.ANS1
  ANS2 := if q.ASFE2 = [49] then q.ANS2 else e.ANS2
  ANS3 := if q.ASFE3 = [49] then q.ANS3 else e.ANS3
  ANS4 := if q.ASFE4 = [49] then q.ANS4 else e.ANS4
  ANS5 := if q.ASFE5 = [49] then q.ANS5 else e.ANS5
  ANS6 := if q.ASFE6 = [49] then q.ANS6 else e.ANS6
  ANS7 := if q.ASFE7 = [49] then q.ANS7 else e.ANS7
  ANS8 := if q.ASFE8 = [49] then q.ANS8 else e.ANS8 }

/-- what is not announced, and counter 2 in any case (its value is put in counter 1) -/
def SrCountersData.stale (e q : SrCountersData) : SrCountersData := { q with
  CN1 := if q.CFE1 = [49] ∨ q.CFE2 = [49] then q.CN1 else e.CN1
  CN2 := e.CN2
  CN3 := if q.CFE3 = [49] then q.CN3 else e.CN3
  CN4 := if q.CFE4 = [49] then q.CN4 else e.CN4
  CN5 := if q.CFE5 = [49] then q.CN5 else e.CN5
  CN6 := if q.CFE6 = [49] then q.CN6 else e.CN6
  CN7 := if q.CFE7 = [49] then q.CN7 else e.CN7
  CN8 := if q.CFE8 = [49] then q.CN8 else e.CN8 }

/-- what is not announced -/
def SrTermIdentity.stale (e q : SrTermIdentity) : SrTermIdentity := { q with
  HomeDispatcherIdentifier := if q.HDIDE = [49] then q.HomeDispatcherIdentifier else e.HomeDispatcherIdentifier
  IMEI := if q.IMEIE = [49] then q.IMEI else e.IMEI
  IMSI := if q.IMSIE = [49] then q.IMSI else e.IMSI
  LanguageCode := if q.LNGCE = [49] then q.LanguageCode else e.LanguageCode
  NetworkIdentifier := if q.NIDE = [49] then q.NetworkIdentifier else e.NetworkIdentifier
  BufferSize := if q.BSE = [49] then q.BufferSize else e.BufferSize
  MobileNumber := if q.MNE = [49] then q.MobileNumber else e.MobileNumber }

/-- the server sequence, if the bytes `c` end after user name and password -/
def SrAuthInfo.stale (c : Bytes) (e q : SrAuthInfo) : SrAuthInfo :=
  { q with ServerSequence := if c.length ≤ q.UserName.length + q.UserPassword.length + 2 then e.ServerSequence else q.ServerSequence }

/-- the records of the answer, if the bytes `c` have none -/
def PtResponse.stale [P : Platform] (c : Bytes) (e q : PtResponse) : PtResponse :=
  { q with SDR := if c.length ≤ 3 then e.SDR else q.SDR }

end Egts
