import Verif.Props.PackageJson
set_option autoImplicit false
set_option linter.unusedSimpArgs false
/- C105, C106: the document of a package. -/
namespace Egts
open JsonP
variable [P : Platform]

/-! ### the value of a package has the document of the specification -/

omit P in
theorem signed16_eq (x : UInt16) : signed16 x = x.toInt16.toInt := by
  unfold signed16
  have h : x.toInt16.toInt = x.toBitVec.toInt := rfl
  have h2 : x.toBitVec.toNat = x.toNat := rfl
  have := x.toNat_lt
  rw [h, BitVec.toInt_eq_toNat_cond, h2]
  split <;> split <;> omega

omit P in
theorem bytesVal_json (D : DocFmt) (s : Bytes) : (bytesVal s).json D = docBytes D s := by
  unfold bytesVal docBytes
  split <;> rfl

section
omit P
variable (D : DocFmt)
theorem SrPosData.json_doc (e : SrPosData) : e.goVal.json D = e.doc D := by
  simp only [SrPosData.goVal, SrPosData.doc, GoVal.json, GoVal.jmembers, Int.cast_natCast, signed16_eq]
theorem SrTermIdentity.json_doc (e : SrTermIdentity) : e.goVal.json D = e.doc D := by
  simp only [SrTermIdentity.goVal, SrTermIdentity.doc, GoVal.json, GoVal.jmembers, Int.cast_natCast, bytesVal_json]
theorem SrResponse.json_doc (e : SrResponse) : e.goVal.json D = e.doc := by
  simp only [SrResponse.goVal, SrResponse.doc, GoVal.json, GoVal.jmembers, Int.cast_natCast]
theorem SrResultCode.json_doc (e : SrResultCode) : e.goVal.json D = e.doc := by
  simp only [SrResultCode.goVal, SrResultCode.doc, GoVal.json, GoVal.jmembers, Int.cast_natCast]
theorem SrExtPosData.json_doc (e : SrExtPosData) : e.goVal.json D = e.doc := by
  simp only [SrExtPosData.goVal, SrExtPosData.doc, GoVal.json, GoVal.jmembers, Int.cast_natCast]
theorem SrAdSensorsData.json_doc (e : SrAdSensorsData) : e.goVal.json D = e.doc := by
  simp only [SrAdSensorsData.goVal, SrAdSensorsData.doc, GoVal.json, GoVal.jmembers, Int.cast_natCast]
theorem SrStateData.json_doc (e : SrStateData) : e.goVal.json D = e.doc := by
  simp only [SrStateData.goVal, SrStateData.doc, GoVal.json, GoVal.jmembers, Int.cast_natCast]
theorem SrLiquidLevelSensor.json_doc (e : SrLiquidLevelSensor) : e.goVal.json D = e.doc := by
  simp only [SrLiquidLevelSensor.goVal, SrLiquidLevelSensor.doc, GoVal.json, GoVal.jmembers, Int.cast_natCast]
theorem SrAbsCntrData.json_doc (e : SrAbsCntrData) : e.goVal.json D = e.doc := by
  simp only [SrAbsCntrData.goVal, SrAbsCntrData.doc, GoVal.json, GoVal.jmembers, Int.cast_natCast]
theorem SrAuthInfo.json_doc (e : SrAuthInfo) : e.goVal.json D = e.doc := by
  simp only [SrAuthInfo.goVal, SrAuthInfo.doc, GoVal.json, GoVal.jmembers]
theorem SrCountersData.json_doc (e : SrCountersData) : e.goVal.json D = e.doc := by
  simp only [SrCountersData.goVal, SrCountersData.doc, GoVal.json, GoVal.jmembers, Int.cast_natCast]
theorem SrAbsAnSensData.json_doc (e : SrAbsAnSensData) : e.goVal.json D = e.doc := by
  simp only [SrAbsAnSensData.goVal, SrAbsAnSensData.doc, GoVal.json, GoVal.jmembers, Int.cast_natCast]
theorem SrDispatcherIdentity.json_doc (e : SrDispatcherIdentity) : e.goVal.json D = e.doc := by
  simp only [SrDispatcherIdentity.goVal, SrDispatcherIdentity.doc, GoVal.json, GoVal.jmembers, Int.cast_natCast]

theorem jsons_map {α : Type} (f : α → GoVal) (l : List α) : GoVal.jsons D (l.map f) = l.map fun x => (f x).json D := by
  induction l with
  | nil => rfl
  | cons a l ih => simp only [List.map_cons, GoVal.jsons, ih]
end

/-- how the rest is written -/
def PkgVals.rest (V : PkgVals) (D : DocFmt) : DocRest where
  pb m := (V.pb m).json D
  nilRD := V.nilRD

section
variable (D : DocFmt) (V : PkgVals)

theorem subVal_json (d : Option SubData) : (subVal V.pb d).json D = docOpt (SubData.doc D (V.rest D)) d := by
  match d with
  | none => rfl
  | some (.pos d) => exact d.json_doc D
  | some (.term d) => exact d.json_doc D
  | some (.response d) => exact d.json_doc D
  | some (.result d) => exact d.json_doc D
  | some (.ext d) => exact d.json_doc D
  | some (.ad d) => exact d.json_doc D
  | some (.state d) => exact d.json_doc D
  | some (.liquid d) => exact d.json_doc D
  | some (.absCntr d) => exact d.json_doc D
  | some (.auth d) => exact d.json_doc D
  | some (.counters d) => exact d.json_doc D
  | some (.storage m) => rfl
  | some (.absAn d) => exact d.json_doc D
  | some (.dispatcher d) => exact d.json_doc D

theorem RecordData.json_doc (e : RecordData) : (e.goVal V.pb).json D = e.doc D (V.rest D) := by
  simp only [RecordData.goVal, RecordData.doc, GoVal.json, GoVal.jmembers, Int.cast_natCast, subVal_json]

theorem rdVal_json (e : ServiceDataRecord) : (rdVal V e).json D =
    if e.RecordDataSet = [] ∧ (V.rest D).nilRD e then .null else .arr (e.RecordDataSet.map (RecordData.doc D (V.rest D))) := by
  unfold rdVal
  have : (e.RecordDataSet.isEmpty = true ∧ V.nilRD e = true) ↔ (e.RecordDataSet = [] ∧ (V.rest D).nilRD e = true) := by
    rw [List.isEmpty_iff]; rfl
  by_cases h : e.RecordDataSet = [] ∧ (V.rest D).nilRD e = true
  · rw [if_pos h, if_pos (this.mpr h)]; rfl
  · rw [if_neg h, if_neg (fun x => h (this.mp x))]
    simp only [GoVal.json, jsons_map, RecordData.json_doc]

theorem ServiceDataRecord.json_doc (e : ServiceDataRecord) : (e.goVal V).json D = e.doc D (V.rest D) := by
  simp only [ServiceDataRecord.goVal, ServiceDataRecord.doc, GoVal.json, GoVal.jmembers, Int.cast_natCast, rdVal_json]

theorem sdsVal_json (l : ServiceDataSet) : (sdsVal V l).json D = sdsDoc D (V.rest D) l := by
  simp only [sdsVal, sdsDoc, GoVal.json, jsons_map, ServiceDataRecord.json_doc]

theorem PtResponse.json_doc (e : PtResponse) : (e.goVal V).json D = e.doc D (V.rest D) := by
  unfold PtResponse.goVal PtResponse.doc
  cases e.SDR with
  | none => simp only [GoVal.json, GoVal.jmembers, Int.cast_natCast, docOpt]
  | some s => simp only [GoVal.json, GoVal.jmembers, Int.cast_natCast, docOpt, sdsVal_json]

theorem bodyVal_json (b : Option Body) : (bodyVal V b).json D = docOpt (Body.doc D (V.rest D)) b := by
  match b with
  | none => rfl
  | some (.appdata s) => exact sdsVal_json D V s
  | some (.response e) => exact e.json_doc D V

theorem Package.json_doc (p : Package) : (p.goVal V).json D = p.doc D (V.rest D) := by
  simp only [Package.goVal, Package.doc, GoVal.json, GoVal.jmembers, Int.cast_natCast, bodyVal_json]
end

/-! ### names -/

omit P in
theorem keyedL_map {α : Type} (f : α → GoVal) (l : List α) (h : ∀ x ∈ l, (f x).Keyed) : GoVal.KeyedL (l.map f) := by
  induction l with
  | nil => trivial
  | cons a l ih => exact ⟨h a (by simp), ih fun x hx => h x (by simp [hx])⟩

omit P in
theorem keyed_bytes (s : Bytes) : (bytesVal s).Keyed := by unfold bytesVal; split <;> trivial

theorem keyed_sub (V : PkgVals) (hpb : ∀ m, (V.pb m).Keyed) (d : Option SubData) : (subVal V.pb d).Keyed := by
  match d with
  | none => trivial
  | some (.storage m) => exact hpb m
  | some (.term d) =>
    simp only [subVal, SrTermIdentity.goVal, GoVal.Keyed, GoVal.KeyedM, keyed_bytes, and_true, true_and]
    decide +kernel
  | some (.pos d) => simp only [subVal, SrPosData.goVal, GoVal.Keyed, GoVal.KeyedM, and_true, true_and]; decide +kernel
  | some (.response d) => simp only [subVal, SrResponse.goVal, GoVal.Keyed, GoVal.KeyedM, and_true, true_and]; decide +kernel
  | some (.result d) => simp only [subVal, SrResultCode.goVal, GoVal.Keyed, GoVal.KeyedM, and_true]; decide +kernel
  | some (.ext d) => simp only [subVal, SrExtPosData.goVal, GoVal.Keyed, GoVal.KeyedM, and_true, true_and]; decide +kernel
  | some (.ad d) => simp only [subVal, SrAdSensorsData.goVal, GoVal.Keyed, GoVal.KeyedM, and_true, true_and]; decide +kernel
  | some (.state d) => simp only [subVal, SrStateData.goVal, GoVal.Keyed, GoVal.KeyedM, and_true, true_and]; decide +kernel
  | some (.liquid d) => simp only [subVal, SrLiquidLevelSensor.goVal, GoVal.Keyed, GoVal.KeyedM, and_true, true_and]; decide +kernel
  | some (.absCntr d) => simp only [subVal, SrAbsCntrData.goVal, GoVal.Keyed, GoVal.KeyedM, and_true, true_and]; decide +kernel
  | some (.auth d) => simp only [subVal, SrAuthInfo.goVal, GoVal.Keyed, GoVal.KeyedM, and_true, true_and]; decide +kernel
  | some (.counters d) => simp only [subVal, SrCountersData.goVal, GoVal.Keyed, GoVal.KeyedM, and_true, true_and]; decide +kernel
  | some (.absAn d) => simp only [subVal, SrAbsAnSensData.goVal, GoVal.Keyed, GoVal.KeyedM, and_true, true_and]; decide +kernel
  | some (.dispatcher d) => simp only [subVal, SrDispatcherIdentity.goVal, GoVal.Keyed, GoVal.KeyedM, and_true, true_and]; decide +kernel

theorem keyed_rd (V : PkgVals) (hpb : ∀ m, (V.pb m).Keyed) (e : RecordData) : (e.goVal V.pb).Keyed := by
  simp only [RecordData.goVal, GoVal.Keyed, GoVal.KeyedM, keyed_sub V hpb, and_true, true_and]; decide +kernel

theorem keyed_sdr (V : PkgVals) (hpb : ∀ m, (V.pb m).Keyed) (e : ServiceDataRecord) : (e.goVal V).Keyed := by
  have : (rdVal V e).Keyed := by
    unfold rdVal
    split
    · trivial
    · exact keyedL_map _ _ fun x _ => keyed_rd V hpb x
  simp only [ServiceDataRecord.goVal, GoVal.Keyed, GoVal.KeyedM, this, and_true, true_and]; decide +kernel

theorem keyed_sds (V : PkgVals) (hpb : ∀ m, (V.pb m).Keyed) (l : ServiceDataSet) : (sdsVal V l).Keyed :=
  keyedL_map _ _ fun x _ => keyed_sdr V hpb x

theorem keyed_body (V : PkgVals) (hpb : ∀ m, (V.pb m).Keyed) (b : Option Body) : (bodyVal V b).Keyed := by
  match b with
  | none => trivial
  | some (.appdata s) => exact keyed_sds V hpb s
  | some (.response e) =>
    have : (match e.SDR with | none => GoVal.nul | some s => sdsVal V s).Keyed := by
      split
      · trivial
      · exact keyed_sds V hpb _
    simp only [bodyVal, PtResponse.goVal, GoVal.Keyed, GoVal.KeyedM, and_true, true_and]
    exact ⟨by decide +kernel, by decide +kernel, by decide +kernel, this⟩

theorem keyed_package (V : PkgVals) (hpb : ∀ m, (V.pb m).Keyed) (p : Package) : (p.goVal V).Keyed := by
  simp only [Package.goVal, GoVal.Keyed, GoVal.KeyedM, keyed_body V hpb, and_true, true_and]; decide +kernel

/-- C105: whatever a package contains, the text `ToBytes` gives for it is a JSON text and is read as the document of the package.
Assumed of what is not modelled (`FmtOk`): floats are written as JSON numbers; the names in EGTS+ messages need no escaping. -/
theorem package_text_document {F : PkgFmt} {D : DocFmt} (hF : FmtOk F D) (V : PkgVals) (hpb : ∀ m, (V.pb m).Keyed) (p : Package) (t : Bytes)
    (h : p.toBytes F V = some t) : parse t = some (p.doc D (V.rest D)) := by
  have hw := text_writes hF _ (keyed_package V hpb p) t h
  have := hw.read (t.length + 1) [] (.inl rfl) (by omega)
  rw [List.append_nil] at this
  unfold parse
  rw [this, Package.json_doc]
  rfl

omit P in
/-- the texts of instants denote them and base64 can be read back -/
theorem FmtOk.faithful {F : PkgFmt} {D : DocFmt} (hF : FmtOk F D) : D.Faithful where
  time ns h := by
    obtain ⟨t, h1, h2⟩ := time_denotes ns h
    rw [hF.time ns t h1]
    exact h2
  bin s := by rw [hF.bin]; exact base64_decode s

/-! ### nothing is lost -/

mutual
/-- every text is UTF-8, every float64 is the one nearest to the number written for it (float32 only occur in EGTS+ messages) -/
def GoVal.Readable (D : DocFmt) : GoVal → Prop
  | .str s => ValidUtf8 s
  | .flt x => rnd (D.num x) = x
  | .arr l => GoVal.ReadableL D l
  | .obj m => GoVal.ReadableM D m
  | _ => True
def GoVal.ReadableL (D : DocFmt) : List GoVal → Prop
  | [] => True
  | v :: l => GoVal.Readable D v ∧ GoVal.ReadableL D l
def GoVal.ReadableM (D : DocFmt) : List (Bytes × GoVal) → Prop
  | [] => True
  | (_, v) :: l => GoVal.Readable D v ∧ GoVal.ReadableM D l
end

section
omit P

/-- simple values of the same type -/
def sameKind : GoVal → GoVal → Bool
  | .int _, .int _ => true
  | .flt _, .flt _ => true
  | .str _, .str _ => true
  | .time _, .time _ => true
  | .nul, .nul => true
  | .nul, .b64 _ => true
  | .b64 _, .nul => true
  | .b64 _, .b64 _ => true
  | _, _ => false

variable {D : DocFmt} (hD : D.Faithful)
include hD

theorem leaf_inj {v w : GoVal} (hk : sameKind v w = true) (hv : v.Readable D) (hw : w.Readable D) (tv : v.Writable) (tw : w.Writable)
    (h : v.json D = w.json D) : v = w := by
  match v, w, hk with
  | .int a, .int b, _ =>
    simp only [GoVal.json, Json.num.injEq, Int.cast_inj] at h
    rw [h]
  | .flt a, .flt b, _ =>
    simp only [GoVal.json, Json.num.injEq] at h
    simp only [GoVal.Readable] at hv hw
    rw [← hv, ← hw, h]
  | .str a, .str b, _ =>
    simp only [GoVal.json, jstr, Json.str.injEq] at h
    simp only [GoVal.Readable] at hv hw
    rw [toUtf8_valid _ hv, toUtf8_valid _ hw] at h
    rw [h]
  | .time a, .time b, _ =>
    simp only [GoVal.json, Json.str.injEq] at h
    simp only [GoVal.Writable] at tv tw
    have := denotesNs_unique _ _ _ (hD.time a tv) (h ▸ hD.time b tw)
    rw [show a = b by omega]
  | .nul, .nul, _ => rfl
  | .nul, .b64 _, _ => simp [GoVal.json] at h
  | .b64 _, .nul, _ => simp [GoVal.json] at h
  | .b64 a, .b64 b, _ =>
    simp only [GoVal.json, Json.str.injEq] at h
    have := (hD.bin a).symm.trans ((congrArg decode64 h).trans (hD.bin b))
    rw [Option.some.inj this]

/-- objects with simple members of the same types -/
theorem flat_inj : ∀ {m m' : List (Bytes × GoVal)}, List.Forall₂ (fun x y => sameKind x.2 y.2 = true) m m' →
    GoVal.ReadableM D m → GoVal.ReadableM D m' → GoVal.WritableM m → GoVal.WritableM m' →
    GoVal.jmembers D m = GoVal.jmembers D m' → m = m'
  | [], [], _, _, _, _, _, _ => rfl
  | (k, v) :: m, (k', v') :: m', .cons h1 h2, hr, hr', hw, hw', h => by
    simp only [GoVal.jmembers, List.cons.injEq, Prod.mk.injEq] at h
    simp only [GoVal.ReadableM] at hr hr'
    simp only [GoVal.WritableM] at hw hw'
    rw [h.1.1, leaf_inj (v := v) (w := v') hD h1 hr.1 hr'.1 hw.1 hw'.1 h.1.2, flat_inj h2 hr.2 hr'.2 hw.2 hw'.2 h.2]
end

section
omit P
theorem signed16_inj {a b : UInt16} (h : signed16 a = signed16 b) : a = b := by
  apply UInt16.toNat_inj.mp
  have := a.toNat_lt
  have := b.toNat_lt
  unfold signed16 at h
  split at h <;> split at h <;> omega
theorem signed16_iff {a b : UInt16} : signed16 a = signed16 b ↔ a = b := ⟨signed16_inj, fun h => by rw [h]⟩
theorem bytesVal_iff {a b : Bytes} : bytesVal a = bytesVal b ↔ a = b := by
  refine ⟨fun h => ?_, fun h => by rw [h]⟩
  unfold bytesVal at h
  split at h <;> split at h <;> simp_all
theorem sameKind_bytes (a b : Bytes) : sameKind (bytesVal a) (bytesVal b) = true := by
  unfold bytesVal
  split <;> split <;> rfl

theorem SrPosData.goVal_inj {e e' : SrPosData} (h : e.goVal = e'.goVal) : e = e' := by
  simp only [SrPosData.goVal, GoVal.obj.injEq, List.cons.injEq, Prod.mk.injEq, true_and, and_true, GoVal.int.injEq, GoVal.str.injEq, GoVal.flt.injEq,
    GoVal.time.injEq, Int.natCast_inj, UInt8.toNat_inj, UInt16.toNat_inj, UInt32.toNat_inj, signed16_iff, bytesVal_iff] at h
  cases e; cases e'
  simp_all
theorem SrTermIdentity.goVal_inj {e e' : SrTermIdentity} (h : e.goVal = e'.goVal) : e = e' := by
  simp only [SrTermIdentity.goVal, GoVal.obj.injEq, List.cons.injEq, Prod.mk.injEq, true_and, and_true, GoVal.int.injEq, GoVal.str.injEq, GoVal.flt.injEq,
    GoVal.time.injEq, Int.natCast_inj, UInt8.toNat_inj, UInt16.toNat_inj, UInt32.toNat_inj, signed16_iff, bytesVal_iff] at h
  cases e; cases e'
  simp_all
theorem SrResponse.goVal_inj {e e' : SrResponse} (h : e.goVal = e'.goVal) : e = e' := by
  simp only [SrResponse.goVal, GoVal.obj.injEq, List.cons.injEq, Prod.mk.injEq, true_and, and_true, GoVal.int.injEq, GoVal.str.injEq, GoVal.flt.injEq,
    GoVal.time.injEq, Int.natCast_inj, UInt8.toNat_inj, UInt16.toNat_inj, UInt32.toNat_inj, signed16_iff, bytesVal_iff] at h
  cases e; cases e'
  simp_all
theorem SrResultCode.goVal_inj {e e' : SrResultCode} (h : e.goVal = e'.goVal) : e = e' := by
  simp only [SrResultCode.goVal, GoVal.obj.injEq, List.cons.injEq, Prod.mk.injEq, true_and, and_true, GoVal.int.injEq, GoVal.str.injEq, GoVal.flt.injEq,
    GoVal.time.injEq, Int.natCast_inj, UInt8.toNat_inj, UInt16.toNat_inj, UInt32.toNat_inj, signed16_iff, bytesVal_iff] at h
  cases e; cases e'
  simp_all
theorem SrExtPosData.goVal_inj {e e' : SrExtPosData} (h : e.goVal = e'.goVal) : e = e' := by
  simp only [SrExtPosData.goVal, GoVal.obj.injEq, List.cons.injEq, Prod.mk.injEq, true_and, and_true, GoVal.int.injEq, GoVal.str.injEq, GoVal.flt.injEq,
    GoVal.time.injEq, Int.natCast_inj, UInt8.toNat_inj, UInt16.toNat_inj, UInt32.toNat_inj, signed16_iff, bytesVal_iff] at h
  cases e; cases e'
  simp_all
theorem SrAdSensorsData.goVal_inj {e e' : SrAdSensorsData} (h : e.goVal = e'.goVal) : e = e' := by
  simp only [SrAdSensorsData.goVal, GoVal.obj.injEq, List.cons.injEq, Prod.mk.injEq, true_and, and_true, GoVal.int.injEq, GoVal.str.injEq, GoVal.flt.injEq,
    GoVal.time.injEq, Int.natCast_inj, UInt8.toNat_inj, UInt16.toNat_inj, UInt32.toNat_inj, signed16_iff, bytesVal_iff] at h
  cases e; cases e'
  simp_all
theorem SrStateData.goVal_inj {e e' : SrStateData} (h : e.goVal = e'.goVal) : e = e' := by
  simp only [SrStateData.goVal, GoVal.obj.injEq, List.cons.injEq, Prod.mk.injEq, true_and, and_true, GoVal.int.injEq, GoVal.str.injEq, GoVal.flt.injEq,
    GoVal.time.injEq, Int.natCast_inj, UInt8.toNat_inj, UInt16.toNat_inj, UInt32.toNat_inj, signed16_iff, bytesVal_iff] at h
  cases e; cases e'
  simp_all
theorem SrLiquidLevelSensor.goVal_inj {e e' : SrLiquidLevelSensor} (h : e.goVal = e'.goVal) : e = e' := by
  simp only [SrLiquidLevelSensor.goVal, GoVal.obj.injEq, List.cons.injEq, Prod.mk.injEq, true_and, and_true, GoVal.int.injEq, GoVal.str.injEq, GoVal.flt.injEq,
    GoVal.time.injEq, Int.natCast_inj, UInt8.toNat_inj, UInt16.toNat_inj, UInt32.toNat_inj, signed16_iff, bytesVal_iff] at h
  cases e; cases e'
  simp_all
theorem SrAbsCntrData.goVal_inj {e e' : SrAbsCntrData} (h : e.goVal = e'.goVal) : e = e' := by
  simp only [SrAbsCntrData.goVal, GoVal.obj.injEq, List.cons.injEq, Prod.mk.injEq, true_and, and_true, GoVal.int.injEq, GoVal.str.injEq, GoVal.flt.injEq,
    GoVal.time.injEq, Int.natCast_inj, UInt8.toNat_inj, UInt16.toNat_inj, UInt32.toNat_inj, signed16_iff, bytesVal_iff] at h
  cases e; cases e'
  simp_all
theorem SrAuthInfo.goVal_inj {e e' : SrAuthInfo} (h : e.goVal = e'.goVal) : e = e' := by
  simp only [SrAuthInfo.goVal, GoVal.obj.injEq, List.cons.injEq, Prod.mk.injEq, true_and, and_true, GoVal.int.injEq, GoVal.str.injEq, GoVal.flt.injEq,
    GoVal.time.injEq, Int.natCast_inj, UInt8.toNat_inj, UInt16.toNat_inj, UInt32.toNat_inj, signed16_iff, bytesVal_iff] at h
  cases e; cases e'
  simp_all
theorem SrCountersData.goVal_inj {e e' : SrCountersData} (h : e.goVal = e'.goVal) : e = e' := by
  simp only [SrCountersData.goVal, GoVal.obj.injEq, List.cons.injEq, Prod.mk.injEq, true_and, and_true, GoVal.int.injEq, GoVal.str.injEq, GoVal.flt.injEq,
    GoVal.time.injEq, Int.natCast_inj, UInt8.toNat_inj, UInt16.toNat_inj, UInt32.toNat_inj, signed16_iff, bytesVal_iff] at h
  cases e; cases e'
  simp_all
theorem SrAbsAnSensData.goVal_inj {e e' : SrAbsAnSensData} (h : e.goVal = e'.goVal) : e = e' := by
  simp only [SrAbsAnSensData.goVal, GoVal.obj.injEq, List.cons.injEq, Prod.mk.injEq, true_and, and_true, GoVal.int.injEq, GoVal.str.injEq, GoVal.flt.injEq,
    GoVal.time.injEq, Int.natCast_inj, UInt8.toNat_inj, UInt16.toNat_inj, UInt32.toNat_inj, signed16_iff, bytesVal_iff] at h
  cases e; cases e'
  simp_all
theorem SrDispatcherIdentity.goVal_inj {e e' : SrDispatcherIdentity} (h : e.goVal = e'.goVal) : e = e' := by
  simp only [SrDispatcherIdentity.goVal, GoVal.obj.injEq, List.cons.injEq, Prod.mk.injEq, true_and, and_true, GoVal.int.injEq, GoVal.str.injEq, GoVal.flt.injEq,
    GoVal.time.injEq, Int.natCast_inj, UInt8.toNat_inj, UInt16.toNat_inj, UInt32.toNat_inj, signed16_iff, bytesVal_iff] at h
  cases e; cases e'
  simp_all
end

section
omit P
variable {D : DocFmt} (hD : D.Faithful)
include hD
theorem SrPosData.json_inj {e e' : SrPosData} (hr : e.goVal.Readable D) (hr' : e'.goVal.Readable D) (hw : e.goVal.Writable)
    (hw' : e'.goVal.Writable) (h : e.goVal.json D = e'.goVal.json D) : e = e' := by
  refine SrPosData.goVal_inj ?_
  unfold SrPosData.goVal at hr hr' hw hw' h ⊢
  simp only [GoVal.json, Json.obj.injEq] at h
  rw [flat_inj hD ?_ hr hr' hw hw' h]
  repeat' first | exact .nil | exact sameKind_bytes _ _ | exact rfl | refine .cons ?_ ?_
theorem SrTermIdentity.json_inj {e e' : SrTermIdentity} (hr : e.goVal.Readable D) (hr' : e'.goVal.Readable D) (hw : e.goVal.Writable)
    (hw' : e'.goVal.Writable) (h : e.goVal.json D = e'.goVal.json D) : e = e' := by
  refine SrTermIdentity.goVal_inj ?_
  unfold SrTermIdentity.goVal at hr hr' hw hw' h ⊢
  simp only [GoVal.json, Json.obj.injEq] at h
  rw [flat_inj hD ?_ hr hr' hw hw' h]
  repeat' first | exact .nil | exact sameKind_bytes _ _ | exact rfl | refine .cons ?_ ?_
theorem SrResponse.json_inj {e e' : SrResponse} (hr : e.goVal.Readable D) (hr' : e'.goVal.Readable D) (hw : e.goVal.Writable)
    (hw' : e'.goVal.Writable) (h : e.goVal.json D = e'.goVal.json D) : e = e' := by
  refine SrResponse.goVal_inj ?_
  unfold SrResponse.goVal at hr hr' hw hw' h ⊢
  simp only [GoVal.json, Json.obj.injEq] at h
  rw [flat_inj hD ?_ hr hr' hw hw' h]
  repeat' first | exact .nil | exact sameKind_bytes _ _ | exact rfl | refine .cons ?_ ?_
theorem SrResultCode.json_inj {e e' : SrResultCode} (hr : e.goVal.Readable D) (hr' : e'.goVal.Readable D) (hw : e.goVal.Writable)
    (hw' : e'.goVal.Writable) (h : e.goVal.json D = e'.goVal.json D) : e = e' := by
  refine SrResultCode.goVal_inj ?_
  unfold SrResultCode.goVal at hr hr' hw hw' h ⊢
  simp only [GoVal.json, Json.obj.injEq] at h
  rw [flat_inj hD ?_ hr hr' hw hw' h]
  repeat' first | exact .nil | exact sameKind_bytes _ _ | exact rfl | refine .cons ?_ ?_
theorem SrExtPosData.json_inj {e e' : SrExtPosData} (hr : e.goVal.Readable D) (hr' : e'.goVal.Readable D) (hw : e.goVal.Writable)
    (hw' : e'.goVal.Writable) (h : e.goVal.json D = e'.goVal.json D) : e = e' := by
  refine SrExtPosData.goVal_inj ?_
  unfold SrExtPosData.goVal at hr hr' hw hw' h ⊢
  simp only [GoVal.json, Json.obj.injEq] at h
  rw [flat_inj hD ?_ hr hr' hw hw' h]
  repeat' first | exact .nil | exact sameKind_bytes _ _ | exact rfl | refine .cons ?_ ?_
theorem SrAdSensorsData.json_inj {e e' : SrAdSensorsData} (hr : e.goVal.Readable D) (hr' : e'.goVal.Readable D) (hw : e.goVal.Writable)
    (hw' : e'.goVal.Writable) (h : e.goVal.json D = e'.goVal.json D) : e = e' := by
  refine SrAdSensorsData.goVal_inj ?_
  unfold SrAdSensorsData.goVal at hr hr' hw hw' h ⊢
  simp only [GoVal.json, Json.obj.injEq] at h
  rw [flat_inj hD ?_ hr hr' hw hw' h]
  repeat' first | exact .nil | exact sameKind_bytes _ _ | exact rfl | refine .cons ?_ ?_
theorem SrStateData.json_inj {e e' : SrStateData} (hr : e.goVal.Readable D) (hr' : e'.goVal.Readable D) (hw : e.goVal.Writable)
    (hw' : e'.goVal.Writable) (h : e.goVal.json D = e'.goVal.json D) : e = e' := by
  refine SrStateData.goVal_inj ?_
  unfold SrStateData.goVal at hr hr' hw hw' h ⊢
  simp only [GoVal.json, Json.obj.injEq] at h
  rw [flat_inj hD ?_ hr hr' hw hw' h]
  repeat' first | exact .nil | exact sameKind_bytes _ _ | exact rfl | refine .cons ?_ ?_
theorem SrLiquidLevelSensor.json_inj {e e' : SrLiquidLevelSensor} (hr : e.goVal.Readable D) (hr' : e'.goVal.Readable D) (hw : e.goVal.Writable)
    (hw' : e'.goVal.Writable) (h : e.goVal.json D = e'.goVal.json D) : e = e' := by
  refine SrLiquidLevelSensor.goVal_inj ?_
  unfold SrLiquidLevelSensor.goVal at hr hr' hw hw' h ⊢
  simp only [GoVal.json, Json.obj.injEq] at h
  rw [flat_inj hD ?_ hr hr' hw hw' h]
  repeat' first | exact .nil | exact sameKind_bytes _ _ | exact rfl | refine .cons ?_ ?_
theorem SrAbsCntrData.json_inj {e e' : SrAbsCntrData} (hr : e.goVal.Readable D) (hr' : e'.goVal.Readable D) (hw : e.goVal.Writable)
    (hw' : e'.goVal.Writable) (h : e.goVal.json D = e'.goVal.json D) : e = e' := by
  refine SrAbsCntrData.goVal_inj ?_
  unfold SrAbsCntrData.goVal at hr hr' hw hw' h ⊢
  simp only [GoVal.json, Json.obj.injEq] at h
  rw [flat_inj hD ?_ hr hr' hw hw' h]
  repeat' first | exact .nil | exact sameKind_bytes _ _ | exact rfl | refine .cons ?_ ?_
theorem SrAuthInfo.json_inj {e e' : SrAuthInfo} (hr : e.goVal.Readable D) (hr' : e'.goVal.Readable D) (hw : e.goVal.Writable)
    (hw' : e'.goVal.Writable) (h : e.goVal.json D = e'.goVal.json D) : e = e' := by
  refine SrAuthInfo.goVal_inj ?_
  unfold SrAuthInfo.goVal at hr hr' hw hw' h ⊢
  simp only [GoVal.json, Json.obj.injEq] at h
  rw [flat_inj hD ?_ hr hr' hw hw' h]
  repeat' first | exact .nil | exact sameKind_bytes _ _ | exact rfl | refine .cons ?_ ?_
theorem SrCountersData.json_inj {e e' : SrCountersData} (hr : e.goVal.Readable D) (hr' : e'.goVal.Readable D) (hw : e.goVal.Writable)
    (hw' : e'.goVal.Writable) (h : e.goVal.json D = e'.goVal.json D) : e = e' := by
  refine SrCountersData.goVal_inj ?_
  unfold SrCountersData.goVal at hr hr' hw hw' h ⊢
  simp only [GoVal.json, Json.obj.injEq] at h
  rw [flat_inj hD ?_ hr hr' hw hw' h]
  repeat' first | exact .nil | exact sameKind_bytes _ _ | exact rfl | refine .cons ?_ ?_
theorem SrAbsAnSensData.json_inj {e e' : SrAbsAnSensData} (hr : e.goVal.Readable D) (hr' : e'.goVal.Readable D) (hw : e.goVal.Writable)
    (hw' : e'.goVal.Writable) (h : e.goVal.json D = e'.goVal.json D) : e = e' := by
  refine SrAbsAnSensData.goVal_inj ?_
  unfold SrAbsAnSensData.goVal at hr hr' hw hw' h ⊢
  simp only [GoVal.json, Json.obj.injEq] at h
  rw [flat_inj hD ?_ hr hr' hw hw' h]
  repeat' first | exact .nil | exact sameKind_bytes _ _ | exact rfl | refine .cons ?_ ?_
theorem SrDispatcherIdentity.json_inj {e e' : SrDispatcherIdentity} (hr : e.goVal.Readable D) (hr' : e'.goVal.Readable D) (hw : e.goVal.Writable)
    (hw' : e'.goVal.Writable) (h : e.goVal.json D = e'.goVal.json D) : e = e' := by
  refine SrDispatcherIdentity.goVal_inj ?_
  unfold SrDispatcherIdentity.goVal at hr hr' hw hw' h ⊢
  simp only [GoVal.json, Json.obj.injEq] at h
  rw [flat_inj hD ?_ hr hr' hw hw' h]
  repeat' first | exact .nil | exact sameKind_bytes _ _ | exact rfl | refine .cons ?_ ?_
end

/-- if it is an EGTS+ message, it satisfies `Q` -/
def SubData.Msgs (Q : P.PBMsg → Prop) : SubData → Prop
  | .storage m => Q m
  | _ => True

/-- messages that satisfy `Q` begin with their number, and can be read back -/
structure PbOk (V : PkgVals) (D : DocFmt) (Q : P.PBMsg → Prop) : Prop where
  head : ∀ m, Q m → ∃ j l, (V.pb m).json D = .obj ((asc "record_number", j) :: l)
  inj : ∀ m m', Q m → Q m' → (V.pb m).Writable → (V.pb m').Writable → (V.pb m).json D = (V.pb m').json D → m = m'

/-- name of the first member of the document of a subrecord -/
def kindKey : SubData → Bytes
  | .pos _ => asc "NTM"
  | .term _ => asc "TID"
  | .response _ => asc "CRN"
  | .result _ => asc "RCD"
  | .ext _ => asc "NSFE"
  | .ad _ => asc "DIOE1"
  | .state _ => asc "ST"
  | .liquid _ => asc "LLSEF"
  | .absCntr _ => asc "CN"
  | .auth _ => asc "UNM"
  | .counters _ => asc "CFE1"
  | .absAn _ => asc "SensorNumber"
  | .dispatcher _ => asc "DT"
  | .storage _ => asc "record_number"

omit P in
theorem jstr_inj2 {a b : Bytes} (ha : ValidUtf8 a) (hb : ValidUtf8 b) (h : jstr a = jstr b) : a = b := by
  simp only [jstr, Json.str.injEq] at h
  rwa [toUtf8_valid _ ha, toUtf8_valid _ hb] at h

theorem kindKey_json (V : PkgVals) (D : DocFmt) {Q : P.PBMsg → Prop} (hV : PbOk V D Q) (d : SubData) (hn : d.Msgs Q) :
    ∃ j m, (subVal V.pb (some d)).json D = .obj ((kindKey d, j) :: m) := by
  cases d with
  | storage m => exact hV.head m hn
  | pos e => exact ⟨_, _, rfl⟩
  | term e => exact ⟨_, _, rfl⟩
  | response e => exact ⟨_, _, rfl⟩
  | result e => exact ⟨_, _, rfl⟩
  | ext e => exact ⟨_, _, rfl⟩
  | ad e => exact ⟨_, _, rfl⟩
  | state e => exact ⟨_, _, rfl⟩
  | liquid e => exact ⟨_, _, rfl⟩
  | absCntr e => exact ⟨_, _, rfl⟩
  | auth e => exact ⟨_, _, rfl⟩
  | counters e => exact ⟨_, _, rfl⟩
  | absAn e => exact ⟨_, _, rfl⟩
  | dispatcher e => exact ⟨_, _, rfl⟩

theorem sub_inj {D : DocFmt} (hD : D.Faithful) (V : PkgVals) {Q : P.PBMsg → Prop} (hV : PbOk V D Q) (d d' : SubData) (hn : d.Msgs Q) (hn' : d'.Msgs Q)
    (hr : (subVal V.pb (some d)).Readable D) (hr' : (subVal V.pb (some d')).Readable D) (hw : (subVal V.pb (some d)).Writable)
    (hw' : (subVal V.pb (some d')).Writable) (h : (subVal V.pb (some d)).json D = (subVal V.pb (some d')).json D) : d = d' := by
  obtain ⟨j, m, e1⟩ := kindKey_json V D hV d hn
  obtain ⟨j', m', e2⟩ := kindKey_json V D hV d' hn'
  have hk : kindKey d = kindKey d' := by
    rw [e1, e2] at h
    simp only [Json.obj.injEq, List.cons.injEq, Prod.mk.injEq] at h
    exact h.1.1
  clear e1 e2
  have i_pos : ∀ e e', d = .pos e → d' = .pos e' → d = d' := by
    rintro e e' rfl rfl
    rw [SrPosData.json_inj hD hr hr' hw hw' h]
  have i_term : ∀ e e', d = .term e → d' = .term e' → d = d' := by
    rintro e e' rfl rfl
    rw [SrTermIdentity.json_inj hD hr hr' hw hw' h]
  have i_response : ∀ e e', d = .response e → d' = .response e' → d = d' := by
    rintro e e' rfl rfl
    rw [SrResponse.json_inj hD hr hr' hw hw' h]
  have i_result : ∀ e e', d = .result e → d' = .result e' → d = d' := by
    rintro e e' rfl rfl
    rw [SrResultCode.json_inj hD hr hr' hw hw' h]
  have i_ext : ∀ e e', d = .ext e → d' = .ext e' → d = d' := by
    rintro e e' rfl rfl
    rw [SrExtPosData.json_inj hD hr hr' hw hw' h]
  have i_ad : ∀ e e', d = .ad e → d' = .ad e' → d = d' := by
    rintro e e' rfl rfl
    rw [SrAdSensorsData.json_inj hD hr hr' hw hw' h]
  have i_state : ∀ e e', d = .state e → d' = .state e' → d = d' := by
    rintro e e' rfl rfl
    rw [SrStateData.json_inj hD hr hr' hw hw' h]
  have i_liquid : ∀ e e', d = .liquid e → d' = .liquid e' → d = d' := by
    rintro e e' rfl rfl
    rw [SrLiquidLevelSensor.json_inj hD hr hr' hw hw' h]
  have i_absCntr : ∀ e e', d = .absCntr e → d' = .absCntr e' → d = d' := by
    rintro e e' rfl rfl
    rw [SrAbsCntrData.json_inj hD hr hr' hw hw' h]
  have i_auth : ∀ e e', d = .auth e → d' = .auth e' → d = d' := by
    rintro e e' rfl rfl
    rw [SrAuthInfo.json_inj hD hr hr' hw hw' h]
  have i_counters : ∀ e e', d = .counters e → d' = .counters e' → d = d' := by
    rintro e e' rfl rfl
    rw [SrCountersData.json_inj hD hr hr' hw hw' h]
  have i_absAn : ∀ e e', d = .absAn e → d' = .absAn e' → d = d' := by
    rintro e e' rfl rfl
    rw [SrAbsAnSensData.json_inj hD hr hr' hw hw' h]
  have i_dispatcher : ∀ e e', d = .dispatcher e → d' = .dispatcher e' → d = d' := by
    rintro e e' rfl rfl
    rw [SrDispatcherIdentity.json_inj hD hr hr' hw hw' h]
  have i_storage : ∀ e e', d = .storage e → d' = .storage e' → d = d' := by
    rintro e e' rfl rfl
    rw [hV.inj _ _ hn hn' hw hw' h]
  cases d <;> cases d' <;> first
    | exact i_storage _ _ rfl rfl
    | exact i_pos _ _ rfl rfl
    | exact i_term _ _ rfl rfl
    | exact i_response _ _ rfl rfl
    | exact i_result _ _ rfl rfl
    | exact i_ext _ _ rfl rfl
    | exact i_ad _ _ rfl rfl
    | exact i_state _ _ rfl rfl
    | exact i_liquid _ _ rfl rfl
    | exact i_absCntr _ _ rfl rfl
    | exact i_auth _ _ rfl rfl
    | exact i_counters _ _ rfl rfl
    | exact i_absAn _ _ rfl rfl
    | exact i_dispatcher _ _ rfl rfl
    | exact absurd hk (by simp only [kindKey]; decide +kernel)

/-- every EGTS+ message in it satisfies `Q` -/
def RecordData.Msgs (Q : P.PBMsg → Prop) (e : RecordData) : Prop := ∀ d, e.SubrecordData = some d → d.Msgs Q

theorem subOpt_inj {D : DocFmt} (hD : D.Faithful) (V : PkgVals) {Q : P.PBMsg → Prop} (hV : PbOk V D Q) (d d' : Option SubData) (hn : ∀ x, d = some x → x.Msgs Q)
    (hn' : ∀ x, d' = some x → x.Msgs Q) (hr : (subVal V.pb d).Readable D) (hr' : (subVal V.pb d').Readable D)
    (hw : (subVal V.pb d).Writable) (hw' : (subVal V.pb d').Writable) (h : (subVal V.pb d).json D = (subVal V.pb d').json D) : d = d' := by
  match d, d' with
  | none, none => rfl
  | none, some d' =>
    obtain ⟨j, m, e⟩ := kindKey_json V D hV d' (hn' _ rfl)
    rw [e] at h
    simp [subVal, GoVal.json] at h
  | some d, none =>
    obtain ⟨j, m, e⟩ := kindKey_json V D hV d (hn _ rfl)
    rw [e] at h
    simp [subVal, GoVal.json] at h
  | some d, some d' => rw [sub_inj hD V hV d d' (hn _ rfl) (hn' _ rfl) hr hr' hw hw' h]

theorem rd_inj {D : DocFmt} (hD : D.Faithful) (V : PkgVals) {Q : P.PBMsg → Prop} (hV : PbOk V D Q) (e e' : RecordData) (hn : e.Msgs Q) (hn' : e'.Msgs Q)
    (hr : (e.goVal V.pb).Readable D) (hr' : (e'.goVal V.pb).Readable D) (hw : (e.goVal V.pb).Writable) (hw' : (e'.goVal V.pb).Writable)
    (h : (e.goVal V.pb).json D = (e'.goVal V.pb).json D) : e = e' := by
  simp only [RecordData.goVal, GoVal.Readable, GoVal.ReadableM, GoVal.Writable, GoVal.WritableM, and_true, true_and] at hr hr' hw hw'
  simp only [RecordData.goVal, GoVal.json, GoVal.jmembers, Json.obj.injEq, List.cons.injEq, Prod.mk.injEq, true_and, and_true,
    Json.num.injEq, Int.cast_inj, Int.natCast_inj, UInt8.toNat_inj, UInt16.toNat_inj] at h
  have := subOpt_inj hD V hV _ _ hn hn' hr hr' hw hw' h.2.2
  cases e; cases e'
  simp_all

omit P in
theorem map_inj {α : Type} {D : DocFmt} {Q : α → Prop} (f : α → GoVal)
    (hf : ∀ a b, Q a → Q b → (f a).Readable D → (f b).Readable D → (f a).Writable → (f b).Writable → (f a).json D = (f b).json D → a = b) :
    ∀ l l' : List α, (∀ x ∈ l, Q x) → (∀ x ∈ l', Q x) → GoVal.ReadableL D (l.map f) → GoVal.ReadableL D (l'.map f) →
      GoVal.WritableL (l.map f) → GoVal.WritableL (l'.map f) → GoVal.jsons D (l.map f) = GoVal.jsons D (l'.map f) → l = l'
  | [], [], _, _, _, _, _, _, _ => rfl
  | [], b :: l', _, _, _, _, _, _, h => by simp [GoVal.jsons] at h
  | a :: l, [], _, _, _, _, _, _, h => by simp [GoVal.jsons] at h
  | a :: l, b :: l', h1, h2, h3, h4, h5, h6, h => by
    simp only [List.map_cons, GoVal.jsons, List.cons.injEq] at h
    simp only [List.map_cons, GoVal.ReadableL] at h3 h4
    simp only [List.map_cons, GoVal.WritableL] at h5 h6
    rw [hf a b (h1 a (by simp)) (h2 b (by simp)) h3.1 h4.1 h5.1 h6.1 h.1,
      map_inj f hf l l' (fun x hx => h1 x (by simp [hx])) (fun x hx => h2 x (by simp [hx])) h3.2 h4.2 h5.2 h6.2 h.2]

/-- every EGTS+ message in it satisfies `Q` -/
def ServiceDataRecord.Msgs (Q : P.PBMsg → Prop) (e : ServiceDataRecord) : Prop := ∀ rd ∈ e.RecordDataSet, rd.Msgs Q

theorem rds_inj {D : DocFmt} (hD : D.Faithful) (V : PkgVals) {Q : P.PBMsg → Prop} (hV : PbOk V D Q) (e e' : ServiceDataRecord) (hn : e.Msgs Q) (hn' : e'.Msgs Q)
    (hr : (rdVal V e).Readable D) (hr' : (rdVal V e').Readable D) (hw : (rdVal V e).Writable) (hw' : (rdVal V e').Writable)
    (h : (rdVal V e).json D = (rdVal V e').json D) : e.RecordDataSet = e'.RecordDataSet := by
  unfold rdVal at hr hr' hw hw' h
  split at h
  · next h1 =>
    split at h
    · next h2 => rw [List.isEmpty_iff.mp h1.1, List.isEmpty_iff.mp h2.1]
    · simp [GoVal.json] at h
  · next h1 =>
    split at h
    · simp [GoVal.json] at h
    · next h2 =>
      rw [if_neg h1] at hr hw
      rw [if_neg h2] at hr' hw'
      simp only [GoVal.json, Json.arr.injEq] at h
      exact map_inj (Q := RecordData.Msgs Q) _ (rd_inj hD V hV) _ _ hn hn' hr hr' hw hw' h

theorem sdr_inj {D : DocFmt} (hD : D.Faithful) (V : PkgVals) {Q : P.PBMsg → Prop} (hV : PbOk V D Q) (e e' : ServiceDataRecord) (hn : e.Msgs Q) (hn' : e'.Msgs Q)
    (hr : (e.goVal V).Readable D) (hr' : (e'.goVal V).Readable D) (hw : (e.goVal V).Writable) (hw' : (e'.goVal V).Writable)
    (h : (e.goVal V).json D = (e'.goVal V).json D) : e = e' := by
  simp only [ServiceDataRecord.goVal, GoVal.Readable, GoVal.ReadableM, GoVal.Writable, GoVal.WritableM, and_true, true_and] at hr hr' hw hw'
  simp only [ServiceDataRecord.goVal, GoVal.json, GoVal.jmembers, Json.obj.injEq, List.cons.injEq, Prod.mk.injEq, true_and, and_true,
    Json.num.injEq, Int.cast_inj, Int.natCast_inj, UInt8.toNat_inj, UInt16.toNat_inj, UInt32.toNat_inj] at h
  obtain ⟨h1, h2, h3, h4, h5, h6, h7, h8, h9, h10, h11, h12, h13, h14, h15⟩ := h
  obtain ⟨r1, r2, r3, r4, r5, r6, r7, r8⟩ := hr
  obtain ⟨q1, q2, q3, q4, q5, q6, q7, q8⟩ := hr'
  have g := rds_inj hD V hV e e' hn hn' r8 q8 hw hw' h15
  have g3 := jstr_inj2 r1 q1 h3
  have g4 := jstr_inj2 r2 q2 h4
  have g5 := jstr_inj2 r3 q3 h5
  have g6 := jstr_inj2 r4 q4 h6
  have g7 := jstr_inj2 r5 q5 h7
  have g8 := jstr_inj2 r6 q6 h8
  have g9 := jstr_inj2 r7 q7 h9
  clear h3 h4 h5 h6 h7 h8 h9 h15 r1 r2 r3 r4 r5 r6 r7 r8 q1 q2 q3 q4 q5 q6 q7 q8 hw hw' hn hn'
  cases e; cases e'
  simp_all

theorem sds_inj {D : DocFmt} (hD : D.Faithful) (V : PkgVals) {Q : P.PBMsg → Prop} (hV : PbOk V D Q) (l l' : ServiceDataSet) (hn : ∀ r ∈ l, r.Msgs Q) (hn' : ∀ r ∈ l', r.Msgs Q)
    (hr : (sdsVal V l).Readable D) (hr' : (sdsVal V l').Readable D) (hw : (sdsVal V l).Writable) (hw' : (sdsVal V l').Writable)
    (h : (sdsVal V l).json D = (sdsVal V l').json D) : l = l' := by
  simp only [sdsVal, GoVal.json, Json.arr.injEq] at h
  exact map_inj (Q := ServiceDataRecord.Msgs Q) _ (sdr_inj hD V hV) _ _ hn hn' hr hr' hw hw' h

/-- the records of a package -/
def Body.records : Body → ServiceDataSet
  | .appdata s => s
  | .response e => e.SDR.getD []

/-- every EGTS+ message in it satisfies `Q` -/
def Body.Msgs (Q : P.PBMsg → Prop) (b : Body) : Prop := ∀ r ∈ b.records, r.Msgs Q

theorem body_inj {D : DocFmt} (hD : D.Faithful) (V : PkgVals) {Q : P.PBMsg → Prop} (hV : PbOk V D Q) (b b' : Option Body) (hn : ∀ x, b = some x → x.Msgs Q)
    (hn' : ∀ x, b' = some x → x.Msgs Q) (hr : (bodyVal V b).Readable D) (hr' : (bodyVal V b').Readable D)
    (hw : (bodyVal V b).Writable) (hw' : (bodyVal V b').Writable) (h : (bodyVal V b).json D = (bodyVal V b').json D) : b = b' := by
  match b, b' with
  | none, none => rfl
  | none, some (.appdata s) => simp [bodyVal, sdsVal, GoVal.json] at h
  | none, some (.response s) => simp [bodyVal, PtResponse.goVal, GoVal.json] at h
  | some (.appdata s), none => simp [bodyVal, sdsVal, GoVal.json] at h
  | some (.response s), none => simp [bodyVal, PtResponse.goVal, GoVal.json] at h
  | some (.appdata s), some (.response s') => simp [bodyVal, sdsVal, PtResponse.goVal, GoVal.json] at h
  | some (.response s), some (.appdata s') => simp [bodyVal, sdsVal, PtResponse.goVal, GoVal.json] at h
  | some (.appdata s), some (.appdata s') => rw [sds_inj hD V hV s s' (hn _ rfl) (hn' _ rfl) hr hr' hw hw' h]
  | some (.response e), some (.response e') =>
    have n1 := hn _ rfl
    have n2 := hn' _ rfl
    obtain ⟨a, b, c⟩ := e
    obtain ⟨a', b', c'⟩ := e'
    simp only [bodyVal, PtResponse.goVal, GoVal.Readable, GoVal.ReadableM, GoVal.Writable, GoVal.WritableM, and_true, true_and] at hr hr' hw hw'
    simp only [bodyVal, PtResponse.goVal, GoVal.json, GoVal.jmembers, Json.obj.injEq, List.cons.injEq, Prod.mk.injEq, true_and, and_true,
      Json.num.injEq, Int.cast_inj, Int.natCast_inj, UInt8.toNat_inj, UInt16.toNat_inj] at h
    obtain ⟨h1, h2, h3⟩ := h
    rw [h1, h2]
    match c, c' with
    | none, none => rfl
    | none, some s => simp [sdsVal, GoVal.json] at h3
    | some s, none => simp [sdsVal, GoVal.json] at h3
    | some s, some s' => rw [sds_inj hD V hV s s' n1 n2 hr hr' hw hw' h3]

/-- every EGTS+ message in it satisfies `Q` -/
def Package.Msgs (Q : P.PBMsg → Prop) (p : Package) : Prop := ∀ b, p.ServicesFrameData = some b → b.Msgs Q

/-- C105 (partial): two packages with the same text are the same, if their texts are UTF-8, their float64 values can be read back and
so can the EGTS+ messages in them (these lose unknown fields and empty byte strings; see C110). -/
theorem package_text_lossless_partial {F : PkgFmt} {D : DocFmt} (hF : FmtOk F D) (V : PkgVals) (hpb : ∀ m, (V.pb m).Keyed)
    {Q : P.PBMsg → Prop} (hV : PbOk V D Q) (p p' : Package)
    (t : Bytes) (hn : p.Msgs Q) (hn' : p'.Msgs Q) (hr : (p.goVal V).Readable D) (hr' : (p'.goVal V).Readable D)
    (h : p.toBytes F V = some t) (h' : p'.toBytes F V = some t) : p = p' := by
  have hw := (text_writable F (p.goVal V)).mp (by unfold Package.toBytes at h; rw [h]; rfl)
  have hw' := (text_writable F (p'.goVal V)).mp (by unfold Package.toBytes at h'; rw [h']; rfl)
  have hj := Option.some.inj ((package_text_document hF V hpb p t h).symm.trans (package_text_document hF V hpb p' t h'))
  rw [← Package.json_doc, ← Package.json_doc] at hj
  simp only [Package.goVal, GoVal.Readable, GoVal.ReadableM, GoVal.Writable, GoVal.WritableM, and_true, true_and] at hr hr' hw hw'
  simp only [Package.goVal, GoVal.json, GoVal.jmembers, Json.obj.injEq, List.cons.injEq, Prod.mk.injEq, true_and, and_true,
    Json.num.injEq, Int.cast_inj, Int.natCast_inj, UInt8.toNat_inj, UInt16.toNat_inj, UInt32.toNat_inj] at hj
  obtain ⟨h1, h2, h3, h4, h5, h6, h7, h8, h9, h10, h11, h12, h13, h14, h15, h16, h17, h18⟩ := hj
  obtain ⟨r1, r2, r3, r4, r5, r6⟩ := hr
  obtain ⟨q1, q2, q3, q4, q5, q6⟩ := hr'
  have g := body_inj hF.faithful V hV _ _ hn hn' r6 q6 hw hw' h17
  have g3 := jstr_inj2 r1 q1 h3
  have g4 := jstr_inj2 r2 q2 h4
  have g5 := jstr_inj2 r3 q3 h5
  have g6 := jstr_inj2 r4 q4 h6
  have g7 := jstr_inj2 r5 q5 h7
  clear h3 h4 h5 h6 h7 h17 r1 r2 r3 r4 r5 r6 q1 q2 q3 q4 q5 q6 hw hw' hn hn' h h'
  cases p; cases p'
  simp_all

/-- no EGTS+ message in it -/
def Package.NoStorage (p : Package) : Prop := p.Msgs fun _ => False

theorem pbOk_false (V : PkgVals) (D : DocFmt) : PbOk V D fun _ => False := ⟨fun _ h => h.elim, fun _ _ h => h.elim⟩

/-! ### which packages have a text -/

omit P in
theorem writableL_map {α : Type} (f : α → GoVal) (l : List α) : GoVal.WritableL (l.map f) ↔ ∀ x ∈ l, (f x).Writable := by
  induction l with
  | nil => simp [GoVal.WritableL]
  | cons a l ih => simp only [List.map_cons, GoVal.WritableL, ih, List.forall_mem_cons]

omit P in
theorem writable_bytes (s : Bytes) : (bytesVal s).Writable ↔ True := by unfold bytesVal; split <;> simp [GoVal.Writable]

/-- positions have a time that can be written, EGTS+ messages can be written -/
def SubData.TextOk (V : PkgVals) : SubData → Prop
  | .pos d => YearOk d.NavigationTime
  | .storage m => (V.pb m).Writable
  | _ => True

theorem sub_writable (V : PkgVals) (d : Option SubData) : (subVal V.pb d).Writable ↔ ∀ x, d = some x → x.TextOk V := by
  match d with
  | none => simp [subVal, GoVal.Writable]
  | some d =>
    simp only [Option.some.injEq, forall_eq']
    cases d <;> simp only [subVal, SubData.TextOk, SrPosData.goVal, SrTermIdentity.goVal, SrResponse.goVal, SrResultCode.goVal, SrExtPosData.goVal,
      SrAdSensorsData.goVal, SrStateData.goVal, SrLiquidLevelSensor.goVal, SrAbsCntrData.goVal, SrAuthInfo.goVal, SrCountersData.goVal,
      SrAbsAnSensData.goVal, SrDispatcherIdentity.goVal, GoVal.Writable, GoVal.WritableM, writable_bytes, and_true, true_and]

theorem sdr_writable (V : PkgVals) (e : ServiceDataRecord) :
    (e.goVal V).Writable ↔ ∀ rd ∈ e.RecordDataSet, ∀ x, rd.SubrecordData = some x → x.TextOk V := by
  simp only [ServiceDataRecord.goVal, GoVal.Writable, GoVal.WritableM, and_true, true_and]
  unfold rdVal
  split
  · next h => simp [GoVal.Writable, List.isEmpty_iff.mp h.1]
  · simp only [GoVal.Writable, writableL_map, RecordData.goVal, GoVal.WritableM, and_true, true_and, sub_writable]

theorem sds_writable (V : PkgVals) (l : ServiceDataSet) :
    (sdsVal V l).Writable ↔ ∀ r ∈ l, ∀ rd ∈ r.RecordDataSet, ∀ x, rd.SubrecordData = some x → x.TextOk V := by
  simp only [sdsVal, GoVal.Writable, writableL_map, sdr_writable]

/-- C106, exactly: a package has a text if and only if the times of its positions are in the years 0 to 9999 and its EGTS+ messages can be
written. -/
theorem package_text_iff (F : PkgFmt) (V : PkgVals) (p : Package) : (∃ t, p.toBytes F V = some t) ↔
    ∀ b, p.ServicesFrameData = some b → ∀ r ∈ b.records, ∀ rd ∈ r.RecordDataSet, ∀ x, rd.SubrecordData = some x → x.TextOk V := by
  rw [← Option.isSome_iff_exists]
  unfold Package.toBytes
  rw [text_writable]
  simp only [Package.goVal, GoVal.Writable, GoVal.WritableM, and_true, true_and]
  match p.ServicesFrameData with
  | none => simp [bodyVal, GoVal.Writable]
  | some (.appdata s) => simp only [bodyVal, sds_writable, Option.some.injEq, forall_eq', Body.records]
  | some (.response e) =>
    simp only [bodyVal, Option.some.injEq, forall_eq', Body.records, PtResponse.goVal, GoVal.Writable, GoVal.WritableM, and_true, true_and]
    match e.SDR with
    | none => simp [GoVal.Writable]
    | some s => simp only [sds_writable, Option.getD_some]

end Egts
