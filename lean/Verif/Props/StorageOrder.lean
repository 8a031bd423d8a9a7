import Verif.Props.StorageRecord
import Verif.Lemmas.ProtoMerge
import Verif.Spec.StorageOrder
/- Telematic messages whose fields come in any order, repeatedly, packed or not, and with unknown fields between them (C108). -/
set_option autoImplicit false
namespace Egts
open Proto

theorem map_orElse {A B : Type} (f : A → B) (a b : Option A) : (b <|> a).map f = (b.map f <|> a.map f) := by
  cases b <;> rfl

theorem SensAccelerometerData.toSub_merge (a b : SensAccelerometerData) : (a.merge b).toSub =
    ⟨List.zipWith (fun x y => y <|> x) a.toSub.vals b.toSub.vals, a.toSub.unknown ++ b.toSub.unknown⟩ := by
  simp only [merge, toSub, map_orElse, List.zipWith_cons_cons, List.zipWith_nil_left]

theorem SensAinAinValue.toSub_merge (a b : SensAinAinValue) : (a.merge b).toSub =
    ⟨List.zipWith (fun x y => y <|> x) a.toSub.vals b.toSub.vals, a.toSub.unknown ++ b.toSub.unknown⟩ := by
  simp only [merge, toSub, map_orElse, List.zipWith_cons_cons, List.zipWith_nil_left]

theorem SensBufferData.toSub_merge (a b : SensBufferData) : (a.merge b).toSub =
    ⟨List.zipWith (fun x y => y <|> x) a.toSub.vals b.toSub.vals, a.toSub.unknown ++ b.toSub.unknown⟩ := by
  simp only [merge, toSub, map_orElse, List.zipWith_cons_cons, List.zipWith_nil_left]

theorem SensButtonPressCounter.toSub_merge (a b : SensButtonPressCounter) : (a.merge b).toSub =
    ⟨List.zipWith (fun x y => y <|> x) a.toSub.vals b.toSub.vals, a.toSub.unknown ++ b.toSub.unknown⟩ := by
  simp only [merge, toSub, map_orElse, List.zipWith_cons_cons, List.zipWith_nil_left]

theorem SensCanLogData.toSub_merge (a b : SensCanLogData) : (a.merge b).toSub =
    ⟨List.zipWith (fun x y => y <|> x) a.toSub.vals b.toSub.vals, a.toSub.unknown ++ b.toSub.unknown⟩ := by
  simp only [merge, toSub, map_orElse, List.zipWith_cons_cons, List.zipWith_nil_left]

theorem SensCanLogTmpDataExt.toSub_merge (a b : SensCanLogTmpDataExt) : (a.merge b).toSub =
    ⟨List.zipWith (fun x y => y <|> x) a.toSub.vals b.toSub.vals, a.toSub.unknown ++ b.toSub.unknown⟩ := by
  simp only [merge, toSub, map_orElse, List.zipWith_cons_cons, List.zipWith_nil_left]

theorem SensCounterCount.toSub_merge (a b : SensCounterCount) : (a.merge b).toSub =
    ⟨List.zipWith (fun x y => y <|> x) a.toSub.vals b.toSub.vals, a.toSub.unknown ++ b.toSub.unknown⟩ := by
  simp only [merge, toSub, map_orElse, List.zipWith_cons_cons, List.zipWith_nil_left]

theorem SensCrashData.toSub_merge (a b : SensCrashData) : (a.merge b).toSub =
    ⟨List.zipWith (fun x y => y <|> x) a.toSub.vals b.toSub.vals, a.toSub.unknown ++ b.toSub.unknown⟩ := by
  simp only [merge, toSub, map_orElse, List.zipWith_cons_cons, List.zipWith_nil_left]

theorem SensDinsFlags.toSub_merge (a b : SensDinsFlags) : (a.merge b).toSub =
    ⟨List.zipWith (fun x y => y <|> x) a.toSub.vals b.toSub.vals, a.toSub.unknown ++ b.toSub.unknown⟩ := by
  simp only [merge, toSub, map_orElse, List.zipWith_cons_cons, List.zipWith_nil_left]

theorem SensDoutsFlags.toSub_merge (a b : SensDoutsFlags) : (a.merge b).toSub =
    ⟨List.zipWith (fun x y => y <|> x) a.toSub.vals b.toSub.vals, a.toSub.unknown ++ b.toSub.unknown⟩ := by
  simp only [merge, toSub, map_orElse, List.zipWith_cons_cons, List.zipWith_nil_left]

theorem SensFmeterFrequency.toSub_merge (a b : SensFmeterFrequency) : (a.merge b).toSub =
    ⟨List.zipWith (fun x y => y <|> x) a.toSub.vals b.toSub.vals, a.toSub.unknown ++ b.toSub.unknown⟩ := by
  simp only [merge, toSub, map_orElse, List.zipWith_cons_cons, List.zipWith_nil_left]

theorem SensFuelLevel.toSub_merge (a b : SensFuelLevel) : (a.merge b).toSub =
    ⟨List.zipWith (fun x y => y <|> x) a.toSub.vals b.toSub.vals, a.toSub.unknown ++ b.toSub.unknown⟩ := by
  simp only [merge, toSub, map_orElse, List.zipWith_cons_cons, List.zipWith_nil_left]

theorem SensGsmCellMonotoringCellMonitoring.toSub_merge (a b : SensGsmCellMonotoringCellMonitoring) : (a.merge b).toSub =
    ⟨List.zipWith (fun x y => y <|> x) a.toSub.vals b.toSub.vals, a.toSub.unknown ++ b.toSub.unknown⟩ := by
  simp only [merge, toSub, map_orElse, List.zipWith_cons_cons, List.zipWith_nil_left]

theorem SensNdNavData.toSub_merge (a b : SensNdNavData) : (a.merge b).toSub =
    ⟨List.zipWith (fun x y => y <|> x) a.toSub.vals b.toSub.vals, a.toSub.unknown ++ b.toSub.unknown⟩ := by
  simp only [merge, toSub, map_orElse, List.zipWith_cons_cons, List.zipWith_nil_left]

theorem SensStorInfo.toSub_merge (a b : SensStorInfo) : (a.merge b).toSub =
    ⟨List.zipWith (fun x y => y <|> x) a.toSub.vals b.toSub.vals, a.toSub.unknown ++ b.toSub.unknown⟩ := by
  simp only [merge, toSub, map_orElse, List.zipWith_cons_cons, List.zipWith_nil_left]

theorem SensTermoData.toSub_merge (a b : SensTermoData) : (a.merge b).toSub =
    ⟨List.zipWith (fun x y => y <|> x) a.toSub.vals b.toSub.vals, a.toSub.unknown ++ b.toSub.unknown⟩ := by
  simp only [merge, toSub, map_orElse, List.zipWith_cons_cons, List.zipWith_nil_left]

theorem SensTestEraTests.toSub_merge (a b : SensTestEraTests) : (a.merge b).toSub =
    ⟨List.zipWith (fun x y => y <|> x) a.toSub.vals b.toSub.vals, a.toSub.unknown ++ b.toSub.unknown⟩ := by
  simp only [merge, toSub, map_orElse, List.zipWith_cons_cons, List.zipWith_nil_left]

theorem SensTrackerInfo.toSub_merge (a b : SensTrackerInfo) : (a.merge b).toSub =
    ⟨List.zipWith (fun x y => y <|> x) a.toSub.vals b.toSub.vals, a.toSub.unknown ++ b.toSub.unknown⟩ := by
  simp only [merge, toSub, map_orElse, List.zipWith_cons_cons, List.zipWith_nil_left]

theorem StorageRecord.toMsg_merge (a b : StorageRecord) :
    (a.merge b).toMsg = (List.zipWith PB.mergeSlot a.toMsg.1 b.toMsg.1, a.toMsg.2 ++ b.toMsg.2) := by
  simp only [StorageRecord.merge, StorageRecord.toMsg, List.zipWith_cons_cons, List.zipWith_nil_left, PB.mergeSlot, List.map_append,
    map_orElse]

/-- the fields of a submessage in any order are read as their merge -/
theorem subSays_read {T : Type} {wire : T → Bytes} {plain : T → Prop} {merge : T → T → T} {toSub : T → PB.Sub} {sch : PB.SubSchema}
    (hok : PB.SchOk sch) (ht : ∀ m, PB.SubTyped sch (toSub m).vals) (hu : ∀ m, plain m → (toSub m).unknown = [])
    (hw : ∀ m, PB.Agree (PB.putSub sch (toSub m)) (wire m))
    (hm : ∀ a b, toSub (merge a b) = ⟨List.zipWith (fun x y => y <|> x) (toSub a).vals (toSub b).vals, (toSub a).unknown ++ (toSub b).unknown⟩)
    {b : Bytes} {m : T} (h : SubSays wire plain merge b m) (hb : b.length < 18446744073709551616) : PB.getSub sch b = some (toSub m) := by
  induction h with
  | fields m h =>
    have e := hw m hb
    rw [← e] at hb ⊢
    exact PB.sub_roundtrip sch (toSub m) hok (ht m) (by rw [hu m h]; exact .nil) hb
  | append a b m n _ _ iha ihb =>
    simp only [List.length_append] at hb
    rw [PB.getSub_append sch a b _ _ (iha (by omega)) (ihb (by omega)), hm]

theorem key_small (num wt : Nat) (h : num < 1000 ∧ wt < 8) : key num wt = PB.tag num wt := (PB.tag_eq num wt h).symm

/-- a field of the schema, split at its place -/
theorem nested_read {num : Nat} {sch : PB.SubSchema} {b : Bytes} {m : PB.Sub} (hn : num < 1000) (hb : (nested num b).length < 18446744073709551616)
    (hg : PB.getSub sch b = some m) (pre post : PB.Schema) (he : StorageRecord.schema = pre ++ (num, .msgs sch) :: post) :
    PB.getMsg StorageRecord.schema (nested num b) = some (pre.map (·.2.empty) ++ .msgs [m] :: post.map (·.2.empty), []) := by
  have hl : b.length < 18446744073709551616 := by
    simp only [nested, List.length_append] at hb; omega
  unfold nested
  rw [key_small num 2 ⟨hn, by omega⟩, ← PB.varint_eq _ hl]
  refine PB.getMsg_field StorageRecord.schema_ok num 2 (.msgs sch) _ _ (by omega) (by omega) ?_ pre post he
  have := PB.getBytes_put b [] hl
  rw [List.append_nil] at this
  unfold PB.putBytes at this
  simp only [PB.Field.empty, PB.setSlot, this, hg]
  rfl

/-- a required field -/
theorem one_read {num : Nat} {t : PB.Ty} {v : PB.Val} (hv : v.has t) (hs : ∀ x, v ≠ .s x) (hn : num < 1000)
    (hb : (key num (wireType t) ++ value t v).length < 18446744073709551616) (pre post : PB.Schema)
    (he : StorageRecord.schema = pre ++ (num, .one t) :: post) :
    PB.getMsg StorageRecord.schema (key num (wireType t) ++ value t v) =
      some (pre.map (·.2.empty) ++ .one (some v) :: post.map (·.2.empty), []) := by
  simp only [List.length_append] at hb
  rw [← PB.putVal_eq t v (by omega), ← PB.wire_eq, key_small num _ ⟨hn, (PB.wire_lt t).1⟩]
  refine PB.getMsg_field StorageRecord.schema_ok num t.wire (.one t) _ _ (PB.wire_lt t).1 (PB.wire_lt t).2 ?_ pre post he
  have := PB.getVal_put t v [] hv (fun x hx => absurd hx (hs x))
  rw [List.append_nil] at this
  simp only [PB.Field.empty, PB.setSlot, this, if_true]

/-- reading without the check of required fields -/
theorem storageSays_read {b : Bytes} {m : StorageRecord} (h : StorageSays b m) (hb : b.length < 18446744073709551616) :
    PB.getMsg StorageRecord.schema b = some m.toMsg := by
  induction h with
  | nothing => rfl
  | recordNumber n => exact one_read (t := .uint32) (v := .u n) trivial (by simp) (by omega) hb [] (StorageRecord.schema.drop 1) rfl
  | timeStamp n => exact one_read (t := .fixed32) (v := .u n) trivial (by simp) (by omega) hb (StorageRecord.schema.take 1) (StorageRecord.schema.drop 2) rfl
  | statusFlags n => exact one_read (t := .fixed32) (v := .u n) trivial (by simp) (by omega) hb (StorageRecord.schema.take 3) (StorageRecord.schema.drop 4) rfl
  | reason x =>
    simp only [List.length_append] at hb
    rw [← PB.putVal_eq .enum (.i x) (by omega), key_small 3 0 (by omega)]
    refine PB.getMsg_field StorageRecord.schema_ok 3 0 .enums _ _ (by omega) (by omega) ?_ (StorageRecord.schema.take 2) (StorageRecord.schema.drop 3) rfl
    have := PB.getVal_put .enum (.i x) [] trivial (by simp)
    rw [List.append_nil] at this
    simp only [PB.getVal, Option.map_eq_some_iff, Prod.mk.injEq, PB.Val.i.injEq] at this
    obtain ⟨⟨n, r⟩, hg, hn, hr⟩ := this
    dsimp only at hn hr
    simp only [PB.Field.empty, PB.setSlot, if_true, hg, hr, hn]
    rfl
  | packed l =>
    have hl : (l.flatMap fun x => value .enum (.i x)).length < 18446744073709551616 := by
      simp only [nested, List.length_append] at hb; omega
    have e : (l.flatMap fun x => value .enum (.i x)) = l.flatMap fun x => PB.putVal .enum (.i x) :=
      (PB.flatMap_agree _ _ (fun x => PB.putVal_eq .enum (.i x)) l hl).symm
    unfold nested
    rw [e] at hl ⊢
    rw [key_small 3 2 (by omega), ← PB.varint_eq _ hl]
    refine PB.getMsg_field StorageRecord.schema_ok 3 2 .enums _ _ (by omega) (by omega) ?_ (StorageRecord.schema.take 2) (StorageRecord.schema.drop 3) rfl
    have := PB.getBytes_put (l.flatMap fun x => PB.putVal .enum (.i x)) [] hl
    rw [List.append_nil] at this
    unfold PB.putBytes at this
    simp only [PB.Field.empty, PB.setSlot, this, PB.getPacked_put l _ (Nat.le_refl _)]
    rfl
  | sensNdNavData b m h =>
    exact nested_read (by omega) hb (subSays_read SensNdNavData.schema_ok SensNdNavData.typed (fun _ h => h) SensNdNavData.putSub_wire
      SensNdNavData.toSub_merge h (by simp only [nested, List.length_append] at hb; omega)) (StorageRecord.schema.take 4) (StorageRecord.schema.drop 5) rfl
  | sensFuelLevel b m h =>
    exact nested_read (by omega) hb (subSays_read SensFuelLevel.schema_ok SensFuelLevel.typed (fun _ h => h) SensFuelLevel.putSub_wire
      SensFuelLevel.toSub_merge h (by simp only [nested, List.length_append] at hb; omega)) (StorageRecord.schema.take 5) (StorageRecord.schema.drop 6) rfl
  | sensAinAinValue b m h =>
    exact nested_read (by omega) hb (subSays_read SensAinAinValue.schema_ok SensAinAinValue.typed (fun _ h => h) SensAinAinValue.putSub_wire
      SensAinAinValue.toSub_merge h (by simp only [nested, List.length_append] at hb; omega)) (StorageRecord.schema.take 6) (StorageRecord.schema.drop 7) rfl
  | sensDinsFlags b m h =>
    exact nested_read (by omega) hb (subSays_read SensDinsFlags.schema_ok SensDinsFlags.typed (fun _ h => h) SensDinsFlags.putSub_wire
      SensDinsFlags.toSub_merge h (by simp only [nested, List.length_append] at hb; omega)) (StorageRecord.schema.take 7) (StorageRecord.schema.drop 8) rfl
  | sensCounterCount b m h =>
    exact nested_read (by omega) hb (subSays_read SensCounterCount.schema_ok SensCounterCount.typed (fun _ h => h) SensCounterCount.putSub_wire
      SensCounterCount.toSub_merge h (by simp only [nested, List.length_append] at hb; omega)) (StorageRecord.schema.take 8) (StorageRecord.schema.drop 9) rfl
  | sensFmeterFrequency b m h =>
    exact nested_read (by omega) hb (subSays_read SensFmeterFrequency.schema_ok SensFmeterFrequency.typed (fun _ h => h) SensFmeterFrequency.putSub_wire
      SensFmeterFrequency.toSub_merge h (by simp only [nested, List.length_append] at hb; omega)) (StorageRecord.schema.take 9) (StorageRecord.schema.drop 10) rfl
  | sensGsmCellMonotoringCellMonitoring b m h =>
    exact nested_read (by omega) hb (subSays_read SensGsmCellMonotoringCellMonitoring.schema_ok SensGsmCellMonotoringCellMonitoring.typed (fun _ h => h) SensGsmCellMonotoringCellMonitoring.putSub_wire
      SensGsmCellMonotoringCellMonitoring.toSub_merge h (by simp only [nested, List.length_append] at hb; omega)) (StorageRecord.schema.take 10) (StorageRecord.schema.drop 11) rfl
  | sensButtonPressCounter b m h =>
    exact nested_read (by omega) hb (subSays_read SensButtonPressCounter.schema_ok SensButtonPressCounter.typed (fun _ h => h) SensButtonPressCounter.putSub_wire
      SensButtonPressCounter.toSub_merge h (by simp only [nested, List.length_append] at hb; omega)) (StorageRecord.schema.take 11) (StorageRecord.schema.drop 12) rfl
  | sensTermoData b m h =>
    exact nested_read (by omega) hb (subSays_read SensTermoData.schema_ok SensTermoData.typed (fun _ h => h) SensTermoData.putSub_wire
      SensTermoData.toSub_merge h (by simp only [nested, List.length_append] at hb; omega)) (StorageRecord.schema.take 12) (StorageRecord.schema.drop 13) rfl
  | sensCanLogData b m h =>
    exact nested_read (by omega) hb (subSays_read SensCanLogData.schema_ok SensCanLogData.typed (fun _ h => h) SensCanLogData.putSub_wire
      SensCanLogData.toSub_merge h (by simp only [nested, List.length_append] at hb; omega)) (StorageRecord.schema.take 13) (StorageRecord.schema.drop 14) rfl
  | sensCanLogTmpDataExt b m h =>
    exact nested_read (by omega) hb (subSays_read SensCanLogTmpDataExt.schema_ok SensCanLogTmpDataExt.typed (fun _ h => h) SensCanLogTmpDataExt.putSub_wire
      SensCanLogTmpDataExt.toSub_merge h (by simp only [nested, List.length_append] at hb; omega)) (StorageRecord.schema.take 14) (StorageRecord.schema.drop 15) rfl
  | sensAccelerometerData b m h =>
    exact nested_read (by omega) hb (subSays_read SensAccelerometerData.schema_ok SensAccelerometerData.typed (fun _ h => h) SensAccelerometerData.putSub_wire
      SensAccelerometerData.toSub_merge h (by simp only [nested, List.length_append] at hb; omega)) (StorageRecord.schema.take 15) (StorageRecord.schema.drop 16) rfl
  | sensDoutsFlags b m h =>
    exact nested_read (by omega) hb (subSays_read SensDoutsFlags.schema_ok SensDoutsFlags.typed (fun _ h => h) SensDoutsFlags.putSub_wire
      SensDoutsFlags.toSub_merge h (by simp only [nested, List.length_append] at hb; omega)) (StorageRecord.schema.take 16) (StorageRecord.schema.drop 17) rfl
  | sensBufferData b m h =>
    exact nested_read (by omega) hb (subSays_read SensBufferData.schema_ok SensBufferData.typed (fun _ h => h) SensBufferData.putSub_wire
      SensBufferData.toSub_merge h (by simp only [nested, List.length_append] at hb; omega)) (StorageRecord.schema.take 17) (StorageRecord.schema.drop 18) rfl
  | sensStorInfo b m h =>
    exact nested_read (by omega) hb (subSays_read SensStorInfo.schema_ok SensStorInfo.typed (fun _ h => h) SensStorInfo.putSub_wire
      SensStorInfo.toSub_merge h (by simp only [nested, List.length_append] at hb; omega)) (StorageRecord.schema.take 18) (StorageRecord.schema.drop 19) rfl
  | sensTrackerInfo b m h =>
    exact nested_read (by omega) hb (subSays_read SensTrackerInfo.schema_ok SensTrackerInfo.typed (fun _ h => h) SensTrackerInfo.putSub_wire
      SensTrackerInfo.toSub_merge h (by simp only [nested, List.length_append] at hb; omega)) (StorageRecord.schema.take 19) (StorageRecord.schema.drop 20) rfl
  | sensTestEraTests b m h =>
    exact nested_read (by omega) hb (subSays_read SensTestEraTests.schema_ok SensTestEraTests.typed (fun _ h => h) SensTestEraTests.putSub_wire
      SensTestEraTests.toSub_merge h (by simp only [nested, List.length_append] at hb; omega)) (StorageRecord.schema.take 20) (StorageRecord.schema.drop 21) rfl
  | sensCrashData b m h =>
    exact nested_read (by omega) hb (subSays_read SensCrashData.schema_ok SensCrashData.typed (fun _ h => h) SensCrashData.putSub_wire
      SensCrashData.toSub_merge h (by simp only [nested, List.length_append] at hb; omega)) (StorageRecord.schema.take 21) (StorageRecord.schema.drop 22) rfl
  | unknown num n h hn =>
    have hnum : 1 ≤ num ∧ num < 536870912 := by omega
    have ek : key num 0 = PB.tag num 0 := by
      unfold key PB.tag
      rw [PB.varint_eq _ (by omega), Nat.mul_comm]
    rw [ek, ← PB.varint_eq n (by omega)] at hb ⊢
    have hunk : PB.unkMsg StorageRecord.schema num 0 := by
      intro p hp
      exfalso
      have h1 := List.find?_some hp
      have h2 := List.mem_of_find?_eq_some hp
      simp only [decide_eq_true_eq] at h1
      have h3 : p.1 ∈ StorageRecord.schema.map (·.1) := List.mem_map_of_mem h2
      rw [h1] at h3
      have h4 : StorageRecord.schema.map (·.1) = [1, 2, 3, 4, 7, 8, 9, 10, 11, 12, 13, 14, 15, 16, 17, 18, 19, 20, 21, 22, 23, 24] := rfl
      rw [h4] at h3
      simp only [List.mem_cons, List.not_mem_nil, or_false] at h3
      omega
    have hu : PB.Unk (PB.unkMsg StorageRecord.schema) (PB.tag num 0 ++ PB.varint n) := by
      have := PB.Unk.snoc (unk := PB.unkMsg StorageRecord.schema) (v := PB.varint n) (wt := 0) .nil hnum.1 hnum.2 (by omega) (by omega) hunk (by
        intro F rest hF
        obtain ⟨F, rfl⟩ : ∃ k, F = k + 1 := ⟨F - 1, by omega⟩
        simp only [PB.skip, if_true, PB.getVarint_varint n rest (by omega)]
        rfl)
      simpa using this
    have hput : PB.putMsg StorageRecord.schema (StorageRecord.toMsg { XXX_unrecognized := PB.tag num 0 ++ PB.varint n }) =
        PB.tag num 0 ++ PB.varint n := rfl
    have := PB.msg_roundtrip StorageRecord.schema (StorageRecord.toMsg { XXX_unrecognized := PB.tag num 0 ++ PB.varint n })
      StorageRecord.schema_ok StorageRecord.fields_ok
      (PB.empty_typed StorageRecord.schema) hu (by rw [hput]; exact hb)
    rw [hput] at this
    exact this
  | append a b m n _ _ iha ihb =>
    simp only [List.length_append] at hb
    rw [PB.getMsg_append _ a b _ _ (iha (by omega)) (ihb (by omega)), StorageRecord.toMsg_merge]

/-- C108: the fields of a message may come in any order, be repeated, and have unknown fields between them: the message is accepted
exactly if the required fields are among them, and is then the one they say. -/
theorem storage_any_order {b : Bytes} {m : StorageRecord} (h : StorageSays b m) (hb : b.length < 18446744073709551616) :
    (m.Required → StorageRecord.unmarshal b = some m) ∧ (¬ m.Required → StorageRecord.unmarshal b = none) := by
  unfold StorageRecord.unmarshal
  rw [storageSays_read h hb]
  simp only [StorageRecord.ofMsg_toMsg]
  constructor
  · intro hr
    rw [if_pos ((StorageRecord.initialized_iff m).mpr hr)]
  · intro hr
    rw [if_neg (fun hi => hr ((StorageRecord.initialized_iff m).mp hi))]

/-- C108: whatever two messages are put together, the result is read as both of them merged. -/
theorem storage_merge {a b : Bytes} {m n : StorageRecord} (ha : StorageRecord.unmarshal a = some m)
    (hb : StorageRecord.unmarshal b = some n) : StorageRecord.unmarshal (a ++ b) = some (m.merge n) := by
  have inv : ∀ {c : Bytes} {x : StorageRecord}, StorageRecord.unmarshal c = some x →
      PB.getMsg StorageRecord.schema c = some x.toMsg := by
    intro c x h
    unfold StorageRecord.unmarshal at h
    cases hg : PB.getMsg StorageRecord.schema c with
    | none => simp [hg] at h
    | some s =>
      simp only [hg] at h
      split at h
      · rw [← Option.some.inj h, StorageRecord.toMsg_ofMsg s (PB.getMsg_typed hg).1]
      · cases h
  have hr : (m.merge n).Required := by
    have h1 := StorageRecord.unmarshal_required ha
    have h2 := StorageRecord.unmarshal_required hb
    rw [← StorageRecord.initialized_iff] at h1 h2 ⊢
    simp only [StorageRecord.initialized, StorageRecord.merge, Bool.and_eq_true] at h2 ⊢
    cases e1 : n.RecordNumber <;> cases e2 : n.TimeStamp <;> cases e3 : n.StatusFlags <;> simp [e1, e2, e3] at h2 ⊢
  unfold StorageRecord.unmarshal
  rw [PB.getMsg_append _ a b _ _ (inv ha) (inv hb), ← StorageRecord.toMsg_merge]
  dsimp only
  rw [StorageRecord.ofMsg_toMsg, if_pos ((StorageRecord.initialized_iff _).mpr hr)]

/-- the required fields in descending order, the record number twice, reasons packed and single, an unknown field, and a submessage
whose fields are in descending order -/
example : ∃ m, StorageSays
    ((key 4 5 ++ value .fixed32 (.u 1)) ++ ((key 2 5 ++ value .fixed32 (.u 2)) ++ ((key 1 0 ++ value .uint32 (.u 3)) ++
      (nested 3 ([4, -5].flatMap fun x => value .enum (.i x)) ++ ((key 3 0 ++ value .enum (.i 6)) ++ ((key 77 0 ++ base128 300) ++
      (nested 9 (SensAinAinValue.wire { Mv := some 7 } ++ SensAinAinValue.wire { SensNum := some 8 }) ++
      (key 1 0 ++ value .uint32 (.u 9)))))))))
    m ∧ m.Required ∧ m.RecordNumber = some 9 ∧ m.TimeStamp = some 2 ∧ m.StatusFlags = some 1 ∧ m.RecordReason = [4, -5, 6] ∧
      m.SensAinAinValue = [{ SensNum := some 8, Mv := some 7 }] ∧ m.XXX_unrecognized = key 77 0 ++ base128 300 :=
  ⟨_, .append _ _ _ _ (.statusFlags 1) <| .append _ _ _ _ (.timeStamp 2) <| .append _ _ _ _ (.recordNumber 3) <|
  .append _ _ _ _ (.packed [4, -5]) <| .append _ _ _ _ (.reason 6) <| .append _ _ _ _ (.unknown 77 300 (by omega) (by omega)) <|
  .append _ _ _ _ (.sensAinAinValue _ _ (.append _ _ _ _ (.fields ({ Mv := some 7 } : SensAinAinValue) rfl) (.fields ({ SensNum := some 8 } : SensAinAinValue) rfl))) (.recordNumber 9),
    ⟨nofun, nofun, nofun⟩, rfl, rfl, rfl, rfl, rfl, by simp [StorageRecord.merge]⟩

end Egts
