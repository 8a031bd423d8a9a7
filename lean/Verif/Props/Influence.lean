import Verif.Spec.Influence
import Verif.Props.Longer
set_option autoImplicit false
/- C134: what of a data packet matters to the gate. -/
namespace Egts
open Frame
variable [P : Platform]

theorem subsOf_data (l : List ServiceDataRecord) : subsOf l = l.flatMap dataOfRecord := rfl

theorem positions_flatMap (l : List ServiceDataRecord) : positions (subsOf l) = l.flatMap fun r => positions (dataOfRecord r) := by
  unfold positions
  rw [subsOf_data, List.filterMap_flatMap]

/-- two functions of records that agree on alike records -/
theorem flatMap_alike {α : Type} {f : ServiceDataRecord → List α} (hf : ∀ r r', SameRecord r r' → f r' = f r) {l l' : List ServiceDataRecord}
    (h : List.Forall₂ SameRecord l l') : l'.flatMap f = l.flatMap f := by
  induction h with
  | nil => rfl
  | cons h _ ih => rw [List.flatMap_cons, List.flatMap_cons, ih, hf _ _ h]

theorem map_alike {α : Type} {f : ServiceDataRecord → α} (hf : ∀ r r', SameRecord r r' → f r' = f r) {l l' : List ServiceDataRecord}
    (h : List.Forall₂ SameRecord l l') : l'.map f = l.map f := by
  induction h with
  | nil => rfl
  | cons h _ ih => rw [List.map_cons, List.map_cons, ih, hf _ _ h]

theorem last_alike {α : Type} {f : ServiceDataRecord → α} (hf : ∀ r r', SameRecord r r' → f r' = f r) {l l' : List ServiceDataRecord}
    (h : List.Forall₂ SameRecord l l') : l'.getLast?.map f = l.getLast?.map f := by
  rw [← List.getLast?_map, ← List.getLast?_map, map_alike hf h]

theorem fold_counters (ds : List SubData) (s : Bytes × UInt32) :
    ds.foldl counterStep s = ((ds.filterMap counterOf).map SubData.absCntr).foldl counterStep s := by
  induction ds generalizing s with
  | nil => rfl
  | cons d ds ih =>
    rw [List.foldl_cons, ih]
    by_cases h : ∃ c, d = .absCntr c
    · obtain ⟨c, rfl⟩ := h
      by_cases h1 : c.CounterNumber = 110 ∨ c.CounterNumber = 111
      · simp [counterOf, h1]
      · have h2 := not_or.mp h1
        have : counterStep s (.absCntr c) = s := by simp [counterStep, SubData.absCntr?, h2.1, h2.2]
        rw [this]
        simp [counterOf, h2.1, h2.2]
    · have : counterStep s d = s := by cases d <;> first | rfl | exact absurd ⟨_, rfl⟩ h
      rw [this]
      have : counterOf d = none := by cases d <;> first | rfl | exact absurd ⟨_, rfl⟩ h
      simp [this]

theorem packetId_alike {l l' : List ServiceDataRecord} (h : List.Forall₂ SameRecord l l') : ∀ v, packetIdAfter v l' = packetIdAfter v l := by
  induction h with
  | nil => intro v; rfl
  | @cons r r' l l' h _ ih =>
    intro v
    simp only [packetIdAfter]
    rw [ih]
    have h1 : (dataOfRecord r').foldl counterStep (zeros 4, v) = (dataOfRecord r).foldl counterStep (zeros 4, v) := by
      rw [fold_counters, fold_counters (dataOfRecord r), h.counters]
    unfold dataOfRecord at h1
    rw [h1]

theorem places_alike {l l' : List ServiceDataRecord} (h : List.Forall₂ SameRecord l l') :
    (positions (subsOf l')).map placeOf = (positions (subsOf l)).map placeOf := by
  rw [positions_flatMap, positions_flatMap, List.map_flatMap, List.map_flatMap]
  exact flatMap_alike (fun _ _ h => h.places) h

/-- the exported form of a place -/
theorem locOf_place (d : SrPosData) : locOf d = (fun p : F64 × F64 × UInt16 × Int =>
    ({ Latitude := p.1, Longitude := p.2.1, Speed := p.2.2.1, NavigationDt := rfc3339 (unixOf p.2.2.2) } : LocState)) (placeOf d) := rfl

theorem export_alike (now : Bytes) (pid : UInt16) {l l' : List ServiceDataRecord} (h : List.Forall₂ SameRecord l l') :
    exportOf now pid l' = exportOf now pid l := by
  have hp := places_alike h
  have h1 : ((subsOf l').filterMap (·.term?)).map (·.IMEI) = ((subsOf l).filterMap (·.term?)).map (·.IMEI) := by
    rw [subsOf_data, subsOf_data, List.filterMap_flatMap, List.filterMap_flatMap, List.map_flatMap, List.map_flatMap]
    exact flatMap_alike (fun _ _ h => h.imeis) h
  have h2 : (subsOf l').flatMap (·.readings) = (subsOf l).flatMap (·.readings) := by
    rw [subsOf_data, subsOf_data, List.flatMap_assoc, List.flatMap_assoc]
    exact flatMap_alike (fun _ _ h => h.analog) h
  have h3 : (subsOf l').filterMap (·.liquid?) = (subsOf l).filterMap (·.liquid?) := by
    rw [subsOf_data, subsOf_data, List.filterMap_flatMap, List.filterMap_flatMap]
    exact flatMap_alike (fun _ _ h => h.liquid) h
  have h4 : l'.getLast?.map (·.ObjectIdentifier) = l.getLast?.map (·.ObjectIdentifier) := last_alike (fun _ _ h => h.object) h
  have h5 : (positions (subsOf l')).map locOf = (positions (subsOf l)).map locOf := by
    have := congrArg (List.map fun p : F64 × F64 × UInt16 × Int =>
      ({ Latitude := p.1, Longitude := p.2.1, Speed := p.2.2.1, NavigationDt := rfc3339 (unixOf p.2.2.2) } : LocState)) hp
    simp only [List.map_map] at this
    exact this
  have h6 : (positions (subsOf l')).getLast?.map (fun d => unixOf d.NavigationTime) = (positions (subsOf l)).getLast?.map (fun d => unixOf d.NavigationTime) := by
    have := congrArg (fun x : List (F64 × F64 × UInt16 × Int) => (x.map fun p => unixOf p.2.2.2).getLast?) hp
    simp only [List.map_map, List.getLast?_map] at this
    exact this
  have h7 : (positions (subsOf l')).length = (positions (subsOf l)).length := by simpa using congrArg List.length hp
  have h8 : ((subsOf l').filterMap (·.term?)).getLast?.map (·.IMEI) = ((subsOf l).filterMap (·.term?)).getLast?.map (·.IMEI) := by
    rw [← List.getLast?_map, ← List.getLast?_map, h1]
  unfold exportOf
  rw [h8, h2, h3, h4, packetId_alike h, h5, h6, h7]

theorem any_alike {f : SubData → Bool} (hf : ∀ r r', SameRecord r r' → (dataOfRecord r').any f = (dataOfRecord r).any f) {l l' : List ServiceDataRecord}
    (h : List.Forall₂ SameRecord l l') : (subsOf l').any f = (subsOf l).any f := by
  rw [subsOf_data, subsOf_data, List.any_flatMap, List.any_flatMap]
  induction h with
  | nil => rfl
  | cons h _ ih => rw [List.any_cons, List.any_cons, ih, hf _ _ h]

theorem reactTo_alike (now : Bytes) (pid : UInt16) {l l' : List ServiceDataRecord} (h : List.Forall₂ SameRecord l l') :
    reactTo now pid l' = reactTo now pid l := by
  have h1 := any_alike (fun _ _ h => h.response) h
  have h2 := any_alike (fun _ _ h => h.login) h
  have h3 : (positions (subsOf l')).isEmpty = (positions (subsOf l)).isEmpty := by
    have := congrArg List.isEmpty (places_alike h)
    simpa using this
  have h4 : ackBytes pid l' = ackBytes pid l := by
    unfold ackBytes
    rw [last_alike (fun _ _ h => h.service) h, map_alike (f := fun r => r.RecordNumber.toNat) (fun _ _ h => by rw [h.number]) h]
  unfold reactTo
  rw [h1, h2, h3, h4, export_alike now pid h]

theorem reactAll_alike (env : Env) (tail : Tail) (rest : Bytes) (k : Nat) {cs cs' : List Bytes}
    (h : List.Forall₂ (fun c c' => c' = c ∨ SamePacket c c') cs cs') : reactAll env tail rest k cs' = reactAll env tail rest k cs := by
  induction h generalizing k with
  | nil => rfl
  | @cons c c' cs cs' hc hr ih =>
    have : react (env.now k) (env.spare k) c' = react (env.now k) (env.spare k) c := by
      rcases hc with rfl | ⟨pid, l, l', h1, h2, h3⟩
      · rfl
      · rw [react_to _ _ _ _ _ h1, react_to _ _ _ _ _ h2, reactTo_alike _ _ h3]
    rw [reactAll, reactAll, this, ih]

/-- C134: nothing else in a data packet has any influence: clients that send packets with alike records are served alike. The same records are
saved, the same packets are sent back, and the connections end in the same way, however the two streams are cut into chunks. -/
theorem influence (env : Env) (tail : Tail) (chunks chunks' : List Bytes) (cs cs' : List Bytes) (rest : Bytes)
    (h : CutInto chunks.flatten cs rest) (hl : List.Forall₂ (fun c c' => c' = c ∨ SamePacket c c') cs cs')
    (hc : chunks'.flatten = cs'.flatten ++ rest) : handleConn env true tail chunks' = handleConn env true tail chunks := by
  have ht : ∀ c' ∈ cs', Taken c' := by
    have h1 := h.taken
    clear h hc
    induction hl with
    | nil => simp
    | @cons c c' cs cs' hc hr ih =>
      intro x hx
      rcases List.mem_cons.mp hx with rfl | hx
      · rcases hc with rfl | ⟨pid, l, l', -, h2, -⟩
        · exact h1 _ (by simp)
        · exact framed_taken (data_packet_framed _ _ _ h2)
      · exact ih (fun y hy => h1 y (List.mem_cons_of_mem _ hy)) x hx
  rw [stream_behaviour env tail chunks cs rest h, stream_behaviour env tail chunks' cs' rest ⟨hc, ht, h.incomplete⟩]
  exact reactAll_alike env tail rest 0 hl

/-! ### two kinds of alike records -/

theorem filterMap_kind {α : Type} {f : SubData → Option α} {k : Nat} (hf : ∀ d : SubData, d.kind ≠ k → f d = none) (x : List SubData) :
    x.filterMap f = (x.filter (·.kind = k)).filterMap f := by
  induction x with
  | nil => rfl
  | cons d x ih =>
    by_cases h : d.kind = k
    · simp [List.filterMap_cons, h, ih]
    · simp [h, hf d h, ih]

theorem flatMap_kind {α : Type} {f : SubData → List α} {k : Nat} (hf : ∀ d : SubData, d.kind ≠ k → f d = []) (x : List SubData) :
    x.flatMap f = (x.filter (·.kind = k)).flatMap f := by
  induction x with
  | nil => rfl
  | cons d x ih =>
    by_cases h : d.kind = k
    · simp [List.flatMap_cons, h, ih]
    · simp [List.flatMap_cons, h, hf d h, ih]

/-- C134: the subrecords of a record can be rearranged, as long as those of one kind keep their order: the records are alike. -/
theorem rearranged_alike (r r' : ServiceDataRecord) (h1 : r'.RecordNumber = r.RecordNumber) (h2 : r'.ObjectIdentifier = r.ObjectIdentifier)
    (h3 : r'.SourceServiceType = r.SourceServiceType) (h : Rearranged (dataOfRecord r') (dataOfRecord r)) : SameRecord r r' := by
  obtain ⟨hp, hk⟩ := h
  have fm : ∀ {α : Type} (f : SubData → Option α) (k : Nat), (∀ d : SubData, d.kind ≠ k → f d = none) →
      (dataOfRecord r').filterMap f = (dataOfRecord r).filterMap f := by
    intro α f k hf
    rw [filterMap_kind hf, filterMap_kind hf (dataOfRecord r), hk k]
  refine ⟨h1, h2, h3, ?_, ?_, ?_, ?_, ?_, ?_, ?_⟩
  · unfold positions
    rw [fm _ 1 fun d hd => by cases d <;> first | rfl | exact absurd rfl hd]
  · rw [fm _ 2 fun d hd => by cases d <;> first | rfl | exact absurd rfl hd]
  · rw [flatMap_kind (k := 3) (fun d hd => by cases d <;> first | rfl | exact absurd rfl hd),
      flatMap_kind (k := 3) (fun d hd => by cases d <;> first | rfl | exact absurd rfl hd) (dataOfRecord r), hk 3]
  · rw [fm _ 4 fun d hd => by cases d <;> first | rfl | exact absurd rfl hd]
  · rw [fm _ 5 fun d hd => by cases d <;> first | rfl | exact absurd rfl hd]
  · exact hp.any_eq
  · exact hp.any_eq

/-- C134: a subrecord that plays no part can be put anywhere into a record, or taken out: the records are alike. -/
theorem idle_alike (r r' : ServiceDataRecord) (h1 : r'.RecordNumber = r.RecordNumber) (h2 : r'.ObjectIdentifier = r.ObjectIdentifier)
    (h3 : r'.SourceServiceType = r.SourceServiceType) (x y : List SubData) (d : SubData) (hd : d.Idle)
    (h : dataOfRecord r = x ++ y) (h' : dataOfRecord r' = x ++ d :: y) : SameRecord r r' ∧ SameRecord r' r := by
  have k1 : d.pos? = none := by cases d <;> first | rfl | exact absurd hd id
  have k2 : d.term? = none := by cases d <;> first | rfl | exact absurd hd id
  have k3 : d.readings = [] := by cases d <;> first | rfl | exact absurd hd id
  have k4 : d.liquid? = none := by cases d <;> first | rfl | exact absurd hd id
  have k5 : counterOf d = none := by
    cases d <;> first | rfl | exact absurd hd id | skip
    rename_i c
    have := hd
    simp only [SubData.Idle] at this
    simp [counterOf, this.1, this.2]
  have k6 : d.isLogin = false := by cases d <;> first | rfl | exact absurd hd id
  have k7 : d.isResponse = false := by cases d <;> first | rfl | exact absurd hd id
  constructor
  · constructor <;> first | assumption | skip
    all_goals rw [h, h']
    all_goals simp [positions, k1, k2, k3, k4, k5, k6, k7]
  · constructor <;> first | exact h1.symm | exact h2.symm | exact h3.symm | skip
    all_goals rw [h, h']
    all_goals simp [positions, k1, k2, k3, k4, k5, k6, k7]

/-! ### a concrete pair: a result code put before a counter -/

/-- the record with a result code before the counter -/
def codeRecord : ServiceDataRecord := { cutRecord with
  RecordLength := 11
  RecordDataSet := [⟨9, 1, some (.result { ResultCode := 7 })⟩, ⟨25, 4, some (.absCntr { CounterNumber := 110, CounterValue := 1 })⟩] }

theorem codeRecord_alike : SameRecord countRecord codeRecord :=
  (idle_alike countRecord codeRecord rfl rfl rfl [] [.absCntr { CounterNumber := 110, CounterValue := 1 }] (.result { ResultCode := 7 }) trivial rfl rfl).1

/-- the hypothesis of `influence` is met -/
theorem alike_example : SamePacket (packet [1, 0, 0, 11, 0, 14, 0, 5, 0, 1] [7, 0, 1, 0, 0, 2, 2, 25, 4, 0, 110, 1, 0, 0])
    (packet [1, 0, 0, 11, 0, 18, 0, 5, 0, 1] [11, 0, 1, 0, 0, 2, 2, 9, 1, 0, 7, 25, 4, 0, 110, 1, 0, 0]) := by
  refine ⟨5, [countRecord], [codeRecord], ⟨_, _, rfl, by simp [packet, leBytes_len], by simp, ⟨by decide, by decide, by decide, by decide, by decide, by decide⟩, ?_⟩,
    ⟨_, _, rfl, by simp [packet, leBytes_len], by simp, ⟨by decide, by decide, by decide, by decide, by decide, by decide⟩, ?_⟩, .cons codeRecord_alike .nil⟩
  · exact CompleteRecords.cons (hdr := [7, 0, 1, 0, 0, 2, 2]) (data := [25, 4, 0, 110, 1, 0, 0]) (rest := []) (cut_header 7 _) rfl
      (.cons (rest := []) ⟨[110, 1, 0, 0], .absCntr { CounterNumber := 110, CounterValue := 1 }, rfl, rfl, rfl, rfl, rfl⟩ .nil) .nil
  · exact CompleteRecords.cons (hdr := [11, 0, 1, 0, 0, 2, 2]) (data := [9, 1, 0, 7, 25, 4, 0, 110, 1, 0, 0]) (rest := []) (cut_header 11 _) rfl
      (.cons (rest := [25, 4, 0, 110, 1, 0, 0]) ⟨[7], .result { ResultCode := 7 }, rfl, rfl, rfl, rfl, rfl⟩
        (.cons (rest := []) ⟨[110, 1, 0, 0], .absCntr { CounterNumber := 110, CounterValue := 1 }, rfl, rfl, rfl, rfl, rfl⟩ .nil)) .nil

/-- two subrecords of different kinds exchanged: the hypothesis of `rearranged_alike` is met -/
example : Rearranged [.result { ResultCode := 7 }, .absCntr { CounterNumber := 110, CounterValue := 1 }]
    [.absCntr { CounterNumber := 110, CounterValue := 1 }, .result { ResultCode := 7 }] := by
  refine ⟨.swap _ _ _, fun k => ?_⟩
  by_cases h0 : k = 0
  · subst h0; rfl
  by_cases h5 : k = 5
  · subst h5; rfl
  have : ∀ x : SubData, x.kind = 0 ∨ x.kind = 5 → ¬ x.kind = k := fun x h h' => by omega
  simp [this (.result { ResultCode := 7 }) (.inl rfl), this (.absCntr { CounterNumber := 110, CounterValue := 1 }) (.inr rfl)]

end Egts
