import Verif.Lemmas.Longer
import Verif.Props.OneBad
set_option autoImplicit false
/- C133: subrecords of a later edition of the standard, with fields behind the known ones. -/
namespace Egts
open Frame

theorem pos_longer (e d : SrPosData) (c x : Bytes) (hn : optOff (byteAt c 12) 21 [(7, 3)] ≤ c.length) (hd : SrPosData.decode e c = .ok d) :
    (∃ v, SrPosData.decode e (c ++ x) = .ok { d with Altitude := v }) ∧
    ((hasAlt c = true → 25 ≤ c.length) → SrPosData.decode e (c ++ x) = .ok d) := by
  simp only [optOff, List.foldl] at hn
  have h21 : 21 ≤ c.length := by omega
  have h22 : hasAlt c = true → 22 ≤ c.length := by
    intro h
    have : (byteAt c 12).toNat.testBit 7 = true := h
    simp [this] at hn
    omega
  have hb : ∀ i < 21, byteAt (c ++ x) i = byteAt c i := fun i hi => byteAt_append _ _ _ (by omega)
  have hw : ∀ o n, o + n ≤ c.length → wireNat (c ++ x) o n = wireNat c o n := by
    intro o n ho
    unfold wireNat
    rw [List.drop_append_of_le_length (by omega), List.take_append_of_le_length (by simp; omega)]
  have ha : hasAlt (c ++ x) = hasAlt c := by unfold hasAlt posFlags; rw [hb 12 (by omega)]
  rw [pos_decode_ok e c h21 h22] at hd
  have h1 : posOf e (c ++ x) = { posOf e c with Altitude := (posOf e (c ++ x)).Altitude } := by
    simp only [posOf, ntm, rawLat, rawLong, posFlags, spdWord, dirByte, odm, hb 12 (by omega), hb 15 (by omega), hb 19 (by omega), hb 20 (by omega),
      hw 0 4 (by omega), hw 4 4 (by omega), hw 8 4 (by omega), hw 13 2 (by omega), hw 16 3 (by omega)]
  rw [pos_decode_ok e (c ++ x) (by simp; omega) fun h => by rw [ha] at h; have := h22 h; simp; omega]
  cases hd
  refine ⟨⟨_, congrArg Out.ok h1⟩, fun ht => ?_⟩
  rw [h1]
  have h2 : (posOf e (c ++ x)).Altitude = (posOf e c).Altitude := by
    unfold posOf
    simp only [ha]
    split
    · rename_i h; rw [hw 21 4 (by have := ht h; omega)]
    · rfl
  rw [h2]

theorem absan_longer (e d : SrAbsAnSensData) (c x : Bytes) (hd : SrAbsAnSensData.decode e c = .ok d) : SrAbsAnSensData.decode e (c ++ x) = .ok d := by
  match c, hd with
  | [], h => simp [SrAbsAnSensData.decode] at h
  | [_], h => simp [SrAbsAnSensData.decode] at h
  | [_, _], h => simp [SrAbsAnSensData.decode] at h
  | [_, _, _], h => simp [SrAbsAnSensData.decode] at h
  | b0 :: b1 :: b2 :: b3 :: r, h =>
    rw [← h]
    have h1 : ¬ r.length + x.length + 1 + 1 + 1 + 1 < 4 := by omega
    have h2 : ¬ r.length + 1 + 1 + 1 + 1 < 4 := by omega
    simp [SrAbsAnSensData.decode, u32, h1, h2]

section
variable [P : Platform]

/-! ### one subrecord -/

/-- the data without the altitude of a position -/
def SubData.noAlt : SubData → SubData
  | .pos d => .pos { d with Altitude := 0 }
  | d => d

theorem content_longer {t : UInt8} {c c' : Bytes} {srl srl' : UInt16} {d : SubData} (hL : LongerContent t c c') (hs : c' = c → srl' = srl)
    (hc : Content t srl c d) : ∃ d', Content t srl' c' d' ∧ d'.noAlt = d.noAlt ∧ ((t = 16 → hasAlt c = true → c' = c ∨ 25 ≤ c.length) → d' = d) := by
  rcases hL with rfl | ⟨n, x, hn, hle, rfl⟩
  · rw [hs rfl]
    exact ⟨d, hc, rfl, fun _ => rfl⟩
  cases d with
  | response d => obtain ⟨rfl, -⟩ := hc; simp [knownLength] at hn
  | dispatcher d => obtain ⟨rfl, -⟩ := hc; simp [knownLength] at hn
  | auth d => obtain ⟨rfl, -⟩ := hc; simp [knownLength] at hn
  | storage d => obtain ⟨rfl, -⟩ := hc; simp [knownLength] at hn
  | term d =>
    obtain ⟨rfl, hd⟩ := hc
    simp [knownLength] at hn
    subst hn
    exact ⟨.term d, ⟨rfl, term_ext.run hle hd x⟩, rfl, fun _ => rfl⟩
  | result d =>
    obtain ⟨rfl, hd⟩ := hc
    exact ⟨.result d, ⟨rfl, resultcode_ext.run trivial hd x⟩, rfl, fun _ => rfl⟩
  | pos d =>
    obtain ⟨rfl, hd⟩ := hc
    simp [knownLength] at hn
    subst hn
    obtain ⟨⟨v, h1⟩, h2⟩ := pos_longer {} d c x hle hd
    by_cases h : hasAlt c = true → 25 ≤ c.length
    · exact ⟨.pos d, ⟨rfl, h2 h⟩, rfl, fun _ => rfl⟩
    · refine ⟨.pos { d with Altitude := v }, ⟨rfl, h1⟩, rfl, fun h3 => ?_⟩
      push Not at h
      rcases h3 rfl h.1 with h4 | h4
      · rw [h4, hd] at h1
        exact (congrArg SubData.pos (Out.ok.inj h1)).symm
      · omega
  | ext d =>
    obtain ⟨rfl, hd⟩ := hc
    simp [knownLength] at hn
    subst hn
    exact ⟨.ext d, ⟨rfl, extpos_ext.run hle hd x⟩, rfl, fun _ => rfl⟩
  | ad d =>
    obtain ⟨rfl, hd⟩ := hc
    simp [knownLength] at hn
    subst hn
    exact ⟨.ad d, ⟨rfl, adsensors_ext.run hle hd x⟩, rfl, fun _ => rfl⟩
  | counters d =>
    obtain ⟨rfl, hd⟩ := hc
    simp [knownLength] at hn
    subst hn
    exact ⟨.counters d, ⟨rfl, counters_ext.run hle hd x⟩, rfl, fun _ => rfl⟩
  | state d =>
    obtain ⟨⟨rfl, -⟩ | rfl, hd⟩ := hc
    · simp [knownLength] at hn
    · exact ⟨.state d, ⟨.inr rfl, state_ext.run trivial hd x⟩, rfl, fun _ => rfl⟩
  | absAn d =>
    obtain ⟨rfl, hd⟩ := hc
    exact ⟨.absAn d, ⟨rfl, absan_longer {} d c x hd⟩, rfl, fun _ => rfl⟩
  | absCntr d =>
    obtain ⟨rfl, hd⟩ := hc
    simp [knownLength] at hn
    subst hn
    exact ⟨.absCntr d, ⟨rfl, abscntr_ext.run hle hd x⟩, rfl, fun _ => rfl⟩
  | liquid d =>
    obtain ⟨rfl, hd⟩ := hc
    simp [knownLength] at hn
    subst hn
    exact ⟨.liquid d, ⟨rfl, liquid_ext.run hle hd x⟩, rfl, fun _ => rfl⟩

/-! ### bodies -/

/-- subrecords up to their length fields, and with `f` applied to the data -/
def stripSubs (f : SubData → SubData) (l : List RecordData) : List RecordData :=
  l.map fun rd => { rd with SubrecordLength := 0, SubrecordData := rd.SubrecordData.map f }

/-- records up to their length fields, and with `f` applied to the data -/
def strip (f : SubData → SubData) (l : List ServiceDataRecord) : List ServiceDataRecord :=
  l.map fun r => { r with RecordLength := 0, RecordDataSet := stripSubs f r.RecordDataSet }

/-- contents related by `L` hold data that `f` does not tell apart -/
def Reads (L : UInt8 → Bytes → Bytes → Prop) (f : SubData → SubData) : Prop :=
  ∀ t c c' srl srl' d, L t c c' → (c' = c → srl' = srl) → Content t srl c d → ∃ d', Content t srl' c' d' ∧ f d' = f d

theorem subs_longer {L : UInt8 → Bytes → Bytes → Prop} {f : SubData → SubData} (hL : Reads L f) {b b' : Bytes} (h : SubsBy L b b') :
    ∀ {s : List RecordData}, CompleteSubs b s → ∃ s', CompleteSubs b' s' ∧ stripSubs f s' = stripSubs f s := by
  induction h with
  | nil =>
    intro s hs
    generalize hb : ([] : Bytes) = b at hs
    cases hs with
    | nil => exact ⟨[], .nil, rfl⟩
    | cons hcomp => obtain ⟨c, d, rfl, -⟩ := hcomp; simp at hb
  | @cons t c c' rest rest' hc hc' hl hr ih =>
    intro s hs
    generalize hb : [t] ++ leBytes 2 c.length ++ c ++ rest = b at hs
    cases hs with
    | nil => simp at hb
    | @cons _ rest2 rd l hcomp hsub =>
      obtain ⟨c2, d, he, hlen, hd, hcont⟩ := hcomp
      rw [he] at hb
      have hlt := rd.SubrecordLength.toNat_lt
      simp only [List.append_assoc, List.cons_append, List.nil_append, List.cons.injEq] at hb
      obtain ⟨h1, h2⟩ := hb
      obtain ⟨h3, h4⟩ := List.append_inj h2 (by simp [leBytes_len])
      have h5 := congrArg leValue h3
      rw [leValue_leBytes, leValue_leBytes] at h5
      obtain ⟨rfl, rfl⟩ := List.append_inj h4 (by simp at h5; omega)
      obtain ⟨d', h6, h7⟩ := hL t c c' rd.SubrecordLength (UInt16.ofNat c'.length) d hl
        (fun h => by rw [h, hlen]; simp) (h1 ▸ hcont)
      obtain ⟨s', h8, h9⟩ := ih hsub
      refine ⟨⟨t, UInt16.ofNat c'.length, some d'⟩ :: s', .cons ⟨c', d', rfl, by simp; omega, rfl, h6⟩ h8, ?_⟩
      simp only [stripSubs, List.map_cons] at h9 ⊢
      rw [h9, h1, hd]
      simp [h7]

theorem records_longer {L : UInt8 → Bytes → Bytes → Prop} {f : SubData → SubData} (hL : Reads L f) {b b' : Bytes} (h : RecordsBy L b b') :
    ∀ {l : List ServiceDataRecord}, CompleteRecords b l → ∃ l', CompleteRecords b' l' ∧ strip f l' = strip f l := by
  induction h with
  | nil =>
    intro l hl
    generalize hb : ([] : Bytes) = b at hl
    cases hl with
    | nil => exact ⟨[], .nil, rfl⟩
    | cons hh => obtain ⟨fl, rfl, -⟩ := hh; simp at hb
  | @cons h d d' rest rest' hraw hd hd' hs hr ih =>
    intro l hl
    generalize hb : leBytes 2 d.length ++ h ++ d ++ rest = b at hl
    cases hl with
    | nil => have := congrArg List.length hb; simp [leBytes_len] at this
    | @cons hdr2 d2 rest2 r l2 hh2 hlen2 hsub hrest =>
      rw [List.append_assoc, List.append_assoc _ d2] at hb
      obtain ⟨h1, h2, h3⟩ := header_same hh2 hraw hd hb.symm
      obtain ⟨rfl, rfl⟩ := List.append_inj h2 (by omega)
      obtain ⟨s', h4, h5⟩ := subs_longer hL hs hsub
      obtain ⟨l', h6, h7⟩ := ih hrest
      obtain ⟨fl, h8, h9⟩ := hh2
      have hh : h = leBytes 2 r.RecordNumber.toNat ++ [fl] ++ (if fl.toNat.testBit 0 then leBytes 4 r.ObjectIdentifier.toNat else []) ++
          (if fl.toNat.testBit 1 then leBytes 4 r.EventIdentifier.toNat else []) ++
          (if fl.toNat.testBit 2 then leBytes 4 r.Time.toNat else []) ++ [r.SourceServiceType, r.RecipientServiceType] := by
        rw [h1, h3] at h8
        simp only [List.append_assoc] at h8 ⊢
        exact List.append_cancel_left h8
      have hN : (UInt16.ofNat d'.length).toNat = d'.length := by simp; omega
      refine ⟨{ r with RecordLength := UInt16.ofNat d'.length, RecordDataSet := s' } :: l', .cons ⟨fl, ?_, h9⟩ hN.symm h4 h6, ?_⟩
      · simp only [hN]
        rw [hh]
        simp only [List.append_assoc]
      · simp only [strip, List.map_cons] at h7 ⊢
        rw [h7, h5]

theorem stripSubs_id {s s' : List RecordData} (h : stripSubs id s' = stripSubs id s) :
    s'.map (fun rd => (rd.SubrecordType, rd.SubrecordData)) = s.map (fun rd => (rd.SubrecordType, rd.SubrecordData)) := by
  have := congrArg (List.map fun rd : RecordData => (rd.SubrecordType, rd.SubrecordData)) h
  simpa [stripSubs, Function.comp_def] using this

theorem strip_id {l l' : List ServiceDataRecord} (h : strip id l' = strip id l) : SameData l l' := by
  induction l generalizing l' with
  | nil =>
    cases l' with
    | nil => exact .nil
    | cons r l' => simp [strip] at h
  | cons r l ih =>
    cases l' with
    | nil => simp [strip] at h
    | cons r' l' =>
      simp only [strip, List.map_cons, List.cons.injEq] at h
      obtain ⟨h1, h2⟩ := h
      refine .cons ⟨?_, stripSubs_id ?_⟩ (ih h2)
      · have h3 := congrArg (fun x : ServiceDataRecord => { x with RecordLength := r.RecordLength, RecordDataSet := r.RecordDataSet }) h1
        exact h3
      · exact congrArg ServiceDataRecord.RecordDataSet h1

/-- C133 (partial): if subrecords of a body are continued with more bytes behind all their known fields (and the length fields tell so), the
same records with the same data are read. Missing: a position with altitude that is continued directly behind its altitude
(`longer_altitude_wrong`), state data of type 20 (`longer_state_wrong`). -/
theorem longer_decoded_partial (b b' : Bytes) (l : List ServiceDataRecord) (h : CompleteRecords b l) (hl : RecordsBy LongerNoAltitude b b') :
    ∃ l', ServiceDataSet.decode [] b = .ok l ∧ ServiceDataSet.decode [] b' = .ok l' ∧ SameData l l' := by
  have hL : Reads LongerNoAltitude id := by
    intro t c c' srl srl' d h1 h2 h3
    obtain ⟨d', h4, -, h5⟩ := content_longer h1.1 h2 h3
    exact ⟨d', h4, h5 h1.2⟩
  obtain ⟨l', h1, h2⟩ := records_longer hL hl h
  exact ⟨l', body_decoded b l h, body_decoded b' l' h1, strip_id h2⟩

/-! ### connections -/

theorem subsOf_strip (f : SubData → SubData) (l : List ServiceDataRecord) : subsOf (strip f l) = (subsOf l).map f := by
  unfold subsOf strip
  rw [List.flatMap_map, List.map_flatMap]
  refine congrArg (l.flatMap ·) (funext fun r => ?_)
  show (stripSubs f r.RecordDataSet).filterMap _ = _
  induction r.RecordDataSet with
  | nil => rfl
  | cons rd s ih =>
    obtain ⟨t, n, d⟩ := rd
    cases d with
    | none => simpa [stripSubs] using ih
    | some d => simpa [stripSubs] using ih

theorem positions_noAlt (ds : List SubData) : positions (ds.map SubData.noAlt) = (positions ds).map fun d => { d with Altitude := 0 } := by
  induction ds with
  | nil => rfl
  | cons d ds ih =>
    unfold positions at ih ⊢
    cases d <;> simp [SubData.noAlt, SubData.pos?] at ih ⊢ <;> exact ih

theorem counters_noAlt (ds : List SubData) (s : Bytes × UInt32) : (ds.map SubData.noAlt).foldl counterStep s = ds.foldl counterStep s := by
  induction ds generalizing s with
  | nil => rfl
  | cons d ds ih =>
    simp only [List.map_cons, List.foldl_cons, ih]
    cases d <;> rfl

theorem packetId_noAlt (v : UInt32) (l : List ServiceDataRecord) : packetIdAfter v (strip SubData.noAlt l) = packetIdAfter v l := by
  induction l generalizing v with
  | nil => rfl
  | cons r l ih =>
    have h := subsOf_strip SubData.noAlt [r]
    simp only [subsOf, strip, List.map_cons, List.map_nil, List.flatMap_cons, List.flatMap_nil, List.append_nil] at h
    have e : strip SubData.noAlt (r :: l) = { r with RecordLength := 0, RecordDataSet := stripSubs SubData.noAlt r.RecordDataSet } :: strip SubData.noAlt l := rfl
    rw [e]
    simp only [packetIdAfter]
    rw [h, counters_noAlt, ih]

theorem export_noAlt (now : Bytes) (pid : UInt16) (l : List ServiceDataRecord) : exportOf now pid (strip SubData.noAlt l) = exportOf now pid l := by
  have h1 : ((subsOf (strip SubData.noAlt l)).filterMap (·.term?)) = (subsOf l).filterMap (·.term?) := by
    rw [subsOf_strip, List.filterMap_map]
    exact congrArg (fun f => (subsOf l).filterMap f) (funext fun d => by cases d <;> rfl)
  have h2 : ((subsOf (strip SubData.noAlt l)).flatMap (·.readings)) = (subsOf l).flatMap (·.readings) := by
    rw [subsOf_strip, List.flatMap_map]
    exact congrArg (fun f => (subsOf l).flatMap f) (funext fun d => by cases d <;> rfl)
  have h3 : ((subsOf (strip SubData.noAlt l)).filterMap (·.liquid?)) = (subsOf l).filterMap (·.liquid?) := by
    rw [subsOf_strip, List.filterMap_map]
    exact congrArg (fun f => (subsOf l).filterMap f) (funext fun d => by cases d <;> rfl)
  have h4 : ((strip SubData.noAlt l).getLast?.map (·.ObjectIdentifier)) = l.getLast?.map (·.ObjectIdentifier) := by
    unfold strip
    rw [List.getLast?_map, Option.map_map]
    rfl
  unfold exportOf
  rw [h1, h2, h3, h4, packetId_noAlt, subsOf_strip, positions_noAlt, List.getLast?_map, Option.map_map, List.map_map, List.length_map]
  rfl

/-- what the gate does with a data packet: a function of its identifier and records -/
def reactTo (now : Bytes) (pid : UInt16) (l : List ServiceDataRecord) : List Effect :=
  if (subsOf l).any (·.isResponse) then [] else
    (if (positions (subsOf l)).isEmpty then [] else [.save (exportOf now pid l)]) ++ [.write (ackBytes pid l)] ++
    (if (subsOf l).any (·.isLogin) then [.write (resultPacket pid 0)] else [])

theorem reactTo_noAlt (now : Bytes) (pid : UInt16) (l : List ServiceDataRecord) : reactTo now pid (strip SubData.noAlt l) = reactTo now pid l := by
  have h1 : (subsOf (strip SubData.noAlt l)).any (·.isResponse) = (subsOf l).any (·.isResponse) := by
    rw [subsOf_strip, List.any_map]
    exact congrArg (fun f => (subsOf l).any f) (funext fun d => by cases d <;> rfl)
  have h2 : (subsOf (strip SubData.noAlt l)).any (·.isLogin) = (subsOf l).any (·.isLogin) := by
    rw [subsOf_strip, List.any_map]
    exact congrArg (fun f => (subsOf l).any f) (funext fun d => by cases d <;> rfl)
  have h3 : (positions (subsOf (strip SubData.noAlt l))).isEmpty = (positions (subsOf l)).isEmpty := by
    rw [subsOf_strip, positions_noAlt, List.isEmpty_map]
  have h4 : ackBytes pid (strip SubData.noAlt l) = ackBytes pid l := by
    unfold ackBytes strip
    rw [List.getLast?_map, Option.map_map, List.map_map]
    rfl
  unfold reactTo
  rw [h1, h2, h3, h4, export_noAlt]

theorem react_to (now spare c : Bytes) (pid : Nat) (l : List ServiceDataRecord) (h : DataPacket c pid l) :
    react now spare c = some (reactTo now (UInt16.ofNat pid) l) := by
  obtain ⟨q, hd, hb, hp, -⟩ := data_packet_accepted c pid l h {} spare
  have hq : q.PacketIdentifier = UInt16.ofNat pid := by rw [← hp]; simp
  unfold react reactTo
  rw [hd]
  simp only [hb, hq]
  split <;> rfl

theorem react_longer (now spare spare' c c' : Bytes) (h : LongerPacket c c') : react now spare' c' = react now spare c ∧ Framed c ∧ Framed c' := by
  obtain ⟨hdr, hdr', b, b', pid, l, rfl, rfl, hc, hc', hb, hh, hh', hl, hL⟩ := h
  have hR : Reads LongerContent SubData.noAlt := by
    intro t c c' srl srl' d h1 h2 h3
    obtain ⟨d', h4, h5, -⟩ := content_longer h1 h2 h3
    exact ⟨d', h4, h5⟩
  obtain ⟨l', h1, h2⟩ := records_longer hR hL hl
  have hb' : b' ≠ [] := by
    intro h0
    clear h1 h2 hl
    cases hL with
    | nil => exact hb rfl
    | cons => have := congrArg List.length h0; simp [leBytes_len] at this
  have hp : DataPacket (packet hdr b) pid l := ⟨hdr, b, rfl, hc, hb, hh, hl⟩
  have hp' : DataPacket (packet hdr' b') pid l' := ⟨hdr', b', rfl, hc', hb', hh', h1⟩
  refine ⟨?_, data_packet_framed _ _ _ hp, data_packet_framed _ _ _ hp'⟩
  rw [react_to _ _ _ _ _ hp', react_to _ _ _ _ _ hp, ← reactTo_noAlt, h2, reactTo_noAlt]

theorem reactAll_longer (env : Env) (tail : Tail) (rest : Bytes) (k : Nat) {cs cs' : List Bytes}
    (h : List.Forall₂ (fun c c' => c' = c ∨ LongerPacket c c') cs cs') : reactAll env tail rest k cs' = reactAll env tail rest k cs := by
  induction h generalizing k with
  | nil => rfl
  | @cons c c' cs cs' hc hr ih =>
    have : react (env.now k) (env.spare k) c' = react (env.now k) (env.spare k) c := by
      rcases hc with rfl | hc
      · rfl
      · exact (react_longer _ _ _ _ _ hc).1
    rw [reactAll, reactAll, this, ih]

/-- C133: a client that sends such packets is served like one that sends the packets without the additions: the same records are saved, the
same packets are sent back, and the connection ends in the same way, whatever the other packets are and however the two streams are
cut into chunks. -/
theorem longer_served_alike (env : Env) (tail : Tail) (chunks chunks' : List Bytes) (cs cs' : List Bytes) (rest : Bytes)
    (h : CutInto chunks.flatten cs rest) (hl : List.Forall₂ (fun c c' => c' = c ∨ LongerPacket c c') cs cs')
    (hc : chunks'.flatten = cs'.flatten ++ rest) : handleConn env true tail chunks' = handleConn env true tail chunks := by
  have ht : ∀ c' ∈ cs', Taken c' := by
    have h1 := h.taken
    clear h hc
    induction hl with
    | nil => simp
    | @cons c c' cs cs' hc hr ih =>
      intro x hx
      rcases List.mem_cons.mp hx with rfl | hx
      · rcases hc with rfl | hc
        · exact h1 _ (by simp)
        · exact framed_taken (react_longer [] [] [] _ _ hc).2.2
      · exact ih (fun y hy => h1 y (List.mem_cons_of_mem _ hy)) x hx
  rw [stream_behaviour env tail chunks cs rest h, stream_behaviour env tail chunks' cs' rest ⟨hc, ht, h.incomplete⟩]
  exact reactAll_longer env tail rest 0 hl

end

/-! ### where the property fails -/

/-- a position with an altitude of 100 -/
def altContent : Bytes := [0, 0, 0, 0, 0, 0, 0, 128, 0, 0, 0, 128, 128, 0, 0, 0, 0, 0, 0, 0, 0, 100, 0, 0]

/-- C133 is false of the code: the altitude has three bytes, but the byte behind it is read as its highest, so that an altitude
of 100 becomes 16777316 -/
theorem longer_altitude_wrong : LongerContent 16 altContent (altContent ++ [1]) ∧
    (∃ d, SrPosData.decode {} altContent = .ok d ∧ d.Altitude = 100) ∧
    ∃ d, SrPosData.decode {} (altContent ++ [1]) = .ok d ∧ d.Altitude = 16777316 := by
  refine ⟨.inr ⟨24, [1], by decide, by decide, rfl⟩, ⟨_, pos_decode_ok {} _ (by decide) (by decide), ?_⟩,
    ⟨_, pos_decode_ok {} _ (by decide) (by decide), ?_⟩⟩
  · show (if hasAlt altContent then UInt32.ofNat (wireNat altContent 21 4) else 0) = 100
    decide
  · show (if hasAlt (altContent ++ [1]) then UInt32.ofNat (wireNat (altContent ++ [1]) 21 4) else 0) = 16777316
    decide

/-- C133 is false of the code: state data under the type code of the standard (20) is told apart from other data by its length of 5, and
with a byte more it is not understood (so that the whole packet is lost, `one_bad_loses_all`) -/
theorem longer_state_wrong [Platform] (c x : Bytes) (hc : c.length = 5) (hx : x ≠ []) (hl : (c ++ x).length < 65536) :
    Understood (20, c) ∧ ¬ Understood (20, c ++ x) := by
  constructor
  · match c, hc with
    | [a, b, c, d, e], _ => exact ⟨.state _, .inl ⟨rfl, rfl⟩, rfl⟩
  · rintro ⟨d, hd⟩
    have hx := List.length_pos_iff.mpr hx
    cases d <;> simp [Content] at hd
    have := congrArg UInt16.toNat hd.1
    simp at this hl
    omega

/-! ### a concrete packet: a counter with two more bytes -/

theorem longer_example_body : RecordsBy LongerNoAltitude [7, 0, 1, 0, 0, 2, 2, 25, 4, 0, 110, 1, 0, 0] [9, 0, 1, 0, 0, 2, 2, 25, 6, 0, 110, 1, 0, 0, 8, 9] := by
  refine RecordsBy.cons (h := [1, 0, 0, 2, 2]) (d := [25, 4, 0, 110, 1, 0, 0]) (d' := [25, 6, 0, 110, 1, 0, 0, 8, 9]) (rest := []) (rest' := [])
    ⟨[1, 0], 0, [], 2, 2, rfl, rfl, rfl⟩ (by decide) (by decide) ?_ .nil
  exact SubsBy.cons (t := 25) (c := [110, 1, 0, 0]) (c' := [110, 1, 0, 0, 8, 9]) (rest := []) (rest' := []) (by decide) (by decide)
    ⟨.inr ⟨4, [8, 9], by decide, by decide, rfl⟩, by decide⟩ .nil

/-- the records of the packet without the addition -/
theorem longer_example_records [Platform] : ∃ l, CompleteRecords [7, 0, 1, 0, 0, 2, 2, 25, 4, 0, 110, 1, 0, 0] l := by
  refine (records_build (l := [(25, [110, 1, 0, 0])]) ?_ ?_).imp fun _ h => h.1
  · exact RawRecords.cons (hdr := [7, 0, 1, 0, 0, 2, 2]) (data := [25, 4, 0, 110, 1, 0, 0]) (rest := [])
      (l := [(25, [110, 1, 0, 0])]) (l' := []) ⟨[1, 0], 0, [], 2, 2, rfl, rfl, rfl⟩ (by decide)
      (.cons (t := 25) (c := [110, 1, 0, 0]) (rest := []) (by decide) .nil) .nil
  · intro s hs
    rw [List.mem_singleton.mp hs]
    exact ⟨.absCntr { CounterNumber := 110, CounterValue := 1 }, rfl, rfl⟩

theorem longer_example_packet [Platform] : LongerPacket (packet [1, 0, 0, 11, 0, 14, 0, 5, 0, 1] [7, 0, 1, 0, 0, 2, 2, 25, 4, 0, 110, 1, 0, 0])
    (packet [1, 0, 0, 11, 0, 16, 0, 5, 0, 1] [9, 0, 1, 0, 0, 2, 2, 25, 6, 0, 110, 1, 0, 0, 8, 9]) := by
  obtain ⟨l, hl⟩ := longer_example_records
  refine ⟨_, _, _, _, 5, l, rfl, rfl, by simp [packet, leBytes_len], by simp [packet, leBytes_len], by simp,
    ⟨by decide, by decide, by decide, by decide, by decide, by decide⟩, ⟨by decide, by decide, by decide, by decide, by decide, by decide⟩, hl, ?_⟩
  refine RecordsBy.cons (h := [1, 0, 0, 2, 2]) (d := [25, 4, 0, 110, 1, 0, 0]) (d' := [25, 6, 0, 110, 1, 0, 0, 8, 9]) (rest := []) (rest' := [])
    ⟨[1, 0], 0, [], 2, 2, rfl, rfl, rfl⟩ (by decide) (by decide) ?_ .nil
  exact SubsBy.cons (t := 25) (c := [110, 1, 0, 0]) (c' := [110, 1, 0, 0, 8, 9]) (rest := []) (rest' := []) (by decide) (by decide)
    (.inr ⟨4, [8, 9], by decide, by decide, rfl⟩) .nil

/-- the hypotheses of `longer_decoded_partial` are met -/
example [Platform] : ∃ l l', ServiceDataSet.decode [] [7, 0, 1, 0, 0, 2, 2, 25, 4, 0, 110, 1, 0, 0] = .ok l ∧
    ServiceDataSet.decode [] [9, 0, 1, 0, 0, 2, 2, 25, 6, 0, 110, 1, 0, 0, 8, 9] = .ok l' ∧ SameData l l' := by
  obtain ⟨l, hl⟩ := longer_example_records
  exact ⟨l, longer_decoded_partial _ _ l hl longer_example_body⟩

/-- the hypotheses of `longer_served_alike` are met: the packet, and then nothing -/
example [Platform] (env : Env) (tail : Tail) :
    handleConn env true tail [packet [1, 0, 0, 11, 0, 16, 0, 5, 0, 1] [9, 0, 1, 0, 0, 2, 2, 25, 6, 0, 110, 1, 0, 0, 8, 9]] =
    handleConn env true tail [packet [1, 0, 0, 11, 0, 14, 0, 5, 0, 1] [7, 0, 1, 0, 0, 2, 2, 25, 4, 0, 110, 1, 0, 0]] := by
  refine longer_served_alike env tail _ _ [packet [1, 0, 0, 11, 0, 14, 0, 5, 0, 1] [7, 0, 1, 0, 0, 2, 2, 25, 4, 0, 110, 1, 0, 0]] _ []
    ⟨by simp, fun x hx => ?_, .inl (by simp)⟩ (.cons (.inr longer_example_packet) .nil) (by simp)
  rw [List.mem_singleton.mp hx]
  exact framed_taken (react_longer [] [] [] _ _ longer_example_packet).2.1

end Egts
