import Verif.Props.Server2
import Verif.Lemmas.Origin
set_option autoImplicit false
/- C41 (record number from the counters) and C42 (hemispheres). -/
namespace Egts
open Frame
variable [P : Platform]

/-- a decoded position comes from the position decoder -/
theorem decodeSub_pos {t : UInt8} {srl : UInt16} {b : Bytes} {d : SrPosData}
    (h : decodeSub nestedDecode t srl b = .ok (.pos d)) : SrPosData.decode {} b = .ok d := by
  have hk := decodeSub_kind t srl b _ h
  have : t = 16 := by
    by_cases h20 : t = 20
    · rw [if_pos h20] at hk; simp [SubData.typeCode] at hk
    · rw [if_neg h20] at hk; exact hk.symm
  subst this
  have e : decodeSub nestedDecode 16 srl b = (SrPosData.decode {} b).map SubData.pos := by simp [decodeSub]
  rw [e] at h
  obtain ⟨a, h1, h2⟩ := out_map_ok h
  cases h2; exact h1

/-- a decoded counter comes from the counter decoder -/
theorem decodeSub_cntr {t : UInt8} {srl : UInt16} {b : Bytes} {d : SrAbsCntrData}
    (h : decodeSub nestedDecode t srl b = .ok (.absCntr d)) : SrAbsCntrData.decode {} b = .ok d := by
  have hk := decodeSub_kind t srl b _ h
  have : t = 25 := by
    by_cases h20 : t = 20
    · rw [if_pos h20] at hk; simp [SubData.typeCode] at hk
    · rw [if_neg h20] at hk; exact hk.symm
  subst this
  have e : decodeSub nestedDecode 25 srl b = (SrAbsCntrData.decode {} b).map SubData.absCntr := by simp [decodeSub]
  rw [e] at h
  obtain ⟨a, h1, h2⟩ := out_map_ok h
  cases h2; exact h1

omit P in
/-- a decoded counter value has three bytes -/
theorem cntr_small {b : Bytes} {d : SrAbsCntrData} (h : SrAbsCntrData.decode {} b = .ok d) : d.CounterValue.toNat < 2 ^ 24 := by
  unfold SrAbsCntrData.decode Dec.run at h
  revert h
  cases hw : SrAbsCntrData.decodeM {} b with
  | ok a s1 r1 =>
    intro h; cases h
    unfold SrAbsCntrData.decodeM at hw
    obtain ⟨_, s2, r2, h2, g2⟩ := Dec.bind_inv hw
    obtain ⟨t, s3, r3, h3, g3⟩ := Dec.bind_inv g2
    obtain ⟨-, ht, -⟩ := Dec.read_inv h3
    cases g3
    match t, ht with
    | [x, y, z], _ =>
      have := x.toNat_lt; have := y.toNat_lt; have := z.toNat_lt
      simp [u32]; omega
  | err e x => intro h; cases h
  | panic => intro h; cases h
  | diverge => intro h; cases h

/-- the body of an accepted data packet -/
theorem accepted_body {c spare : Bytes} {p : Package} {l : ServiceDataSet} (h : Package.decode {} c spare = .ret 0 none p)
    (hb : p.ServicesFrameData = some (.appdata l)) : ServiceDataSet.decode [] (bodyBytes c) = .ok l := by
  obtain ⟨-, ht, hp, b, hb', hd⟩ := decode_ok_facts h
  obtain rfl : b = .appdata l := by rw [hb] at hb'; exact (Option.some.inj hb').symm
  exact (decodeBody_appdata hd).2

/-! ### C41 -/

/-- the fold of the code over the number parts only -/
def numberStep (st : Bytes × UInt32) (x : Nat × Nat) : Bytes × UInt32 :=
  if x.1 = 110 then (be32 (UInt32.ofNat x.2), UInt32.ofNat x.2)
  else
    let b := if st.1.length = 4 then st.1.set 3 ((be32 (UInt32.ofNat x.2)).getD 3 0) else be32 (UInt32.ofNat x.2)
    (b, u32 b)

theorem counter_fold (ds : List SubData) (st : Bytes × UInt32) :
    ds.foldl counterStep st = (ds.filterMap fun d => match d with
      | .absCntr c => if c.CounterNumber = 110 ∨ c.CounterNumber = 111 then some (c.CounterNumber.toNat, c.CounterValue.toNat) else none
      | _ => none).foldl numberStep st := by
  induction ds generalizing st with
  | nil => rfl
  | cons d ds ih =>
    rw [List.foldl_cons, ih]
    cases d with
    | absCntr c =>
      rw [List.filterMap_cons]
      simp only [counterStep, SubData.absCntr?]
      by_cases h1 : c.CounterNumber = 110
      · simp [h1, numberStep]
      · by_cases h2 : c.CounterNumber = 111
        · simp [h2, numberStep]
        · simp [h1, h2]
    | _ => rfl

theorem packetId_numbers (v : UInt32) (l : List ServiceDataRecord) :
    packetIdAfter v l = (l.map numberParts).foldl (fun v ps => (ps.foldl numberStep (zeros 4, v)).2) v := by
  induction l generalizing v with
  | nil => rfl
  | cons r l ih => simp only [packetIdAfter, List.map_cons, List.foldl_cons, ih, counter_fold]; rfl

theorem packetId_none (v : UInt32) (l : List ServiceDataRecord) (h : ∀ r ∈ l, numberParts r = []) : packetIdAfter v l = v := by
  induction l generalizing v with
  | nil => rfl
  | cons r l ih =>
    rw [packetIdAfter, counter_fold]
    show packetIdAfter ((numberParts r).foldl numberStep (zeros 4, v)).2 l = v
    rw [h r (by simp)]
    exact ih v fun x hx => h x (by simp [hx])

theorem packetId_last (v : UInt32) (l1 l2 : List ServiceDataRecord) (r : ServiceDataRecord) (h : ∀ r ∈ l2, numberParts r = []) :
    ∃ v', packetIdAfter v (l1 ++ r :: l2) = ((numberParts r).foldl numberStep (zeros 4, v')).2 := by
  induction l1 generalizing v with
  | nil =>
    refine ⟨v, ?_⟩
    rw [List.nil_append, packetIdAfter, packetId_none _ l2 h, counter_fold]
    rfl
  | cons x l1 ih => exact ih _

/-- the counters of an accepted packet have values of three bytes -/
theorem numberParts_small {c spare : Bytes} {p : Package} {l : ServiceDataSet} (h : Package.decode {} c spare = .ret 0 none p)
    (hb : p.ServicesFrameData = some (.appdata l)) (rec : ServiceDataRecord) (hm : rec ∈ l) (x : Nat × Nat)
    (hx : x ∈ numberParts rec) : x.2 < 2 ^ 24 := by
  unfold numberParts at hx
  obtain ⟨d, hd, hx⟩ := List.mem_filterMap.mp hx
  obtain ⟨t, srl, content, hs⟩ := subs_origin (accepted_body h hb) d (List.mem_flatMap.mpr ⟨rec, hm, hd⟩)
  cases d with
  | absCntr k =>
    simp only at hx
    split at hx
    · cases hx
      exact cntr_small (decodeSub_cntr hs)
    · cases hx
  | _ => cases hx

/-- the exported packet id of the saved record -/
theorem saved_packetId (env : Env) (c : Bytes) (p : Package) (l : List ServiceDataRecord) (r : NavRecord) (hf : Framed c)
    (hd : Package.decode {} c (env.spare 0) = .ret 0 none p) (hb : p.ServicesFrameData = some (.appdata l)) (hn : NoResponses l)
    (hr : r ∈ savesOf (handleConn env true .silent [c]).1) : r.PacketID = packetIdAfter p.PacketIdentifier.toUInt32 l := by
  rw [data_saved env c p l hf hd hb hn] at hr
  by_cases h : (positions (subsOf l)).isEmpty
  · rw [if_pos h] at hr; simp at hr
  · rw [if_neg h] at hr
    obtain rfl : r = exportOf (env.now 0) p.PacketIdentifier l := by simpa using hr
    rfl

/-- C41 (partial): without the counters 110 and 111 the exported packet id is the identifier of the packet; with counter
110 alone (in the last record that has any of them) it is the value of that counter. Missing: counter 111
(`record_number_behaviour`, `record_number_right_iff`). -/
theorem record_number_partial (env : Env) (c : Bytes) (p : Package) (l : List ServiceDataRecord) (r : NavRecord) (hf : Framed c)
    (hd : Package.decode {} c (env.spare 0) = .ret 0 none p) (hb : p.ServicesFrameData = some (.appdata l)) (hn : NoResponses l)
    (hr : r ∈ savesOf (handleConn env true .silent [c]).1) :
    ((∀ rec ∈ l, numberParts rec = []) → r.PacketID.toNat = word16At c 7) ∧
    (∀ l1 l2 rec a, l = l1 ++ rec :: l2 → (∀ x ∈ l2, numberParts x = []) → numberParts rec = [(110, a)] →
      r.PacketID.toNat = a) := by
  have h := saved_packetId env c p l r hf hd hb hn hr
  constructor
  · intro hno
    rw [h, packetId_none _ l hno]
    obtain ⟨hc, -, hp, -⟩ := decode_ok_facts hd
    rw [UInt16.toNat_toUInt32, hp, u16_toNat]; simp [word16At, leValue]
  · intro l1 l2 rec a hl h2 ha
    rw [h, hl]
    obtain ⟨v', hv⟩ := packetId_last p.PacketIdentifier.toUInt32 l1 l2 rec h2
    rw [hv, ha]
    have hal : a < 2 ^ 24 := numberParts_small hd hb rec (by rw [hl]; simp) (110, a) (by rw [ha]; simp)
    show (UInt32.ofNat a).toNat = a
    exact UInt32.toNat_ofNat_of_lt' (by exact Nat.lt_trans hal (by decide))

/-- C41, what the code does: with counter 110 followed by counter 111 (in the last record that has any of them) the
lowest byte of counter 110 is dropped and its two higher bytes are exchanged and moved. -/
theorem record_number_behaviour (env : Env) (c : Bytes) (p : Package) (l : List ServiceDataRecord) (r : NavRecord) (hf : Framed c)
    (hd : Package.decode {} c (env.spare 0) = .ret 0 none p) (hb : p.ServicesFrameData = some (.appdata l)) (hn : NoResponses l)
    (hr : r ∈ savesOf (handleConn env true .silent [c]).1) (l1 l2 : List ServiceDataRecord) (rec : ServiceDataRecord) (a b : Nat)
    (hl : l = l1 ++ rec :: l2) (h2 : ∀ x ∈ l2, numberParts x = []) (ha : numberParts rec = [(110, a), (111, b)]) :
    r.PacketID.toNat = 256 * (a / 65536) + 65536 * (a / 256 % 256) + 2 ^ 24 * (b % 256) := by
  obtain ⟨hal, hbl⟩ : a < 2 ^ 24 ∧ b < 2 ^ 24 := by
    have hm : rec ∈ l := by rw [hl]; simp
    exact ⟨numberParts_small hd hb rec hm (110, a) (by rw [ha]; simp), numberParts_small hd hb rec hm (111, b) (by rw [ha]; simp)⟩
  rw [saved_packetId env c p l r hf hd hb hn hr, hl]
  obtain ⟨v', hv⟩ := packetId_last p.PacketIdentifier.toUInt32 l1 l2 rec h2
  rw [hv, ha]
  simp only [List.foldl_cons, List.foldl_nil, numberStep, if_true, be32, le32]
  rw [if_neg (by decide)]
  have ea : (UInt32.ofNat a).toNat = a := UInt32.toNat_ofNat_of_lt' (by exact Nat.lt_trans hal (by decide))
  have eb : (UInt32.ofNat b).toNat = b := UInt32.toNat_ofNat_of_lt' (by exact Nat.lt_trans hbl (by decide))
  simp only [ea, eb]
  simp [u32]
  rw [Nat.div_eq_of_lt (show a < 16777216 by omega)]
  clear ea eb
  have h3 : a / 65536 < 256 := by omega
  rw [Nat.mod_eq_of_lt h3, Nat.mod_eq_of_lt (by omega)]
  omega

/-- C41: the exported packet id is the number sent by the terminal (value of 110 plus 2^24 times the value of 111)
only for numbers whose low byte is 0 and whose second and third bytes are equal. -/
theorem record_number_right_iff (env : Env) (c : Bytes) (p : Package) (l : List ServiceDataRecord) (r : NavRecord) (hf : Framed c)
    (hd : Package.decode {} c (env.spare 0) = .ret 0 none p) (hb : p.ServicesFrameData = some (.appdata l)) (hn : NoResponses l)
    (hr : r ∈ savesOf (handleConn env true .silent [c]).1) (l1 l2 : List ServiceDataRecord) (rec : ServiceDataRecord) (a b : Nat)
    (hl : l = l1 ++ rec :: l2) (h2 : ∀ x ∈ l2, numberParts x = []) (ha : numberParts rec = [(110, a), (111, b)])
    (hbl : b < 256) :
    r.PacketID.toNat = a + 2 ^ 24 * b ↔ a % 256 = 0 ∧ a / 256 % 256 = a / 65536 := by
  have hal : a < 2 ^ 24 := numberParts_small hd hb rec (by rw [hl]; simp) (110, a) (by rw [ha]; simp)
  rw [record_number_behaviour env c p l r hf hd hb hn hr l1 l2 rec a b hl h2 ha]
  omega

/-- a packet with one position and the counters 110 = 0x010203 and 111 = 4 -/
def cntPacket : Bytes := [1, 0, 0, 11, 0, 45, 0, 7, 0, 1, 204, 38, 0, 1, 0, 0, 2, 2, 16, 21, 0, 1, 0, 0, 0, 0, 0, 0, 0, 0, 0, 0, 0, 1,
  0, 0, 0, 1, 0, 0, 0, 0, 25, 4, 0, 110, 3, 2, 1, 25, 4, 0, 111, 4, 0, 0, 199, 30]

theorem cntPacket_framed : Framed cntPacket := by decide

set_option maxRecDepth 1000000 in
theorem cntPacket_sketch : (dataOf (Package.decode {} cntPacket [])).map
    (fun l => ((positions (subsOf l)).length, (subsOf l).any (·.isResponse), l.map numberParts)) =
    some (1, false, [[(110, 0x010203), (111, 4)]]) := by kernel_rfl

/-- C41 is false of the code: a terminal that sends the record number 0x04010203 in the counters 110 and 111 finds it
exported as 0x04020100. -/
theorem record_number_wrong (env : Env) : ∃ r, savesOf (handleConn env true .silent [cntPacket]).1 = [r] ∧ r.PacketID = 0x04020100 := by
  have hs : Package.decode {} cntPacket (env.spare 0) = Package.decode {} cntPacket [] := by
    have := trailing_ignored_partial {} cntPacket [] [] (env.spare 0) (by decide) (by decide) (by decide)
    rwa [List.append_nil] at this
  have h := cntPacket_sketch (P := P)
  cases hd : dataOf (Package.decode {} cntPacket []) with
  | none => rw [hd] at h; cases h
  | some l =>
    rw [hd] at h
    obtain ⟨p, hp, hb⟩ := dataOf_some hd
    have h' := Option.some.inj h
    simp only [Prod.mk.injEq] at h'
    obtain ⟨h1, h2, h3⟩ := h'
    have hn : NoResponses l := fun d hd' => by
      simp only [List.any_eq_false] at h2
      simpa using h2 d hd'
    rw [← hs] at hp
    obtain ⟨r, hr, -⟩ := (positions_exported env cntPacket p l cntPacket_framed hp hb hn).2 (by
      intro h0; rw [h0] at h1; cases h1)
    refine ⟨r, hr, ?_⟩
    obtain ⟨rec, rfl⟩ := List.length_eq_one_iff.mp (show l.length = 1 by simpa using congrArg List.length h3)
    have h4 : numberParts rec = [(110, 0x010203), (111, 4)] := by simpa using h3
    have := record_number_behaviour env cntPacket p [rec] r cntPacket_framed hp hb hn (by rw [hr]; simp) [] [] rec _ _ rfl (by simp) h4
    exact UInt32.toNat_inj.mp this

/-! ### C42 -/

/-- what C42 asks for: the sign of the exported coordinates follows the hemisphere flags of the position -/
def SignedBy (d : SrPosData) (s : LocState) : Prop :=
  (d.LAHS = [49] → s.Latitude ≤ 0 ∧ (d.Latitude ≠ 0 → s.Latitude < 0)) ∧ (d.LAHS = [48] → 0 ≤ s.Latitude) ∧
  (d.LOHS = [49] → s.Longitude ≤ 0 ∧ (d.Longitude ≠ 0 → s.Longitude < 0)) ∧ (d.LOHS = [48] → 0 ≤ s.Longitude)

/-- C42 (partial): the exported coordinates are never negative and never above 90 (180) degrees, so northern and
eastern positions are exported with the right sign, in the right order. Missing: southern and western positions
(`hemisphere_ignored`). -/
theorem hemisphere_partial (env : Env) (c : Bytes) (p : Package) (l : List ServiceDataRecord) (r : NavRecord) (hf : Framed c)
    (hd : Package.decode {} c (env.spare 0) = .ret 0 none p) (hb : p.ServicesFrameData = some (.appdata l)) (hn : NoResponses l)
    (hr : r ∈ savesOf (handleConn env true .silent [c]).1) :
    (∀ s ∈ r.LocStates, 0 ≤ s.Latitude ∧ s.Latitude ≤ 90 ∧ 0 ≤ s.Longitude ∧ s.Longitude ≤ 180) ∧
    List.Forall₂ (fun d s => d.LAHS = [48] → d.LOHS = [48] → SignedBy d s) (positions (subsOf l)) r.LocStates := by
  have hl : r.LocStates = (positions (subsOf l)).map locOf := by
    rw [data_saved env c p l hf hd hb hn] at hr
    by_cases h : (positions (subsOf l)).isEmpty
    · rw [if_pos h] at hr; simp at hr
    · rw [if_neg h] at hr
      obtain rfl : r = exportOf (env.now 0) p.PacketIdentifier l := by simpa using hr
      rfl
  have hp : ∀ d ∈ positions (subsOf l), 0 ≤ d.Latitude ∧ d.Latitude ≤ 90 ∧ 0 ≤ d.Longitude ∧ d.Longitude ≤ 180 := by
    intro d hdm
    obtain ⟨x, hx, hxd⟩ := List.mem_filterMap.mp hdm
    obtain ⟨t, srl, content, hs⟩ := subs_origin (accepted_body hd hb) x hx
    cases x <;> cases hxd
    obtain ⟨-, h1, h2, -, h3, h4⟩ := coord_decoded content d (decodeSub_pos hs)
    exact ⟨h1, h2, h3, h4⟩
  rw [hl]
  constructor
  · intro s hs
    obtain ⟨d, hdm, rfl⟩ := List.mem_map.mp hs
    exact hp d hdm
  · rw [List.forall₂_map_right_iff, List.forall₂_same]
    intro d hdm h1 h2
    obtain ⟨g1, -, g2, -⟩ := hp d hdm
    refine ⟨fun h => ?_, fun _ => g1, fun h => ?_, fun _ => g2⟩
    · rw [h1] at h; cases h
    · rw [h2] at h; cases h

/-- a packet with one position that is flagged southern and western -/
def swPacket : Bytes := [1, 0, 0, 11, 0, 31, 0, 7, 0, 1, 223, 24, 0, 1, 0, 0, 2, 2, 16, 21, 0, 1, 0, 0, 0, 0, 0, 0, 128, 0, 0, 0, 128, 97,
  0, 0, 0, 1, 0, 0, 0, 0, 217, 239]

theorem swPacket_framed : Framed swPacket := by decide

set_option maxRecDepth 1000000 in
theorem swPacket_sketch : (dataOf (Package.decode {} swPacket [])).map
    (fun l => ((subsOf l).any (·.isResponse), (positions (subsOf l)).map fun d => (d.LAHS, d.LOHS))) =
    some (false, [([49], [49])]) := by kernel_rfl

/-- C42 is false of the code: the position of `swPacket` is flagged southern and western and is exported with
coordinates that are not negative (about 45 and 90 degrees). -/
theorem hemisphere_ignored (env : Env) : ∃ r s, savesOf (handleConn env true .silent [swPacket]).1 = [r] ∧ r.LocStates = [s] ∧
    0 ≤ s.Latitude ∧ 0 ≤ s.Longitude ∧
    ∃ p l d, Package.decode {} swPacket (env.spare 0) = .ret 0 none p ∧ p.ServicesFrameData = some (.appdata l) ∧
      positions (subsOf l) = [d] ∧ d.LAHS = [49] ∧ d.LOHS = [49] := by
  have hs : Package.decode {} swPacket (env.spare 0) = Package.decode {} swPacket [] := by
    have := trailing_ignored_partial {} swPacket [] [] (env.spare 0) (by decide) (by decide) (by decide)
    rwa [List.append_nil] at this
  have h := swPacket_sketch (P := P)
  cases hd : dataOf (Package.decode {} swPacket []) with
  | none => rw [hd] at h; cases h
  | some l =>
    rw [hd] at h
    obtain ⟨p, hp, hb⟩ := dataOf_some hd
    have h' := Option.some.inj h
    simp only [Prod.mk.injEq] at h'
    obtain ⟨h2, h3⟩ := h'
    have hn : NoResponses l := fun d hd' => by
      simp only [List.any_eq_false] at h2
      simpa using h2 d hd'
    rw [← hs] at hp
    obtain ⟨d, hd1⟩ := List.length_eq_one_iff.mp (show (positions (subsOf l)).length = 1 by simpa using congrArg List.length h3)
    rw [hd1] at h3
    obtain ⟨r, hr, hls, -⟩ := (positions_exported env swPacket p l swPacket_framed hp hb hn).2 (by rw [hd1]; simp)
    rw [hd1] at hls
    obtain ⟨h4, -⟩ := hemisphere_partial env swPacket p l r swPacket_framed hp hb hn (by rw [hr]; simp)
    obtain ⟨g1, -, g2, -⟩ := h4 (locOf d) (by rw [hls]; simp)
    have h5 : (d.LAHS, d.LOHS) = ([49], [49]) := by simpa using h3
    exact ⟨r, locOf d, hr, hls, g1, g2, p, l, d, hp, hb, hd1, congrArg Prod.fst h5, congrArg Prod.snd h5⟩

end Egts
