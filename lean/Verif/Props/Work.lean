import Verif.Lemmas.Work
import Verif.Spec.RawBody
import Verif.Props.OneBad
set_option autoImplicit false
/- C116: the work of decoding a packet and its length. -/
namespace Egts
open Frame
variable [P : Platform]

/-- C116 (partial): no packet makes the decoder read more than 65534 records and subrecords per byte: the work is bounded by a linear
function of the length, with a large factor. It holds for every body, accepted or not. Missing: a factor that does not depend on what length
fields claim (`small_packet_large_work`); see `work_truthful_partial`. -/
theorem work_bounded_partial (b : Bytes) : work b ≤ 65533 * nz b + b.length := sdsWork_le _ _

/-! ### the loop of records, one record at a time -/

/-- the work of the record loop with the given cost of a record -/
def recordsWork (cost : Bytes → Nat) (b : Bytes) : Nat := loopWork (sdsStep nestedDecode) cost b.length [] b

theorem sdsStep_rest {s s' : ServiceDataSet} {r r' : Bytes} (h : sdsStep nestedDecode s r = .ok () s' r') (t : ServiceDataSet) :
    r'.length < r.length ∧ ∃ t', sdsStep nestedDecode t r = .ok () t' r' := by
  obtain ⟨e, -, h⟩ := (sdsStep_iff s s' r r').mp h
  exact ⟨recordOn_len h, t ++ [e], (sdsStep_iff t _ r r').mpr ⟨e, rfl, h⟩⟩

theorem recordsWork_fuel (cost : Bytes → Nat) : ∀ (n : Nat) (s : ServiceDataSet) (m : Nat) (t : ServiceDataSet) (r : Bytes), r.length ≤ n →
    r.length ≤ m → loopWork (sdsStep nestedDecode) cost n s r = loopWork (sdsStep nestedDecode) cost m t r := by
  intro n
  induction n with
  | zero =>
    intro s m t r hr _
    obtain rfl : r = [] := List.length_eq_zero_iff.mp (by omega)
    cases m <;> simp [loopWork]
  | succ n ih =>
    intro s m t r hr hm
    by_cases he : r = []
    · subst he; cases m <;> simp [loopWork]
    have hp := List.length_pos_iff.mpr he
    obtain ⟨m, rfl⟩ : ∃ m', m = m' + 1 := ⟨m - 1, by omega⟩
    unfold loopWork
    rw [if_neg he, if_neg he]
    congr 1
    cases h1 : sdsStep nestedDecode s r with
    | ok u s' r' =>
      obtain ⟨hlt, t', h2⟩ := sdsStep_rest h1 t
      rw [h2]
      exact ih s' m t' r' (by omega) (by omega)
    | err e x =>
      cases h2 : sdsStep nestedDecode t r with
      | ok u s' r' =>
        obtain ⟨-, t', h3⟩ := sdsStep_rest h2 s
        rw [h1] at h3; cases h3
      | _ => rfl
    | panic =>
      cases h2 : sdsStep nestedDecode t r with
      | ok u s' r' =>
        obtain ⟨-, t', h3⟩ := sdsStep_rest h2 s
        rw [h1] at h3; cases h3
      | _ => rfl
    | diverge =>
      cases h2 : sdsStep nestedDecode t r with
      | ok u s' r' =>
        obtain ⟨-, t', h3⟩ := sdsStep_rest h2 s
        rw [h1] at h3; cases h3
      | _ => rfl

theorem recordsWork_cons (cost : Bytes → Nat) {b rest : Bytes} {e : ServiceDataRecord} (h : RecordOn b e rest) :
    recordsWork cost b = cost b + recordsWork cost rest := by
  have hlt := recordOn_len h
  unfold recordsWork
  obtain ⟨n, hn⟩ : ∃ n, b.length = n + 1 := ⟨b.length - 1, by omega⟩
  rw [hn, loopWork, if_neg (by rintro rfl; simp at hn), (sdsStep_iff [] ([] ++ [e]) b rest).mpr ⟨e, rfl, h⟩]
  simp only
  rw [recordsWork_fuel cost n _ rest.length [] rest (by omega) (by omega)]

omit P in
theorem recordsWork_nil [Platform] (cost : Bytes → Nat) : recordsWork cost [] = 0 := rfl

theorem sdsWork_succ (n : Nat) (b : Bytes) : sdsWork (n + 1) b = recordsWork (recordWork (sdsWork n)) b := rfl

/-- record data that are one subrecord -/
theorem rdsWork_single (nested : Bytes → Nat) (b : Bytes) (hb : b ≠ []) (rd : RecordData) (h : CompleteSub b rd []) :
    rdsWork nested b = subWork nested b := by
  unfold rdsWork
  obtain ⟨n, hn⟩ : ∃ n, b.length = n + 1 := ⟨b.length - 1, by have := List.length_pos_iff.mpr hb; omega⟩
  rw [hn, loopWork, if_neg hb, (rdsStep_iff [] ([] ++ [rd]) b []).mpr ⟨rd, rfl, .inl h⟩]
  cases n <;> simp [loopWork]

/-! ### a small packet that makes much work -/

/-- the header of a record of this length, all other fields zero -/
def plainHeader (n : Nat) : Bytes := leBytes 2 n ++ [0, 0, 0, 0, 0]

/-- a record response to record 0, with nested service data -/
def nestedResponse (b : Bytes) : Bytes := [0] ++ leBytes 2 (b.length + 3) ++ [0, 0, 0] ++ b

/-- the record that a plain header announces -/
def plainRecord (n : Nat) (l : List RecordData) : ServiceDataRecord := recAt (UInt16.ofNat n) 0 0 0 0 0 0 0 l

theorem plain_header (n : Nat) (hn : n < 65536) (l : List RecordData) : RecordHeader (plainHeader n) (plainRecord n l) ∧
    (plainRecord n l).RecordLength.toNat = n := by
  have h1 : (UInt16.ofNat n).toNat = n := by simp; omega
  refine ⟨⟨0, ?_, rfl, rfl, rfl, rfl, rfl, rfl, rfl, fun _ => rfl, fun _ => rfl, fun _ => rfl⟩, h1⟩
  simp [plainRecord, recAt, h1, plainHeader, leBytes]

theorem response_nested (b : Bytes) (l : ServiceDataSet) (h : Records b l) :
    SrResponse.decode {} ([0, 0, 0] ++ b) = .ok {} := by
  have := (body_decode_iff b l).mpr h
  rw [← nestedDecode_eq] at this
  unfold SrResponse.decode
  have h2 : SrResponse.decodeM nestedDecode {} ([0, 0, 0] ++ b) =
      (Dec.call (nestedDecode b) >>= fun _ => pure () : Dec SrResponse Unit) {} b := rfl
  unfold Dec.run
  rw [h2, this]
  rfl


theorem nested_sub (b : Bytes) (hb : b.length + 3 < 65536) (l : ServiceDataSet) (h : Records b l) :
    CompleteSub (nestedResponse b) ⟨0, UInt16.ofNat (b.length + 3), some (.response {})⟩ [] := by
  have h1 : (UInt16.ofNat (b.length + 3)).toNat = b.length + 3 := by simp; omega
  exact ⟨[0, 0, 0] ++ b, .response {}, by simp [nestedResponse], by rw [h1]; simp, rfl, rfl, response_nested b l h⟩

omit P in
theorem nested_len (b : Bytes) : (nestedResponse b).length = b.length + 6 := by
  simp [nestedResponse, leBytes_len]; omega

/-- a record whose data are sent up to a number of zeros at the end -/
theorem cut_record (d : Bytes) (m : Nat) (hd : d ≠ []) (hl : d.length + m < 65536) (l : List RecordData) (h : Subs (d ++ zeros m) l) :
    RecordOn (plainHeader (d.length + m) ++ d) (plainRecord (d.length + m) l) [] := by
  obtain ⟨h1, h2⟩ := plain_header (d.length + m) hl l
  by_cases hm : m = 0
  · subst hm
    refine .inl ⟨_, d, h1, h2.symm, ?_, by simp⟩
    have h0 : d ++ zeros 0 = d := by simp [zeros]
    rw [h0] at h
    exact h
  · refine .inr (.inr ⟨rfl, _, d, h1, hd, by omega, ?_, rfl⟩)
    rw [h2]
    have : d.length + m - d.length = m := by omega
    rw [this]
    exact h

theorem cut_work (nested : Bytes → Nat) (d : Bytes) (m : Nat) (hd : d ≠ []) (hl : d.length + m < 65536) :
    recordWork nested (plainHeader (d.length + m) ++ d) = 1 + rdsWork nested (d ++ zeros m) := by
  obtain ⟨h1, h2⟩ := plain_header (d.length + m) hl []
  obtain ⟨h3, h4⟩ := header_lens (plainHeader (d.length + m)) d _ h1
  have hp := List.length_pos_iff.mpr hd
  unfold recordWork
  rw [h3, if_pos (by simp; omega)]
  unfold recordData
  simp only [h3, h4, h2]
  rw [List.drop_left' rfl, List.take_of_length_le (by omega)]
  have : d.length + m - d.length = m := by omega
  rw [this]

/-- a body: one record with a record response with the nested service data `b` -/
def wrap (b : Bytes) : Bytes := plainHeader (b.length + 6) ++ nestedResponse b

omit P in
theorem wrap_len (b : Bytes) : (wrap b).length = b.length + 13 := by
  simp [wrap, plainHeader, leBytes_len, nested_len]; omega

/-- zeros are empty records, seven bytes each -/
theorem zeros_records (q : Nat) : ∃ l, Records (zeros (7 * q)) l := by
  induction q with
  | zero => exact ⟨[], .nil⟩
  | succ q ih =>
    obtain ⟨l, hl⟩ := ih
    obtain ⟨h1, h2⟩ := plain_header 0 (by omega) []
    have : zeros (7 * (q + 1)) = plainHeader 0 ++ [] ++ zeros (7 * q) := by
      rw [show 7 * (q + 1) = 7 + 7 * q by omega]
      simp [zeros, plainHeader, leBytes, List.replicate_add]
    rw [this]
    exact ⟨_, .cons h1 h2.symm .nil hl⟩

theorem zeros_work (nested : Bytes → Nat) (q : Nat) : recordsWork (recordWork nested) (zeros (7 * q)) = q := by
  induction q with
  | zero => rfl
  | succ q ih =>
    obtain ⟨h1, h2⟩ := plain_header 0 (by omega) []
    have he : zeros (7 * (q + 1)) = plainHeader 0 ++ zeros (7 * q) := by
      rw [show 7 * (q + 1) = 7 + 7 * q by omega]
      simp [zeros, plainHeader, leBytes, List.replicate_add]
    have hr : RecordOn (plainHeader 0 ++ zeros (7 * q)) (plainRecord 0 []) (zeros (7 * q)) := .inl ⟨_, [], h1, h2.symm, .nil, by simp⟩
    rw [he, recordsWork_cons _ hr, ih]
    obtain ⟨h3, h4⟩ := header_lens (plainHeader 0) (zeros (7 * q)) _ h1
    have : recordWork nested (plainHeader 0 ++ zeros (7 * q)) = 1 := by
      unfold recordWork
      have hd : recordData (plainHeader 0 ++ zeros (7 * q)) = [] := by
        unfold recordData
        simp only [h4, h2]
        simp [zeros]
      rw [hd]
      simp [rdsWork, loopWork]
    omega

/-- the truthful layer followed by empty records -/
theorem wrap_records (b : Bytes) (hb : b.length + 6 < 65536) (l : ServiceDataSet) (h : Records b l) (q : Nat) :
    ∃ l', Records (wrap b ++ zeros (7 * q)) l' := by
  obtain ⟨l', hl'⟩ := zeros_records q
  obtain ⟨h1, h2⟩ := plain_header (b.length + 6) hb [⟨0, UInt16.ofNat (b.length + 3), some (.response {})⟩]
  exact ⟨_, .cons h1 (by rw [h2, nested_len]) (.cons (nested_sub b (by omega) l h) .nil) hl'⟩

omit P in
theorem nested_subWork (nested : Bytes → Nat) (b : Bytes) (hb : b.length + 3 < 65536) : subWork nested (nestedResponse b) = 1 + nested b := by
  have hc : contentAt (nestedResponse b) = [0, 0, 0] ++ b := by
    have := contentAt_shape 0 (b.length + 3) ([0, 0, 0] ++ b) [] hb (.inl (by simp))
    rw [← this]
    congr 1
    simp [nestedResponse]
  unfold subWork
  rw [hc, if_pos ⟨rfl, by simp⟩]
  rfl

theorem nested_rdsWork (nested : Bytes → Nat) (b : Bytes) (hb : b.length + 3 < 65536) (l : ServiceDataSet) (h : Records b l) :
    rdsWork nested (nestedResponse b) = 1 + nested b := by
  rw [rdsWork_single nested _ (by simp [nestedResponse]) _ (nested_sub b hb l h), nested_subWork nested b hb]

theorem wrap_work (n : Nat) (b : Bytes) (hb : b.length + 6 < 65536) (l : ServiceDataSet) (h : Records b l) (q : Nat) :
    sdsWork (n + 1) (wrap b ++ zeros (7 * q)) = 2 + q + sdsWork n b := by
  obtain ⟨h1, h2⟩ := plain_header (b.length + 6) hb [⟨0, UInt16.ofNat (b.length + 3), some (.response {})⟩]
  have hr : RecordOn (wrap b ++ zeros (7 * q)) _ (zeros (7 * q)) :=
    .inl ⟨_, nestedResponse b, h1, by rw [h2, nested_len], .cons (nested_sub b (by omega) l h) .nil, rfl⟩
  rw [sdsWork_succ, recordsWork_cons _ hr, zeros_work]
  obtain ⟨h3, h4⟩ := header_lens (plainHeader (b.length + 6)) (nestedResponse b ++ zeros (7 * q)) _ h1
  have hw : wrap b ++ zeros (7 * q) = plainHeader (b.length + 6) ++ (nestedResponse b ++ zeros (7 * q)) := by simp [wrap]
  have : recordWork (sdsWork n) (wrap b ++ zeros (7 * q)) = 1 + (1 + sdsWork n b) := by
    rw [hw]
    unfold recordWork
    rw [h3, if_pos (by simp [nested_len])]
    unfold recordData
    simp only [h3, h4, h2]
    rw [List.drop_left' rfl, List.take_left' (nested_len b), nested_len]
    simp only [Nat.sub_self]
    rw [show zeros 0 = [] from rfl, List.append_nil, nested_rdsWork _ b (by omega) l h]
  omega

/-- number of empty records that fit behind a layer around `n` bytes -/
def room (n : Nat) : Nat := (65516 - n) / 7

/-- two layers: the outer one announces more than is sent, so that the decoder fills up the inner one with zeros, which it then takes
for empty records -/
def grow (b : Bytes) : Bytes := (wrap (wrap b ++ zeros (7 * room b.length))).take (b.length + 26)

/-- `k` times two layers -/
def bomb : Nat → Bytes
  | 0 => []
  | k + 1 => grow (bomb k)

omit P in
theorem grow_shape (b : Bytes) (hb : b.length ≤ 65516) : ∃ d, d ≠ [] ∧ d.length + 7 * room b.length < 65536 ∧
    grow b = plainHeader (d.length + 7 * room b.length) ++ d ∧
    d ++ zeros (7 * room b.length) = nestedResponse (wrap b ++ zeros (7 * room b.length)) ∧ d.length = b.length + 19 := by
  have hroom : 7 * room b.length ≤ 65516 - b.length := by unfold room; omega
  generalize hq : 7 * room b.length = q at *
  refine ⟨[0] ++ leBytes 2 ((wrap b ++ zeros q).length + 3) ++ [0, 0, 0] ++ wrap b, by simp, ?_, ?_, ?_, ?_⟩
  · simp [leBytes_len, wrap_len]; omega
  · unfold grow
    rw [hq]
    have hl : ([0] ++ leBytes 2 ((wrap b ++ zeros q).length + 3) ++ [0, 0, 0] ++ wrap b).length + q = (wrap b ++ zeros q).length + 6 := by
      simp [leBytes_len, zeros]; omega
    rw [hl]
    have : wrap (wrap b ++ zeros q) = (plainHeader ((wrap b ++ zeros q).length + 6) ++
        ([0] ++ leBytes 2 ((wrap b ++ zeros q).length + 3) ++ [0, 0, 0] ++ wrap b)) ++ zeros q := by
      generalize hx : wrap b = x
      simp [wrap, nestedResponse]
    rw [this, List.take_left']
    simp [plainHeader, leBytes_len, wrap_len]; omega
  · simp [nestedResponse]
  · simp [leBytes_len, wrap_len]; omega

omit P in
theorem grow_len (b : Bytes) (hb : b.length ≤ 65516) : (grow b).length = b.length + 26 := by
  obtain ⟨d, -, -, h1, -, h2⟩ := grow_shape b hb
  rw [h1]
  simp [plainHeader, leBytes_len]; omega

theorem grow_records (b : Bytes) (hb : b.length ≤ 65516) (l : ServiceDataSet) (h : Records b l) :
    RecordOn (grow b) (plainRecord (b.length + 19 + 7 * room b.length)
      [⟨0, UInt16.ofNat ((wrap b ++ zeros (7 * room b.length)).length + 3), some (.response {})⟩]) [] := by
  obtain ⟨d, h1, h2, h3, h4, h5⟩ := grow_shape b hb
  obtain ⟨l', hl'⟩ := wrap_records b (by omega) l h (room b.length)
  rw [h3, ← h5]
  refine cut_record d _ h1 h2 _ ?_
  rw [h4]
  refine .cons (nested_sub _ ?_ l' hl') .nil
  have := congrArg List.length h4
  rw [nested_len] at this
  simp [zeros] at this ⊢
  omega

theorem grow_work (n : Nat) (b : Bytes) (hb : b.length ≤ 65516) (l : ServiceDataSet) (h : Records b l) :
    sdsWork (n + 2) (grow b) = 4 + room b.length + sdsWork n b := by
  obtain ⟨d, h1, h2, h3, h4, h5⟩ := grow_shape b hb
  obtain ⟨l', hl'⟩ := wrap_records b (by omega) l h (room b.length)
  rw [sdsWork_succ, recordsWork_cons _ (grow_records b hb l h), recordsWork_nil, h3, cut_work _ d _ h1 h2, h4, nested_rdsWork _ _ ?_ l' hl',
    wrap_work n b (by omega) l h]
  · omega
  · have := congrArg List.length h4
    rw [nested_len] at this
    simp [zeros] at this ⊢
    omega

/-- the work of `bomb k`: per two layers four records and subrecords, and the empty records -/
def bombWork : Nat → Nat
  | 0 => 0
  | k + 1 => bombWork k + 4 + room (26 * k)

theorem bomb_facts (k : Nat) (hk : 26 * k ≤ 65542) : (bomb k).length = 26 * k ∧ (∃ l, Records (bomb k) l) ∧
    2 * k ≤ nz (bomb k) ∧ ∀ n, 2 * k ≤ n → sdsWork n (bomb k) = bombWork k := by
  induction k with
  | zero => exact ⟨rfl, ⟨[], .nil⟩, by simp, fun n _ => by cases n <;> simp [sdsWork, bomb, bombWork, loopWork]⟩
  | succ k ih =>
    obtain ⟨h1, ⟨l, h2⟩, h3, h4⟩ := ih (by omega)
    have hb : (bomb k).length ≤ 65516 := by omega
    refine ⟨?_, ?_, ?_, ?_⟩
    · rw [bomb, grow_len _ hb, h1]; omega
    · exact ⟨_, (records_cons_iff (by
        intro h
        have := grow_len _ hb
        rw [bomb] at h
        rw [h] at this
        simp at this)).mpr ⟨_, [], [], rfl, grow_records _ hb l h2, .nil⟩⟩
    · obtain ⟨d, g1, g2, g3, g4, g5⟩ := grow_shape _ hb
      rw [bomb, g3, nz_append]
      have e1 := congrArg nz g4
      rw [nz_append, nz_zeros] at e1
      have e2 : 0 < nz (plainHeader (d.length + 7 * room (bomb k).length)) := by
        unfold plainHeader
        rw [nz_append]
        have := word16_pos_nz (leBytes 2 (d.length + 7 * room (bomb k).length)) 0 (by simp [word16At, byteAt, leBytes, leValue]; omega)
        have h3 : ∀ x : Bytes, nz ((x.drop 0).take 2) ≤ nz x := fun x => by rw [List.drop_zero]; exact nz_take_le _ _
        have := h3 (leBytes 2 (d.length + 7 * room (bomb k).length))
        omega
      have e3 : 1 + nz (bomb k) ≤ nz (nestedResponse (wrap (bomb k) ++ zeros (7 * room (bomb k).length))) := by
        have e5 : nz (nestedResponse (wrap (bomb k) ++ zeros (7 * room (bomb k).length))) ≥ nz (wrap (bomb k)) := by
          unfold nestedResponse
          rw [nz_append _ (wrap (bomb k) ++ _), nz_append (wrap (bomb k))]
          omega
        have e6 : nz (wrap (bomb k)) = nz (plainHeader ((bomb k).length + 6)) + nz (nestedResponse (bomb k)) := nz_append _ _
        have e7 : nz (bomb k) ≤ nz (nestedResponse (bomb k)) := by
          unfold nestedResponse
          rw [nz_append _ (bomb k)]
          omega
        have e4 : 0 < nz (plainHeader ((bomb k).length + 6)) := by
          unfold plainHeader
          rw [nz_append]
          have := word16_pos_nz (leBytes 2 ((bomb k).length + 6)) 0 (by simp [word16At, byteAt, leBytes, leValue]; omega)
          have h3 : ∀ x : Bytes, nz ((x.drop 0).take 2) ≤ nz x := fun x => by rw [List.drop_zero]; exact nz_take_le _ _
          have := h3 (leBytes 2 ((bomb k).length + 6))
          omega
        omega
      omega
    · intro n hn
      obtain ⟨m, rfl⟩ : ∃ m, n = m + 2 := ⟨n - 2, by omega⟩
      rw [bomb, grow_work m _ hb l h2, h4 m (by omega), h1, bombWork]
      omega


/-- the header of a data packet with this identifier and length of the body -/
def dataHeader (pid n : Nat) : Bytes := [1, 0, 0, 11, 0] ++ leBytes 2 n ++ leBytes 2 pid ++ [1]

omit P in
theorem data_header (pid n : Nat) (hp : pid < 65536) (hn : n < 65536) : RightHeader (dataHeader pid n) 1 pid n := by
  refine ⟨rfl, by simp [dataHeader, leBytes_len, headerSize, routed, byteAt], by simp [dataHeader, declaredHL, headerSize, routed, byteAt], ?_, ?_, ?_⟩
  rotate_right
  · simp [dataHeader, leBytes, byteAt]
  · simp [declaredFDL, dataHeader, word16At, byteAt, leBytes, leValue]; omega
  · simp [dataHeader, word16At, byteAt, leBytes, leValue]; omega

/-- C116 is false of the code: a packet of 26 k + 13 bytes, correctly framed and with right checksums, makes the decoder read `bombWork k` records and
subrecords. With k = 1 these are 9363 for 39 bytes, with k = 2520 11805840 for 65533 bytes (below). The decoder accepts it, and the gate
does not even answer. -/
theorem small_packet_large_work (now spare : Bytes) (pid k : Nat) (hp : pid < 65536) (h0 : 0 < k) (hk : 26 * k ≤ 65520) :
    (packet (dataHeader pid (26 * k)) (bomb k)).length = 26 * k + 13 ∧
    react now spare (packet (dataHeader pid (26 * k)) (bomb k)) = some [] ∧ work (bomb k) = bombWork k := by
  obtain ⟨h1, -, h3, h4⟩ := bomb_facts k (by omega)
  have hh := data_header pid (26 * k) hp (by omega)
  have hlen : (packet (dataHeader pid (26 * k)) (bomb k)).length = 26 * k + 13 := by
    simp [packet, leBytes_len, dataHeader, h1]; omega
  refine ⟨hlen, ?_, h4 _ (by omega)⟩
  obtain ⟨j, rfl⟩ : ∃ j, k = j + 1 := ⟨k - 1, by omega⟩
  obtain ⟨g1, ⟨l, g2⟩, -, -⟩ := bomb_facts j (by omega)
  have hb : (bomb j).length ≤ 65516 := by omega
  have hne : bomb (j + 1) ≠ [] := by
    intro h
    rw [h] at h1
    simp at h1
  have hrec := (records_cons_iff hne).mpr ⟨_, [], [], rfl, grow_records _ hb l g2, .nil⟩
  have hd := (body_decode_iff _ _).mpr hrec
  obtain ⟨q, hq, hqb, -⟩ := packet_decoded (b := bomb (j + 1)) (by rw [h1]; exact hh) hne (.inr rfl) (by omega)
    (show decodeBody 1 (bomb (j + 1)) = .ok (.appdata _) by unfold decodeBody; rw [if_pos rfl, hd]; rfl) {} spare
  unfold react
  rw [hq]
  simp only [hqb]
  rfl

/-- the first and the largest of these packets -/
example : bombWork 1 = 9363 ∧ bombWork 2520 = 11805840 := by decide +kernel

omit P in
/-- C116: no factor up to 352 bounds the work by the length of the packet -/
theorem work_not_proportional : ∃ k, 0 < k ∧ 26 * k ≤ 65520 ∧ 352 * (26 * k + 13) < bombWork k := ⟨50, by decide +kernel⟩

/-! ### packets whose length fields tell the truth -/

/-- a body all of whose length fields tell the truth, those of nested service data included -/
inductive Truthful : Bytes → Prop where
  | mk {b : Bytes} {subs : List (UInt8 × Bytes)} : RawRecords b subs → (∀ c, (0, c) ∈ subs → Truthful (c.drop 3)) → Truthful b


omit P in
/-- a potential bounds the work of a loop that keeps an invariant -/
theorem loopWork_inv {σ : Type} (body : Dec σ Unit) (cost : Bytes → Nat) (Φ : Bytes → Nat) (I : Bytes → Prop)
    (hfail : ∀ r, r ≠ [] → I r → cost r ≤ Φ r)
    (hok : ∀ s r s' r', r ≠ [] → I r → body s r = .ok () s' r' → I r' ∧ cost r + Φ r' ≤ Φ r) :
    ∀ (n : Nat) (s : σ) (r : Bytes), I r → loopWork body cost n s r ≤ Φ r := by
  intro n
  induction n with
  | zero => intro s r _; simp [loopWork]
  | succ n ih =>
    intro s r hI
    unfold loopWork
    split
    · exact Nat.zero_le _
    · rename_i hr
      cases hb : body s r with
      | ok u s' r' =>
        obtain ⟨h1, h2⟩ := hok s r s' r' hr hI hb
        have := ih s' r' h1
        simp only
        omega
      | err e s' => simpa using hfail r hr hI
      | panic => simpa using hfail r hr hI
      | diverge => simpa using hfail r hr hI

/-- record data with truthful lengths -/
def GoodSubs (nested : Bytes → Nat) (r : Bytes) : Prop :=
  ∃ l, RawSubs r l ∧ ∀ c, (0, c) ∈ l → nested (c.drop 3) ≤ (c.drop 3).length

omit P in
theorem subWork_shape (nested : Bytes → Nat) (t : UInt8) (c rest : Bytes) (hc : c.length < 65536)
    (hn : t = 0 → nested (c.drop 3) ≤ (c.drop 3).length) : subWork nested ([t] ++ leBytes 2 c.length ++ c ++ rest) ≤ 1 + c.length := by
  unfold subWork
  rw [contentAt_shape t c.length c rest hc (.inl rfl)]
  split
  · rename_i h
    have := hn h.1
    rw [List.length_drop] at this
    omega
  · omega

theorem good_rdsWork (nested : Bytes → Nat) (b : Bytes) (h : GoodSubs nested b) : rdsWork nested b ≤ b.length := by
  unfold rdsWork
  refine loopWork_inv _ _ List.length (GoodSubs nested) ?_ ?_ _ _ _ h
  · rintro r hr ⟨l, h1, h2⟩
    cases h1 with
    | nil => exact absurd rfl hr
    | @cons t c rest l hc hrest =>
      have := subWork_shape nested t c rest hc (fun h0 => h2 c (by subst h0; simp))
      simp only [List.length_append, leBytes_len, List.length_cons, List.length_nil] at this ⊢
      omega
  · rintro s r s' r' hr ⟨l, h1, h2⟩ hstep
    cases h1 with
    | nil => exact absurd rfl hr
    | @cons t c rest l hc hrest =>
      have hw := subWork_shape nested t c rest hc (fun h0 => h2 c (by subst h0; simp))
      have hr' : r' = rest ∨ r' = [] := by
        obtain ⟨rd, -, h⟩ := (rdsStep_iff s s' _ r').mp hstep
        rcases h with ⟨c', d, he, hl, -⟩ | ⟨-, h⟩
        · left
          simp only [List.append_assoc, List.cons_append, List.nil_append, List.cons.injEq] at he
          obtain ⟨-, he⟩ := he
          obtain ⟨h3, h4⟩ := List.append_inj he (by simp [leBytes_len])
          have h5 := congrArg leValue h3
          rw [leValue_leBytes, leValue_leBytes] at h5
          have := rd.SubrecordLength.toNat_lt
          have h6 : c.length = c'.length := by simp at h5; omega
          exact (List.append_inj h4 h6).2.symm
        · exact .inr h
      rcases hr' with rfl | rfl
      · refine ⟨⟨l, hrest, fun c' hc' => h2 c' (by simp [hc'])⟩, ?_⟩
        simp only [List.length_append, leBytes_len, List.length_cons, List.length_nil] at hw ⊢
        omega
      · refine ⟨⟨[], .nil, by simp⟩, ?_⟩
        simp only [List.length_append, leBytes_len, List.length_cons, List.length_nil] at hw ⊢
        omega

omit P in
theorem raw_header_lens (hdr x : Bytes) (n : Nat) (hn : n < 65536) (h : RawHeader hdr n) :
    recordHeaderLen (hdr ++ x) = hdr.length ∧ word16At (hdr ++ x) 0 = n ∧ 7 ≤ hdr.length := by
  obtain ⟨num, fl, opt, sst, rst, rfl, hnum, hopt⟩ := h
  match num, hnum with
  | [a, b], _ =>
    refine ⟨?_, ?_, ?_⟩
    · have : byteAt (leBytes 2 n ++ [a, b] ++ [fl] ++ opt ++ [sst, rst] ++ x) 4 = fl := by simp [byteAt, leBytes]
      unfold recordHeaderLen
      rw [this]
      simp only [List.length_append, leBytes_len, hopt, List.length_cons, List.length_nil]
      omega
    · simp [word16At, byteAt, leBytes, leValue]
      omega
    · simp [leBytes_len]
      omega

/-- records with truthful lengths -/
def GoodRecords (nested : Bytes → Nat) (r : Bytes) : Prop :=
  ∃ l, RawRecords r l ∧ ∀ c, (0, c) ∈ l → nested (c.drop 3) ≤ (c.drop 3).length

theorem recordWork_shape (nested : Bytes → Nat) (hdr data rest : Bytes) (hh : RawHeader hdr data.length) (hd : data.length < 65536)
    (h : GoodSubs nested data) : recordWork nested (hdr ++ data ++ rest) ≤ 1 + data.length := by
  obtain ⟨h1, h2, h3⟩ := raw_header_lens hdr (data ++ rest) _ hd hh
  rw [← List.append_assoc] at h1 h2
  have h4 : recordData (hdr ++ data ++ rest) = data := by
    unfold recordData
    simp only [h1, h2]
    rw [List.append_assoc, List.drop_left' rfl, List.take_left' rfl]
    simp [zeros]
  unfold recordWork
  rw [h4]
  have := good_rdsWork nested data h
  split <;> omega

theorem good_recordsWork (nested : Bytes → Nat) (b : Bytes) (h : GoodRecords nested b) : recordsWork (recordWork nested) b ≤ b.length := by
  unfold recordsWork
  refine loopWork_inv _ _ List.length (GoodRecords nested) ?_ ?_ _ _ _ h
  · rintro r hr ⟨l, h1, h2⟩
    cases h1 with
    | nil => exact absurd rfl hr
    | @cons hdr data rest l l' hh hd hs hrest =>
      have := recordWork_shape nested hdr data rest hh hd ⟨l, hs, fun c hc => h2 c (by simp [hc])⟩
      have h7 := (raw_header_lens hdr [] _ hd hh).2.2
      simp only [List.length_append] at this ⊢
      omega
  · rintro s r s' r' hr ⟨l, h1, h2⟩ hstep
    cases h1 with
    | nil => exact absurd rfl hr
    | @cons hdr data rest l l' hh hd hs hrest =>
      have hw := recordWork_shape nested hdr data rest hh hd ⟨l, hs, fun c hc => h2 c (by simp [hc])⟩
      have h7 := (raw_header_lens hdr [] _ hd hh).2.2
      have hr' : r' = rest ∨ r' = [] := by
        obtain ⟨e, -, h⟩ := (sdsStep_iff s s' _ r').mp hstep
        rcases h with ⟨hdr', data', hh', hl', -, he⟩ | ⟨h, -⟩ | ⟨h, -⟩
        · left
          rw [List.append_assoc, List.append_assoc] at he
          obtain ⟨-, h3, h4⟩ := header_same hh' hh hd he.symm
          exact (List.append_inj h3 (by omega)).2
        · exact .inr h
        · exact .inr h
      rcases hr' with rfl | rfl
      · refine ⟨⟨l', hrest, fun c hc => h2 c (by simp [hc])⟩, ?_⟩
        simp only [List.length_append] at hw ⊢
        omega
      · refine ⟨⟨[], .nil, by simp⟩, ?_⟩
        simp only [List.length_append, List.length_nil] at hw ⊢
        omega

/-- C116 (partial): if the length fields of a body tell the truth, those of nested service data included, the decoder reads at most one record or
subrecord per byte. Missing: bodies with other length fields (`small_packet_large_work`). -/
theorem work_truthful_partial (b : Bytes) (h : Truthful b) : work b ≤ b.length := by
  unfold work
  generalize nz b + 1 = n
  induction h generalizing n with
  | @mk b subs hr _ ih =>
    cases n with
    | zero => simp [sdsWork]
    | succ n => exact good_recordsWork _ b ⟨subs, hr, fun c hc => ih c hc n⟩

/-- a confirmation and a counter: meets the hypothesis -/
example : Truthful [13, 0, 1, 0, 0, 2, 2, 0, 3, 0, 1, 0, 0, 25, 4, 0, 110, 1, 0, 0] := by
  refine .mk (subs := [(0, [1, 0, 0]), (25, [110, 1, 0, 0])] ++ []) (.cons (hdr := [13, 0, 1, 0, 0, 2, 2])
    (data := [0, 3, 0, 1, 0, 0, 25, 4, 0, 110, 1, 0, 0]) (rest := []) ⟨[1, 0], 0, [], 2, 2, rfl, rfl, rfl⟩ (by decide) ?_ .nil) ?_
  · exact .cons (t := 0) (c := [1, 0, 0]) (rest := [25, 4, 0, 110, 1, 0, 0]) (by decide)
      (.cons (t := 25) (c := [110, 1, 0, 0]) (rest := []) (by decide) .nil)
  · intro c hc
    obtain rfl : c = [1, 0, 0] := by simpa using hc
    exact .mk (subs := []) .nil (by simp)

/-! ### the count is the count of the decoder -/

theorem decodeSub_calls (n1 n2 : Bytes → Out ServiceDataSet) (t : UInt8) (srl : UInt16) (c : Bytes)
    (h : t = 0 → 3 ≤ c.length → n1 (c.drop 3) = n2 (c.drop 3)) : decodeSub n1 t srl c = decodeSub n2 t srl c := by
  by_cases ht : t = 0
  · subst ht
    have e : ∀ n : Bytes → Out ServiceDataSet, decodeSub n 0 srl c = ((SrResponse.decodeM n).run {} c).map .response := fun _ => rfl
    rw [e n1, e n2]
    congr 1
    match c, h with
    | [], _ => rfl
    | [_], _ => rfl
    | [_, _], _ => rfl
    | p :: q :: w :: y, h =>
      have hy : n1 y = n2 y := h rfl (by simp)
      have e : ∀ n : Bytes → Out ServiceDataSet, SrResponse.decodeM n {} (p :: q :: w :: y) =
          (Dec.call (n y) >>= fun _ => pure () : Dec SrResponse Unit) { ConfirmedRecordNumber := u16 [p, q], RecordStatus := w } y := fun _ => rfl
      unfold Dec.run
      rw [e n1, e n2, hy]
  · unfold decodeSub
    rw [if_neg ht, if_neg ht]

/-- an iteration of the subrecord loop calls the decoder of nested service data on no other bytes than those counted -/
theorem rdsStep_calls (n1 n2 : Bytes → Out ServiceDataSet) (s : RecordDataSet) (r : Bytes)
    (h : byteAt r 0 = 0 → 3 ≤ (contentAt r).length → n1 ((contentAt r).drop 3) = n2 ((contentAt r).drop 3)) :
    rdsStep n1 s r = rdsStep n2 s r := by
  match r, h with
  | [], _ => rfl
  | [t], _ => rfl
  | [t, a], h =>
    have e : ∀ n : Bytes → Out ServiceDataSet, rdsStep n s [t, a] =
        (Dec.call (decodeSub n t (u16 [a, 0]) (([] : Bytes).take (u16 [a, 0]).toNat)) >>= fun d => Dec.upd fun rds => rds ++ [⟨t, u16 [a, 0], some d⟩] :
          Dec RecordDataSet Unit) s (([] : Bytes).drop (u16 [a, 0]).toNat) := fun _ => rfl
    rw [e n1, e n2, List.take_nil, decodeSub_calls n1 n2 t _ [] (fun _ h3 => by simp at h3)]
  | t :: a :: b :: x, h =>
    have hc : contentAt (t :: a :: b :: x) = x.take (u16 [a, b]).toNat := by
      unfold contentAt
      rw [u16_toNat]
      rfl
    rw [hc] at h
    have e : ∀ n : Bytes → Out ServiceDataSet, rdsStep n s (t :: a :: b :: x) =
        (Dec.call (decodeSub n t (u16 [a, b]) (x.take (u16 [a, b]).toNat)) >>= fun d => Dec.upd fun rds => rds ++ [⟨t, u16 [a, b], some d⟩] :
          Dec RecordDataSet Unit) s (x.drop (u16 [a, b]).toNat) := fun _ => rfl
    rw [e n1, e n2, decodeSub_calls n1 n2 t _ _ h]

end Egts
