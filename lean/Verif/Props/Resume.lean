import Verif.Spec.Resume
import Verif.Props.Batch
import Verif.Props.Prompt
set_option autoImplicit false
/- C140: a device that continues on a new connection. -/
namespace Egts
open Frame
variable [P : Platform]

theorem placesIn_append (a b : List (List ServiceDataRecord)) : placesIn (a ++ b) = placesIn a ++ placesIn b := by
  simp [placesIn, subsOf, positions]

theorem carry_take {cs : List Bytes} {ls : List (List ServiceDataRecord)} (h : Carry cs ls) (n : Nat) : Carry (cs.take n) (ls.take n) := by
  unfold Carry at h ⊢
  induction h generalizing n with
  | nil => simp
  | cons h1 h2 ih => cases n with
    | zero => exact .nil
    | succ n => exact .cons h1 (ih n)

theorem carry_drop {cs : List Bytes} {ls : List (List ServiceDataRecord)} (h : Carry cs ls) (n : Nat) : Carry (cs.drop n) (ls.drop n) := by
  unfold Carry at h ⊢
  induction h generalizing n with
  | nil => simp
  | cons h1 h2 ih => cases n with
    | zero => exact .cons h1 h2
    | succ n => exact ih n

theorem data_nonempty {c : Bytes} {pid : Nat} {l : List ServiceDataRecord} (h : DataPacket c pid l) : l ≠ [] := by
  obtain ⟨hdr, b, -, -, hb, -, hr⟩ := h
  rintro rfl
  cases hr
  exact hb rfl

/-- where a stream of packets breaks: some packets are complete, and what follows is none -/
theorem broken_at {cs : List Bytes} (h : ∀ c ∈ cs, Taken c) {b : Bytes} (hb : b <+: cs.flatten) : ∃ j ≤ cs.length, ∃ rest, CutInto b (cs.take j) rest := by
  induction cs generalizing b with
  | nil =>
    obtain rfl : b = [] := by simpa using hb
    exact ⟨0, Nat.le_refl _, [], ⟨rfl, by simp, .inl (by simp)⟩⟩
  | cons c cs ih =>
    rw [List.flatten_cons] at hb
    by_cases hc : c <+: b
    · obtain ⟨b', rfl⟩ := hc
      obtain ⟨j, hj, rest, hcut⟩ := ih (fun d hd => h d (List.mem_cons_of_mem _ hd)) ((List.prefix_append_right_inj c).mp hb)
      refine ⟨j + 1, by simpa using hj, rest, ⟨?_, ?_, hcut.incomplete⟩⟩
      · rw [List.take_succ_cons, List.flatten_cons, List.append_assoc, ← hcut.all]
      · intro d hd
        rw [List.take_succ_cons] at hd
        rcases List.mem_cons.mp hd with rfl | hd
        · exact h _ (by simp)
        · exact hcut.taken d hd
    · have hp : b <+: c := by
        rcases List.prefix_or_prefix_of_prefix hb (List.prefix_append c cs.flatten) with h1 | h1
        · exact h1
        · exact absurd h1 hc
      exact ⟨0, Nat.zero_le _, b, ⟨by simp, by simp, part_incomplete (h c (by simp)) hp (fun e => hc (e ▸ List.prefix_refl _))⟩⟩

theorem take_flatten_len {ls : List (List ServiceDataRecord)} (hne : ∀ l ∈ ls, l ≠ []) {j k : Nat} (hk : k ≤ ls.length)
    (h : (ls.take k).flatten.length ≤ (ls.take j).flatten.length) : k ≤ j := by
  induction ls generalizing j k with
  | nil => simp at hk; omega
  | cons l ls ih =>
    cases k with
    | zero => omega
    | succ k =>
      cases j with
      | zero =>
        have := List.length_pos_iff.mpr (hne l (by simp))
        simp at h
        exact absurd h.1 (hne l (by simp))
      | succ j =>
        have := ih (fun x hx => hne x (List.mem_cons_of_mem _ hx)) (j := j) (k := k) (by simpa using hk) (by
          simp only [List.take_succ_cons, List.flatten_cons, List.length_append] at h; omega)
        omega

/-- C140: a device sends data packets until the connection breaks after any byte, in any way, has seen any part of the answers, and continues on a new
connection with any packet such that all records of those before are confirmed in the answers it has seen. Then every place of its packets is stored:
the packets fall into three parts; the places of the first and the third part are stored once, those of the second twice, in two runs in the order in
which they were sent; and if it has seen all answers and goes on behind the last confirmed packet, every place is stored exactly once. -/
theorem resume (env env' : Env) (tail tail' : Tail) (chunks chunks' cs : List Bytes) (ls : List (List ServiceDataRecord)) (h : Carry cs ls)
    (hb : chunks.flatten <+: cs.flatten) (seen : List UInt16)
    (hs : seen <+: (writesOf (handleConn env true tail chunks).1).flatMap confirmedBy)
    (k : Nat) (hk : k ≤ cs.length) (hconf : (ls.take k).flatten.map (·.RecordNumber) <+: seen) (hc' : chunks'.flatten = (cs.drop k).flatten) :
    (∃ first second third, ls = first ++ second ++ third ∧ first.length = k ∧
      placesStored (handleConn env true tail chunks).1 = placesIn (first ++ second) ∧
      placesStored (handleConn env' true tail' chunks').1 = placesIn (second ++ third)) ∧
    ((ls.take k).flatten.map (·.RecordNumber) = (writesOf (handleConn env true tail chunks).1).flatMap confirmedBy →
      placesStored (handleConn env true tail chunks).1 ++ placesStored (handleConn env' true tail' chunks').1 = placesIn ls) := by
  obtain ⟨j, hj, rest, hcut⟩ := broken_at (carried_taken h) hb
  have hlen : cs.length = ls.length := List.Forall₂.length_eq h
  rw [stream_behaviour env tail chunks _ rest hcut] at hs ⊢
  rw [stream_behaviour env' tail' chunks' (cs.drop k) [] ⟨by rw [hc', List.append_nil], carried_taken (carry_drop h k), .inl (by simp)⟩]
  obtain ⟨a1, a2, -⟩ := carried env tail rest 0 (carry_take h j)
  obtain ⟨b1, -, -⟩ := carried env' tail' [] 0 (carry_drop h k)
  rw [a2] at hs ⊢
  rw [a1, b1]
  have hne : ∀ l ∈ ls, l ≠ [] := by
    clear hs hconf a1 a2 b1 hcut hb hc' hj hk
    intro l hl
    unfold Carry at h
    induction h with
    | nil => cases hl
    | cons h1 h2 ih =>
      rcases List.mem_cons.mp hl with rfl | hl
      · obtain ⟨⟨pid, hd⟩, -⟩ := h1
        exact data_nonempty hd
      · exact ih (by simpa using hlen) hl
  have hkj : k ≤ j := take_flatten_len hne (hlen ▸ hk) (by
    have := (hconf.trans hs).length_le
    rw [List.length_map, List.length_map] at this
    exact this)
  refine ⟨⟨ls.take k, (ls.drop k).take (j - k), ls.drop j, ?_, by rw [List.length_take]; omega, ?_, ?_⟩, fun heq => ?_⟩
  · rw [List.append_assoc, show ls.drop j = (ls.drop k).drop (j - k) by rw [List.drop_drop]; congr 1; omega, List.take_append_drop, List.take_append_drop]
  · unfold placesIn
    rw [show ls.take k ++ (ls.drop k).take (j - k) = ls.take j by
      rw [← List.take_add, show k + (j - k) = j by omega]]
  · unfold placesIn
    rw [show (ls.drop k).take (j - k) ++ ls.drop j = ls.drop k by
      rw [show ls.drop j = (ls.drop k).drop (j - k) by rw [List.drop_drop]; congr 1; omega, List.take_append_drop]]
  · have hl := congrArg List.length heq
    rw [List.length_map, List.length_map] at hl
    have hjk : j ≤ k := take_flatten_len hne (hlen ▸ hj) hl.ge
    obtain rfl : j = k := by omega
    change placesIn (ls.take j) ++ placesIn (ls.drop j) = placesIn ls
    rw [← placesIn_append, List.take_append_drop]

/-- what the server stores on the connection that breaks -/
theorem broken_stored (env : Env) (tail : Tail) (chunks cs : List Bytes) (ls : List (List ServiceDataRecord)) (h : Carry cs ls)
    (hb : chunks.flatten <+: cs.flatten) (seen : List UInt16)
    (hs : seen <+: (writesOf (handleConn env true tail chunks).1).flatMap confirmedBy)
    (k : Nat) (hk : k ≤ cs.length) (hconf : (ls.take k).flatten.map (·.RecordNumber) <+: seen) :
    (∃ second third, ls.drop k = second ++ third ∧ placesStored (handleConn env true tail chunks).1 = placesIn (ls.take k) ++ placesIn second) ∧
    ((ls.take k).flatten.map (·.RecordNumber) = (writesOf (handleConn env true tail chunks).1).flatMap confirmedBy →
      placesStored (handleConn env true tail chunks).1 = placesIn (ls.take k)) := by
  obtain ⟨⟨first, second, third, h1, h2, h3, -⟩, h4⟩ := resume env env tail tail chunks [(cs.drop k).flatten] cs ls h hb seen hs k hk hconf (by simp)
  have hf : ls.take k = first := by rw [h1, List.append_assoc, ← h2, List.take_left]
  have hd : ls.drop k = second ++ third := by rw [h1, List.append_assoc, ← h2, List.drop_left]
  refine ⟨⟨second, third, hd, by rw [h3, hf, placesIn_append]⟩, fun heq => ?_⟩
  have h5 := h4 heq
  rw [stream_behaviour env tail [(cs.drop k).flatten] (cs.drop k) [] ⟨by simp, carried_taken (carry_drop h k), .inl (by simp)⟩,
    (carried env tail [] 0 (carry_drop h k)).1] at h5
  change _ ++ placesIn (ls.drop k) = _ at h5
  conv at h5 => rhs; rw [← List.take_append_drop k ls, placesIn_append]
  exact List.append_cancel_right h5

/-- C140: the same with any number of breaks: every place the device has to tell is stored, in order; nothing else is stored; and exactly these, once
each, if the device has seen all confirmations each time. -/
theorem resume_again {full : Bool} {cs : List Bytes} {ls : List (List ServiceDataRecord)} {stored : List LocState} (h : Carry cs ls)
    (hc : Continued full cs ls stored) :
    (placesIn ls).Sublist stored ∧ (∀ s ∈ stored, s ∈ placesIn ls) ∧ (full = true → stored = placesIn ls) := by
  induction hc with
  | last env tail chunks cs ls all =>
    rw [stream_behaviour env tail chunks cs [] ⟨by rw [all, List.append_nil], carried_taken h, .inl (by simp)⟩, (carried env tail [] 0 h).1]
    exact ⟨List.Sublist.refl _, fun s hs => hs, fun _ => rfl⟩
  | broken env tail chunks cs ls stored some seen answers k exists_k confirmed fully next ih =>
    obtain ⟨i1, i2, i3⟩ := ih (carry_drop h k)
    obtain ⟨⟨second, third, h1, h2⟩, h3⟩ := broken_stored env tail chunks cs ls h some seen answers k exists_k confirmed
    have hl : placesIn ls = placesIn (ls.take k) ++ placesIn (ls.drop k) := by rw [← placesIn_append, List.take_append_drop]
    refine ⟨?_, ?_, fun hf => ?_⟩
    · rw [hl, h2]
      exact List.Sublist.append (List.sublist_append_left _ _) i1
    · intro s hs
      rw [hl, List.mem_append]
      rcases List.mem_append.mp hs with hs | hs
      · rw [h2] at hs
        rcases List.mem_append.mp hs with hs | hs
        · exact .inl hs
        · refine .inr ?_
          rw [h1, placesIn_append]
          exact List.mem_append_left _ hs
      · exact .inr (i2 s hs)
    · rw [h3 (fully hf), i3 hf, hl]

/-- two packets, the connection breaks before the last byte of the second; the device has seen the answer to the first -/
theorem resume_example (env : Env) : Carry [fixPacket 9 1, levelPacket] [[exFixRecord 49], [exLevelRecord]] ∧
    [fixPacket 9 1, levelPacket.dropLast].flatten <+: [fixPacket 9 1, levelPacket].flatten ∧
    ([[exFixRecord 49], [exLevelRecord]].take 1).flatten.map (·.RecordNumber) =
      (writesOf (handleConn env true .error [fixPacket 9 1, levelPacket.dropLast]).1).flatMap confirmedBy := by
  have hp : levelPacket.dropLast <+: levelPacket := List.dropLast_prefix _
  have hc : Carry [fixPacket 9 1] [[exFixRecord 49]] :=
    .cons ⟨⟨9, fixPacket_data 9 1 49 (.inr ⟨rfl, rfl⟩)⟩, by simp [NoResponses, subsOf, exFixRecord, SubData.isResponse]⟩ .nil
  refine ⟨split_carry, ?_, ?_⟩
  · simpa using hp
  · rw [stream_behaviour env .error _ [fixPacket 9 1] levelPacket.dropLast ⟨by simp, carried_taken hc,
      part_incomplete (carried_taken split_carry levelPacket (by simp)) hp (fun e => by
        have := congrArg List.length e
        rw [List.length_dropLast] at this
        have h0 : 0 < levelPacket.length := by decide
        omega)⟩]
    rw [(carried env .error _ 0 hc).2.1]
    rfl

/-- the device of `resume_example` continues with the second packet -/
theorem again_example (env env' : Env) : Continued true [fixPacket 9 1, levelPacket] [[exFixRecord 49], [exLevelRecord]]
    (placesStored (handleConn env true .error [fixPacket 9 1, levelPacket.dropLast]).1 ++ placesStored (handleConn env' true .eof [levelPacket]).1) := by
  obtain ⟨-, h2, h3⟩ := resume_example env
  exact .broken env .error _ _ _ _ h2 _ (List.prefix_refl _) 1 (by simp) (by rw [h3]) (fun _ => h3) (.last env' .eof _ _ _ rfl)

/-- a device that has not seen the answer sends its packet again, and the place is stored twice -/
theorem unseen_twice (env env' : Env) (tail tail' : Tail) : ∃ stored, Continued false [fixPacket 9 1] [[exFixRecord 49]] stored ∧
    stored = placesIn [[exFixRecord 49]] ++ placesIn [[exFixRecord 49]] ∧ placesIn [[exFixRecord 49]] ≠ [] := by
  have hc : Carry [fixPacket 9 1] [[exFixRecord 49]] :=
    .cons ⟨⟨9, fixPacket_data 9 1 49 (.inr ⟨rfl, rfl⟩)⟩, by simp [NoResponses, subsOf, exFixRecord, SubData.isResponse]⟩ .nil
  have key : ∀ (env : Env) (tail : Tail), placesStored (handleConn env true tail [fixPacket 9 1]).1 = placesIn [[exFixRecord 49]] := by
    intro env tail
    rw [stream_behaviour env tail _ [fixPacket 9 1] [] ⟨by simp, carried_taken hc, .inl (by simp)⟩, (carried env tail [] 0 hc).1]
    rfl
  refine ⟨_, .broken env tail [fixPacket 9 1] _ _ _ (by simp) [] (List.nil_prefix) 0 (by simp) (by simp) (by simp)
    (.last env' tail' [fixPacket 9 1] _ _ (by simp)), by rw [key, key], ?_⟩
  simp [placesIn, positions, subsOf, exFixRecord, SubData.pos?]

end Egts
