import Verif.Model.SendEgts
import Verif.Spec.SendEgts
import Verif.Props.Resend
import Verif.Props.Stall
import Verif.Props.CmdNumber
set_option autoImplicit false
/- C114: what tools/send_egts.py does with a file of packets and a receiver. -/
namespace Egts.SendEgts
open Frame
variable [P : Platform]

/-! ### hexadecimal text -/

omit P in
theorem hexDigit_iff (c : UInt8) (n : Nat) : hexDigit c = some n ↔ HexDigit c n := by
  constructor
  · intro h
    unfold hexDigit at h
    simp only [Bool.and_eq_true, decide_eq_true_eq, UInt8.le_iff_toNat_le, UInt8.reduceToNat] at h
    have key : ∀ m : Nat, m = c.toNat → UInt8.ofNat m = c := fun m hm => by rw [hm]; exact UInt8.ofNat_toNat
    split at h
    · have e : n = c.toNat - 48 := by simpa using h.symm
      rw [← key (48 + n) (by omega)]
      exact .dec n (by omega)
    · split at h
      · have e : n = c.toNat - 87 := by simpa using h.symm
        rw [← key (87 + n) (by omega)]
        exact .lower n (by omega) (by omega)
      · split at h
        · have e : n = c.toNat - 55 := by simpa using h.symm
          rw [← key (55 + n) (by omega)]
          exact .upper n (by omega) (by omega)
        · cases h
  · have d : ∀ n < 10, hexDigit (UInt8.ofNat (48 + n)) = some n := by decide +kernel
    have l : ∀ n < 16, 10 ≤ n → hexDigit (UInt8.ofNat (87 + n)) = some n := by decide +kernel
    have u : ∀ n < 16, 10 ≤ n → hexDigit (UInt8.ofNat (55 + n)) = some n := by decide +kernel
    rintro (⟨n, h⟩ | ⟨n, h, h'⟩ | ⟨n, h, h'⟩)
    · exact d _ h
    · exact l _ h' h
    · exact u _ h' h

omit P in
theorem isSpace_iff (c : UInt8) : isSpace c = true ↔ White c := by
  unfold White
  exact bytes_all (P := fun c => isSpace c = true ↔ c ∈ ([32, 9, 10, 11, 12, 13] : Bytes)) (by decide +kernel) c

omit P in
theorem digit_not_space {c : UInt8} {n : Nat} (h : HexDigit c n) : isSpace c = false := by
  have h := (hexDigit_iff c n).mpr h
  have k := bytes_all (P := fun c => isSpace c = true → hexDigit c = none) (by decide +kernel) c
  cases hs : isSpace c with
  | false => rfl
  | true => rw [k hs] at h; cases h

omit P in
/-- `bytes.fromhex` accepts exactly the texts of bytes in hexadecimal, as these bytes -/
theorem fromHex_iff : ∀ (s b : Bytes), fromHex s = some b ↔ HexText s b
  | [], b => by
    simp only [fromHex, Option.some.injEq]
    constructor
    · rintro rfl; exact .nil
    · intro h; cases h; rfl
  | [c], b => by
    simp only [fromHex]
    cases hs : isSpace c with
    | true =>
      simp only [if_true, Option.some.injEq]
      constructor
      · rintro rfl; exact .space c [] [] ((isSpace_iff c).mp hs) .nil
      · intro h
        cases h with
        | space _ _ _ _ t => cases t; rfl
    | false =>
      simp only [Bool.false_eq_true, if_false, reduceCtorEq, false_iff]
      intro h
      cases h with
      | space _ _ _ h => rw [(isSpace_iff c).mpr h] at hs; cases hs
  | a :: c :: s, b => by
    rw [fromHex]
    cases hs : isSpace a with
    | true =>
      simp only [if_true]
      rw [fromHex_iff (c :: s) b]
      constructor
      · intro h; exact .space a _ _ ((isSpace_iff a).mp hs) h
      · intro h
        cases h with
        | space _ _ _ _ t => exact t
        | byte _ _ _ _ _ _ hx => rw [digit_not_space hx] at hs; cases hs
    | false =>
      simp only [Bool.false_eq_true, if_false]
      constructor
      · intro h
        cases hx : hexDigit a with
        | none => simp [hx] at h
        | some x =>
        cases hy : hexDigit c with
        | none => simp [hx, hy] at h
        | some y =>
        rw [hx, hy] at h
        simp only [Option.map_eq_some_iff] at h
        obtain ⟨b', hb, rfl⟩ := h
        exact .byte a c x y s b' ((hexDigit_iff _ _).mp hx) ((hexDigit_iff _ _).mp hy) ((fromHex_iff s b').mp hb)
      · intro h
        cases h with
        | space _ _ _ h => rw [(isSpace_iff a).mpr h] at hs; cases hs
        | byte _ _ x y _ b' hx hy t =>
          rw [(hexDigit_iff _ _).mpr hx, (hexDigit_iff _ _).mpr hy]
          simp [(fromHex_iff s b').mpr t]

/-! ### lines -/

omit P in
theorem universal_plain : ∀ (l s : Bytes), 13 ∉ l → universal (l ++ s) = l ++ universal s
  | [], s, _ => rfl
  | c :: l, s, h => by
    have h1 : c ≠ 13 := fun e => h (by simp [e])
    have h2 : 13 ∉ l := fun e => h (by simp [e])
    have := universal_plain l s h2
    rw [List.cons_append, List.cons_append, ← this]
    conv => lhs; unfold universal
    split
    · rename_i h'; simp at h'
    · rename_i h'; simp only [List.cons.injEq] at h'; exact absurd h'.1 h1
    · rename_i h'; simp only [List.cons.injEq] at h'; exact absurd h'.1 h1
    · rename_i h'
      simp only [List.cons.injEq] at h'
      obtain ⟨rfl, rfl⟩ := h'
      rfl

omit P in
theorem universal_eol (eol s : Bytes) (h : eol = [10] ∨ eol = [13, 10]) : universal (eol ++ s) = 10 :: universal s := by
  rcases h with rfl | rfl
  · show universal (10 :: s) = _
    conv => lhs; unfold universal
    split
    · rename_i h'; simp at h'
    · rename_i h'; simp at h'
    · rename_i h'; simp at h'
    · rename_i h'; simp only [List.cons.injEq] at h'; obtain ⟨rfl, rfl⟩ := h'; rfl
  · rfl

omit P in
theorem readlines_line : ∀ (l cur s : Bytes), 10 ∉ l → readlines cur (l ++ 10 :: s) = (cur ++ l ++ [10]) :: readlines [] s
  | [], cur, s, _ => by simp [readlines]
  | c :: l, cur, s, h => by
    have h1 : c ≠ 10 := fun e => h (by simp [e])
    rw [List.cons_append, readlines, if_neg h1, readlines_line l _ s (fun e => h (by simp [e]))]
    simp

omit P in
theorem readlines_last : ∀ (l cur : Bytes), 10 ∉ l → readlines cur l = if cur ++ l = [] then [] else [cur ++ l]
  | [], cur, _ => by simp [readlines]
  | c :: l, cur, h => by
    have h1 : c ≠ 10 := fun e => h (by simp [e])
    rw [readlines, if_neg h1, readlines_last l _ (fun e => h (by simp [e]))]
    simp

omit P in
/-- the lines of a file of packets, each without its last character, are read as the packets; `tail` is what comes after the last
complete line -/
theorem file_lines {text : Bytes} {cs : List Bytes} (h : HexFile text cs) (tail : Bytes) :
    ∃ ls, readlines [] (universal (text ++ tail)) = ls ++ readlines [] (universal tail) ∧
      ls.map (fun l => fromHex l.dropLast) = cs.map some := by
  induction h with
  | nil => exact ⟨[], rfl, rfl⟩
  | line l eol text c cs hl hn he t ih =>
    obtain ⟨ls, h1, h2⟩ := ih
    refine ⟨(l ++ [10]) :: ls, ?_, ?_⟩
    · rw [List.append_assoc, List.append_assoc, universal_plain _ _ hn.2, universal_eol _ _ he, readlines_line _ _ _ hn.1, h1]
      rfl
    · rw [List.map_cons, h2, List.dropLast_concat, (fromHex_iff _ _).mpr hl]
      rfl

/-! ### the receiver's answers -/

/-- the bytes the receiver writes for the `k`-th packet of a connection -/
def reply (env : Env) (k : Nat) (c : Bytes) : Bytes :=
  match react (env.now k) (env.spare k) c with
  | some l => (writesOf l).flatten
  | none => []

/-- the bytes it writes for several packets -/
def replies (env : Env) : Nat → List Bytes → Bytes
  | _, [] => []
  | k, c :: cs => reply env k c ++ replies env (k + 1) cs

theorem replies_append (env : Env) : ∀ (k : Nat) (cs ds : List Bytes),
    replies env k (cs ++ ds) = replies env k cs ++ replies env (k + cs.length) ds
  | k, [], ds => by simp [replies]
  | k, c :: cs, ds => by
    rw [List.cons_append, replies, replies, replies_append env (k + 1) cs ds, List.append_assoc]
    congr 3
    simp only [List.length_cons]; omega

theorem answered_eq (env : Env) (s : Bytes) : answered env s = (writesOf (handleConn env true .silent [s]).1).flatten := by
  unfold answered writesOf
  congr 2
  funext e
  cases e <;> rfl

/-- what the receiver has written after the packets `cs`, none of which crashes it, and that it waits for more -/
theorem answered_packets (env : Env) (cs : List Bytes) (ht : ∀ c ∈ cs, Taken c)
    (hok : ∀ i (hi : i < cs.length), Package.decode {} cs[i] (env.spare i) ≠ .panic) :
    answered env cs.flatten = replies env 0 cs ∧ (handleConn env true .silent [cs.flatten]).2 = .waiting := by
  have key : ∀ (k : Nat) (cs : List Bytes), (∀ i (hi : i < cs.length), Package.decode {} cs[i] (env.spare (k + i)) ≠ .panic) →
      (writesOf (reactAll env .silent [] k cs).1).flatten = replies env k cs ∧ (reactAll env .silent [] k cs).2 = .waiting := by
    intro k cs
    induction cs generalizing k with
    | nil => intro _; exact ⟨rfl, by simp [reactAll, lastEnd]⟩
    | cons c cs ih =>
      intro h
      have h0 := h 0 (by simp)
      simp only [Nat.add_zero, List.getElem_cons_zero] at h0
      have := ih (k + 1) (fun i hi => by
        have := h (i + 1) (by simp; omega)
        rw [Nat.add_assoc, Nat.add_comm 1 i]
        simpa using this)
      rw [reactAll, replies, reply]
      cases hr : react (env.now k) (env.spare k) c with
      | none => exact absurd ((react_none_iff _ _ _).mp hr) h0
      | some l =>
        simp only [writesOf_append, List.flatten_append]
        exact ⟨by rw [this.1], this.2⟩
  have hcut : CutInto [cs.flatten].flatten cs [] := ⟨by simp, ht, .inl (by simp)⟩
  rw [answered_eq, stream_behaviour env .silent [cs.flatten] cs [] hcut]
  exact key 0 cs (by simpa using hok)

/-! ### the script -/

/-- the loop over lines that hold packets the receiver answers -/
theorem loop_answered (env : Env) (cut : Nat → Nat) (more : List Bytes) :
    ∀ (cs ls pre : List Bytes) (r : Nat), ls.map (fun l => fromHex l.dropLast) = cs.map some →
    (∀ c ∈ pre ++ cs, Taken c) →
    (∀ i (hi : i < (pre ++ cs).length), Package.decode {} (pre ++ cs)[i] (env.spare i) ≠ .panic) →
    (∀ i (hi : i < cs.length), reply env (pre.length + i) cs[i] ≠ []) →
    r ≤ (replies env 0 pre).length →
    ∃ got : List Bytes, got.length = cs.length ∧ (∀ g ∈ got, g ≠ [] ∧ g.length ≤ 2048) ∧
      (replies env 0 pre).take r ++ got.flatten <+: replies env 0 (pre ++ cs) ∧
      r + got.flatten.length ≤ (replies env 0 (pre ++ cs)).length ∧
      sendLoop env cut pre.length pre.flatten r (ls ++ more) =
        ⟨cs ++ (sendLoop env cut (pre ++ cs).length (pre ++ cs).flatten (r + got.flatten.length) more).sent,
         got ++ (sendLoop env cut (pre ++ cs).length (pre ++ cs).flatten (r + got.flatten.length) more).got,
         (sendLoop env cut (pre ++ cs).length (pre ++ cs).flatten (r + got.flatten.length) more).how⟩ := by
  intro cs
  induction cs with
  | nil =>
    intro ls pre r hls ht hok hre hr
    obtain rfl : ls = [] := by simpa using hls
    refine ⟨[], rfl, by simp, ?_, by simpa using hr, ?_⟩
    · simpa using List.take_prefix _ _
    · simp
  | cons c cs ih =>
    intro ls pre r hls ht hok hre hr
    match ls, hls with
    | l :: ls, hls =>
      simp only [List.map_cons, List.cons.injEq] at hls
      obtain ⟨hl, hls⟩ := hls
      have happ : pre ++ c :: cs = (pre ++ [c]) ++ cs := by simp
      have hans := answered_packets env (pre ++ [c])
        (fun d hd => ht d (by rw [happ]; exact List.mem_append_left _ hd))
        (fun i hi => by
          have := hok i (by rw [happ]; simp at hi ⊢; omega)
          simp only [happ] at this
          rwa [List.getElem_append_left hi] at this)
      have hrep : replies env 0 (pre ++ [c]) = replies env 0 pre ++ reply env pre.length c := by
        rw [replies_append]; simp [replies]
      have hc := hre 0 (by simp)
      simp only [Nat.add_zero, List.getElem_cons_zero] at hc
      have hfl : (pre ++ [c]).flatten = pre.flatten ++ c := by simp
      have hpend : (replies env 0 (pre ++ [c])).drop r ≠ [] := by
        intro h
        have := congrArg List.length h
        have hpos : 0 < (reply env pre.length c).length := List.length_pos_iff.mpr hc
        rw [hrep] at this
        simp at this
        omega
      generalize hg : ((replies env 0 (pre ++ [c])).drop r).take (1 + cut pre.length % 2048) = g
      have hgne : g ≠ [] := by
        rw [← hg]
        intro h
        cases hx : (replies env 0 (pre ++ [c])).drop r with
        | nil => exact hpend hx
        | cons a t => rw [hx, Nat.add_comm] at h; simp at h
      have hglen : g.length ≤ 2048 := by
        rw [← hg, List.length_take]
        have := Nat.mod_lt (cut pre.length) (show 2048 > 0 by omega)
        omega
      have hgr : r + g.length ≤ (replies env 0 (pre ++ [c])).length := by
        have h1 : r ≤ (replies env 0 (pre ++ [c])).length := by rw [hrep]; simp; omega
        rw [← hg, List.length_take, List.length_drop]
        omega
      have htake : (replies env 0 pre).take r ++ g = (replies env 0 (pre ++ [c])).take (r + g.length) := by
        rw [List.take_add]
        congr 1
        · rw [hrep, List.take_append_of_le_length hr]
        · exact List.prefix_iff_eq_take.mp (hg ▸ List.take_prefix _ _)
      obtain ⟨got, a1, a2, a3, a4, a5⟩ := ih ls (pre ++ [c]) (r + g.length) hls (by rwa [← happ]) (by
        intro i hi
        have := hok i (by rw [happ]; exact hi)
        simp only [happ] at this
        exact this) (by
        intro i hi
        have := hre (i + 1) (by simp; omega)
        simp only [List.getElem_cons_succ] at this
        rw [List.length_append, List.length_singleton, Nat.add_assoc, Nat.add_comm 1 i]
        exact this) hgr
      refine ⟨g :: got, by simp [a1], ?_, ?_, ?_, ?_⟩
      · intro x hx
        rcases List.mem_cons.mp hx with rfl | hx
        · exact ⟨hgne, hglen⟩
        · exact a2 x hx
      · rw [List.flatten_cons, ← List.append_assoc, htake, happ]
        exact a3
      · rw [happ, List.flatten_cons, List.length_append]
        omega
      · rw [List.cons_append, sendLoop, hl]
        simp only
        rw [← hfl, hans.1, if_neg hpend, hg]
        have hlen : (pre ++ [c]).length = pre.length + 1 := by simp
        rw [← hlen, a5, ← happ]
        simp only [List.flatten_cons, List.length_append, List.cons_append, Nat.add_assoc]

/-- the receiver answers the packet `c`, whatever came before: Decode does not panic, and does not accept it as a RESPONSE packet or
as data with confirmations of records -/
def Answered (env : Env) (c : Bytes) : Prop :=
  Taken c ∧ ∀ k, Package.decode {} c (env.spare k) ≠ .panic ∧ reply env k c ≠ []

/-- **C114 (partial).** A file of packets that the receiver answers, every line of it terminated: the script sends exactly these packets, in order,
and ends; for every packet it prints one non-empty piece of the answers, and the pieces are the answers from the beginning,
whatever the network does to them. -/
theorem send_all_partial (env : Env) (cut : Nat → Nat) (text : Bytes) (cs : List Bytes) (hf : HexFile text cs)
    (ha : ∀ c ∈ cs, Answered env c) :
    (sendEgts env cut text).sent = cs ∧ (sendEgts env cut text).how = .done ∧
    (sendEgts env cut text).got.length = cs.length ∧ (∀ g ∈ (sendEgts env cut text).got, g ≠ []) ∧
    (sendEgts env cut text).got.flatten <+: (writesOf (handleConn env true .silent [cs.flatten]).1).flatten := by
  obtain ⟨ls, h1, h2⟩ := file_lines hf []
  have h1' : readlines [] (universal text) = ls := by simpa [universal, readlines] using h1
  have hok : ∀ i (hi : i < cs.length), Package.decode {} cs[i] (env.spare i) ≠ .panic :=
    fun i hi => ((ha _ (List.getElem_mem hi)).2 i).1
  obtain ⟨got, a1, a2, a3, a4, a5⟩ := loop_answered env cut [] cs ls [] 0 h2 (fun c hc => (ha c (by simpa using hc)).1)
    (by simpa using hok) (fun i hi => ((ha _ (List.getElem_mem hi)).2 _).2) (by simp)
  have e : sendEgts env cut text = ⟨cs, got, .done⟩ := by
    unfold sendEgts
    rw [h1']
    simpa [sendLoop] using a5
  rw [e, ← answered_eq, (answered_packets env cs (fun c hc => (ha c hc).1) hok).1]
  exact ⟨rfl, rfl, a1, fun g hg => (a2 g hg).1, by simpa using a3⟩

/-- data packets as the standard describes them are answered -/
theorem data_answered (env : Env) (c : Bytes) (pid : Nat) (l : List ServiceDataRecord) (h : DataPacket c pid l) (hn : NoResponses l) :
    Answered env c := by
  refine ⟨framed_taken (data_packet_framed c pid l h), fun k => ⟨?_, ?_⟩⟩
  · obtain ⟨q, hd, -⟩ := data_packet_accepted c pid l h {} (env.spare k)
    rw [hd]; simp
  · unfold reply
    rw [react_data _ _ c pid l h hn]
    intro h0
    have := congrArg List.length h0
    simp [writesOf, ackBytes, answerBytes, packet] at this

/-- C114 for files of data packets as the standard describes them -/
theorem send_data_partial (env : Env) (cut : Nat → Nat) (text : Bytes) (cs : List Bytes) (hf : HexFile text cs)
    (h : ∀ c ∈ cs, ∃ pid l, DataPacket c pid l ∧ NoResponses l) :
    (sendEgts env cut text).sent = cs ∧ (sendEgts env cut text).how = .done := by
  have := send_all_partial env cut text cs hf fun c hc => by
    obtain ⟨pid, l, h1, h2⟩ := h c hc
    exact data_answered env c pid l h1 h2
  exact ⟨this.1, this.2.1⟩

/-- if nothing is cut and every answer has at most 2048 bytes, the answer to each packet is printed after it -/
theorem loop_whole (env : Env) (more : List Bytes) :
    ∀ (cs ls pre : List Bytes), ls.map (fun l => fromHex l.dropLast) = cs.map some →
    (∀ c ∈ pre ++ cs, Taken c) →
    (∀ i (hi : i < (pre ++ cs).length), Package.decode {} (pre ++ cs)[i] (env.spare i) ≠ .panic) →
    (∀ i (hi : i < cs.length), reply env (pre.length + i) cs[i] ≠ [] ∧ (reply env (pre.length + i) cs[i]).length ≤ 2048) →
    ∃ got : List Bytes, got = cs.mapIdx (fun i c => reply env (pre.length + i) c) ∧
      sendLoop env (fun _ => 2047) pre.length pre.flatten (replies env 0 pre).length (ls ++ more) =
        ⟨cs ++ (sendLoop env (fun _ => 2047) (pre ++ cs).length (pre ++ cs).flatten (replies env 0 (pre ++ cs)).length more).sent,
         got ++ (sendLoop env (fun _ => 2047) (pre ++ cs).length (pre ++ cs).flatten (replies env 0 (pre ++ cs)).length more).got,
         (sendLoop env (fun _ => 2047) (pre ++ cs).length (pre ++ cs).flatten (replies env 0 (pre ++ cs)).length more).how⟩ := by
  intro cs
  induction cs with
  | nil =>
    intro ls pre hls ht hok hre
    obtain rfl : ls = [] := by simpa using hls
    exact ⟨[], rfl, by simp⟩
  | cons c cs ih =>
    intro ls pre hls ht hok hre
    match ls, hls with
    | l :: ls, hls =>
      simp only [List.map_cons, List.cons.injEq] at hls
      obtain ⟨hl, hls⟩ := hls
      have happ : pre ++ c :: cs = (pre ++ [c]) ++ cs := by simp
      have hans := answered_packets env (pre ++ [c])
        (fun d hd => ht d (by rw [happ]; exact List.mem_append_left _ hd))
        (fun i hi => by
          have := hok i (by rw [happ]; simp at hi ⊢; omega)
          simp only [happ] at this
          rwa [List.getElem_append_left hi] at this)
      have hrep : replies env 0 (pre ++ [c]) = replies env 0 pre ++ reply env pre.length c := by
        rw [replies_append]; simp [replies]
      have hc := hre 0 (by simp)
      simp only [Nat.add_zero, List.getElem_cons_zero] at hc
      have hfl : (pre ++ [c]).flatten = pre.flatten ++ c := by simp
      have hpend : (replies env 0 (pre ++ [c])).drop (replies env 0 pre).length = reply env pre.length c := by
        rw [hrep, List.drop_left]
      have hlen : (pre ++ [c]).length = pre.length + 1 := by simp
      obtain ⟨got, a1, a2⟩ := ih ls (pre ++ [c]) hls (by rwa [← happ]) (by
        intro i hi
        have := hok i (by rw [happ]; exact hi)
        simp only [happ] at this
        exact this) (by
        intro i hi
        have := hre (i + 1) (by simp; omega)
        simp only [List.getElem_cons_succ] at this
        rw [List.length_append, List.length_singleton, Nat.add_assoc, Nat.add_comm 1 i]
        exact this)
      refine ⟨reply env pre.length c :: got, ?_, ?_⟩
      · rw [a1, List.mapIdx_cons, hlen]
        simp only [Nat.add_zero, List.cons.injEq, true_and]
        congr 1
        funext i d
        rw [Nat.add_assoc, Nat.add_comm 1 i]
      · rw [List.cons_append, sendLoop, hl]
        simp only
        rw [← hfl, hans.1, hpend, if_neg hc.1, List.take_of_length_le (by omega)]
        have e : (replies env 0 pre).length + (reply env pre.length c).length = (replies env 0 (pre ++ [c])).length := by
          rw [hrep, List.length_append]
        rw [e, ← hlen, a2, ← happ]
        simp only [List.cons_append]

/-- C114 (partial): on a network that delivers the answers whole, the script prints after every packet the answer to this packet. Missing: other
networks (`send_lags`) -/
theorem send_pairs_partial (env : Env) (text : Bytes) (cs : List Bytes) (hf : HexFile text cs)
    (ha : ∀ c ∈ cs, Answered env c) (hs : ∀ c ∈ cs, ∀ k, (reply env k c).length ≤ 2048) :
    (sendEgts env (fun _ => 2047) text).got = cs.mapIdx (fun i c => reply env i c) := by
  obtain ⟨ls, h1, h2⟩ := file_lines hf []
  have h1' : readlines [] (universal text) = ls := by simpa [universal, readlines] using h1
  obtain ⟨got, a1, a2⟩ := loop_whole env [] cs ls [] h2 (fun c hc => (ha c (by simpa using hc)).1)
    (by simpa using fun i hi => ((ha _ (List.getElem_mem hi)).2 i).1)
    (fun i hi => ⟨((ha _ (List.getElem_mem hi)).2 _).2, hs _ (List.getElem_mem hi) _⟩)
  have e : sendEgts env (fun _ => 2047) text = ⟨cs, got, .done⟩ := by
    unfold sendEgts
    rw [h1']
    simpa [sendLoop, replies] using a2
  rw [e, a1]
  simp

/-- C114 is false of the script for files with a packet that the receiver does not answer, such as a RESPONSE packet: after
sending it the script waits for ever, and the packets after it are not sent (here: answers delivered whole). -/
theorem send_hangs (env : Env) (text : Bytes) (cs : List Bytes) (c : Bytes) (ds : List Bytes) (hf : HexFile text (cs ++ c :: ds))
    (ha : ∀ c ∈ cs, Answered env c) (hs : ∀ c ∈ cs, ∀ k, (reply env k c).length ≤ 2048)
    (ht : Taken c) (hok : ∀ k, Package.decode {} c (env.spare k) ≠ .panic) (hno : ∀ k, reply env k c = []) :
    (sendEgts env (fun _ => 2047) text).sent = cs ++ [c] ∧ (sendEgts env (fun _ => 2047) text).how = .hangs := by
  obtain ⟨ls, h1, h2⟩ := file_lines hf []
  have h1' : readlines [] (universal text) = ls := by simpa [universal, readlines] using h1
  obtain ⟨ls1, ls2, rfl, h3, h4⟩ : ∃ ls1 ls2, ls = ls1 ++ ls2 ∧ ls1.map (fun l => fromHex l.dropLast) = cs.map some ∧
      ls2.map (fun l => fromHex l.dropLast) = (c :: ds).map some := by
    rw [List.map_append] at h2
    obtain ⟨a, b, e1, e2, e3⟩ := List.map_eq_append_iff.mp h2
    exact ⟨a, b, e1, e2, e3⟩
  obtain ⟨got, a1, a2⟩ := loop_whole env ls2 cs ls1 [] h3 (fun c hc => (ha c (by simpa using hc)).1)
    (by simpa using fun i hi => ((ha _ (List.getElem_mem hi)).2 i).1)
    (fun i hi => ⟨((ha _ (List.getElem_mem hi)).2 _).2, hs _ (List.getElem_mem hi) _⟩)
  match ls2, h4 with
  | l :: ls2, h4 =>
    simp only [List.map_cons, List.cons.injEq] at h4
    have hans := answered_packets env (cs ++ [c]) (by
        intro d hd
        rcases List.mem_append.mp hd with hd | hd
        · exact (ha d hd).1
        · rw [List.mem_singleton.mp hd]; exact ht) (by
        intro i hi
        rcases Nat.lt_or_ge i cs.length with hlt | hge
        · rw [List.getElem_append_left hlt]
          exact ((ha _ (List.getElem_mem hlt)).2 i).1
        · rw [List.getElem_append_right hge]
          simpa using hok i)
    have hrep : replies env 0 (cs ++ [c]) = replies env 0 cs := by
      rw [replies_append]; simp [replies, hno]
    have hfl : (cs ++ [c]).flatten = cs.flatten ++ c := by simp
    have hstep : sendLoop env (fun _ => 2047) cs.length cs.flatten (replies env 0 cs).length (l :: ls2) = ⟨[c], [], .hangs⟩ := by
      rw [sendLoop, h4.1]
      simp only
      rw [← hfl, hans.1, hans.2, hrep]
      simp
    have e : sendEgts env (fun _ => 2047) text = ⟨cs ++ [c], got, .hangs⟩ := by
      unfold sendEgts
      rw [h1']
      simpa [replies, hstep] using a2
    rw [e]
    exact ⟨rfl, rfl⟩

/-- RESPONSE packets are among those that are not answered -/
theorem response_unanswered (env : Env) (c : Bytes) (pid rpid : Nat) (result : UInt8) (l : List ServiceDataRecord)
    (h : ResponsePacket c pid rpid result l) (k : Nat) : Package.decode {} c (env.spare k) ≠ .panic ∧ reply env k c = [] := by
  obtain ⟨q, r, hd, hb, -⟩ := response_packet_accepted c pid rpid result l h {} (env.spare k)
  constructor
  · rw [hd]; simp
  · unfold reply react
    rw [hd]
    simp only [hb]
    rfl

omit P in
theorem hexText_even {s b : Bytes} (h : HexText s b) : (s.filter (!isSpace ·)).length = 2 * b.length := by
  induction h with
  | nil => rfl
  | space c s b h t ih => simpa [(isSpace_iff c).mpr h] using ih
  | byte c d x y s b hx hy t ih =>
    simp only [List.filter_cons, digit_not_space hx, digit_not_space hy, Bool.not_false, if_true, List.length_cons, ih]
    omega

/-- C114 is false of the script for files whose last line has no line end: the last digit is cut off, and instead of sending the
last packet the script ends with an exception. -/
theorem send_unterminated (env : Env) (cut : Nat → Nat) (text : Bytes) (cs : List Bytes) (hf : HexFile text cs)
    (ha : ∀ c ∈ cs, Answered env c) (l : Bytes) (d : UInt8) (c : Bytes) (hl : HexText (l ++ [d]) c) (hd : ¬ White d)
    (hn : 10 ∉ l ∧ 13 ∉ l) :
    (sendEgts env cut (text ++ (l ++ [d]))).sent = cs ∧ (sendEgts env cut (text ++ (l ++ [d]))).how = .valueError := by
  obtain ⟨ls, h1, h2⟩ := file_lines hf (l ++ [d])
  have hd10 : d ≠ 10 := fun e => hd (by simp [White, e])
  have hd13 : d ≠ 13 := fun e => hd (by simp [White, e])
  have hlast : readlines [] (universal (l ++ [d])) = [l ++ [d]] := by
    have := universal_plain (l ++ [d]) [] (by simp [hn.2]; exact fun e => hd13 e.symm)
    rw [List.append_nil] at this
    rw [this, universal, List.append_nil, readlines_last _ _ (by simp [hn.1]; exact fun e => hd10 e.symm)]
    simp
  rw [hlast] at h1
  have hbad : fromHex l = none := by
    cases hx : fromHex l with
    | none => rfl
    | some b =>
      have e1 := hexText_even ((fromHex_iff _ _).mp hx)
      have e2 := hexText_even hl
      have hds : isSpace d = false := by
        cases h : isSpace d with
        | false => rfl
        | true => exact absurd ((isSpace_iff d).mp h) hd
      simp [hds] at e2
      omega
  obtain ⟨got, a1, a2, a3, a4, a5⟩ := loop_answered env cut [l ++ [d]] cs ls [] 0 h2 (fun c hc => (ha c (by simpa using hc)).1)
    (by simpa using fun i hi => ((ha _ (List.getElem_mem hi)).2 i).1) (fun i hi => ((ha _ (List.getElem_mem hi)).2 _).2) (by simp)
  have hstep : ∀ k s r, sendLoop env cut k s r [l ++ [d]] = ⟨[], [], .valueError⟩ := by
    intro k s r
    rw [sendLoop, List.dropLast_concat, hbad]
  have e : sendEgts env cut (text ++ (l ++ [d])) = ⟨cs, got, .valueError⟩ := by
    unfold sendEgts
    rw [h1]
    simpa [hstep] using a5
  rw [e]
  exact ⟨rfl, rfl⟩

/-- C114 is false of the script: what it prints after a packet need not be the answer to this packet. If the answers to a login
(acknowledgement `a`, result `b`) arrive one by one, the result is printed after the next packet, before that packet is answered. -/
theorem send_lags (env : Env) (text c1 c2 a b : Bytes) (hf : HexFile text [c1, c2]) (h1 : Answered env c1) (h2 : Answered env c2)
    (ha : reply env 0 c1 = a ++ b) (ha0 : a ≠ []) (hal : a.length ≤ 2048) (hb0 : b ≠ []) (hbl : b.length ≤ 2048) :
    ∃ cut : Nat → Nat, (sendEgts env cut text).got = [a, b] := by
  obtain ⟨ls, e1, e2⟩ := file_lines hf []
  have e1' : readlines [] (universal text) = ls := by simpa [universal, readlines] using e1
  obtain ⟨l1, l2, rfl⟩ : ∃ l1 l2, ls = [l1, l2] := List.length_eq_two.mp (by simpa using congrArg List.length e2)
  · simp only [List.map_cons, List.map_nil, List.cons.injEq, and_true] at e2
    have hA := answered_packets env [c1] (by simpa using h1.1) (by
      intro i hi
      obtain rfl : i = 0 := by simpa using hi
      exact (h1.2 0).1)
    have hB := answered_packets env [c1, c2] (by simpa using ⟨h1.1, h2.1⟩) (by
      intro i hi
      match i, hi with
      | 0, _ => exact (h1.2 0).1
      | 1, _ => exact (h2.2 1).1)
    have rA : replies env 0 [c1] = a ++ b := by simp [replies, ha]
    have rB : replies env 0 [c1, c2] = a ++ (b ++ reply env 1 c2) := by simp [replies, ha]
    have f1 : [c1].flatten = c1 := by simp
    have f2 : [c1, c2].flatten = c1 ++ c2 := by simp
    rw [f1, rA] at hA
    rw [f2, rB] at hB
    have la : 0 < a.length := List.length_pos_iff.mpr ha0
    have lb : 0 < b.length := List.length_pos_iff.mpr hb0
    refine ⟨fun k => if k = 0 then a.length - 1 else b.length - 1, ?_⟩
    unfold sendEgts
    rw [e1']
    simp only [sendLoop, e2.1, e2.2, List.nil_append, hA.1, hB.1, List.drop_zero, if_true, Nat.zero_add, if_neg (show ¬ (1 = 0) by omega)]
    rw [Nat.mod_eq_of_lt (show a.length - 1 < 2048 by omega), Nat.mod_eq_of_lt (show b.length - 1 < 2048 by omega),
      show 1 + (a.length - 1) = a.length by omega, show 1 + (b.length - 1) = b.length by omega, List.take_left, List.drop_left,
      List.take_left, if_neg (by simp [ha0]), if_neg (by simp [hb0])]

/-- what is sent in answer to a login: acknowledgement and result -/
theorem login_reply (env : Env) (k : Nat) (c : Bytes) (pid : Nat) (l : List ServiceDataRecord) (h : DataPacket c pid l) (hn : NoResponses l)
    (hl : (subsOf l).any (·.isLogin) = true) :
    reply env k c = ackBytes (UInt16.ofNat pid) l ++ resultPacket (UInt16.ofNat pid) 0 := by
  unfold reply
  rw [react_data _ _ c pid l h hn]
  by_cases hp : (positions (subsOf l)).isEmpty <;> simp [writesOf, hl, hp]

omit P in
/-- every sequence of packets has a file, in small letters and with LF -/
theorem hexFile_exists : ∀ cs : List Bytes, ∃ text, HexFile text cs
  | [] => ⟨[], .nil⟩
  | c :: cs => by
    obtain ⟨text, ht⟩ := hexFile_exists cs
    have digit : ∀ n < 16, ∃ d, HexDigit d n ∧ d ≠ 10 ∧ d ≠ 13 := by
      intro n hn
      by_cases h : n < 10
      · exact ⟨_, .dec n h, by
          revert n; decide, by revert n; decide⟩
      · exact ⟨_, .lower n (by omega) hn, by
          revert n; decide, by revert n; decide⟩
    have line : ∀ c : Bytes, ∃ l, HexText l c ∧ 10 ∉ l ∧ 13 ∉ l := by
      intro c
      induction c with
      | nil => exact ⟨[], .nil, by simp, by simp⟩
      | cons b c ih =>
        obtain ⟨l, h1, h2, h3⟩ := ih
        have hb := b.toNat_lt
        obtain ⟨x, hx, x1, x2⟩ := digit (b.toNat / 16) (by omega)
        obtain ⟨y, hy, y1, y2⟩ := digit (b.toNat % 16) (by omega)
        refine ⟨x :: y :: l, ?_, by simp [h2, Ne.symm x1, Ne.symm y1], by simp [h3, Ne.symm x2, Ne.symm y2]⟩
        have := HexText.byte x y _ _ l c hx hy h1
        rwa [show 16 * (b.toNat / 16) + b.toNat % 16 = b.toNat by omega, UInt8.ofNat_toNat] at this
    obtain ⟨l, h1, h2⟩ := line c
    exact ⟨_, .line l [10] text c cs h1 h2 (.inl rfl) ht⟩

/-- the hypotheses of `send_data_partial` are met by a packet with a position, sent twice (test) -/
example (env : Env) (cut : Nat → Nat) : ∃ text, (sendEgts env cut text).sent = [fixPacket 9 1, fixPacket 9 1] := by
  obtain ⟨text, ht⟩ := hexFile_exists [fixPacket 9 1, fixPacket 9 1]
  refine ⟨text, (send_data_partial env cut text _ ht ?_).1⟩
  intro c hc
  obtain rfl : c = fixPacket 9 1 := by simpa using hc
  exact ⟨_, _, fixPacket_data 9 1 49 (.inr ⟨rfl, rfl⟩), exFix_noResponses _⟩

/-- the answer to a data packet with at most 333 records fits the script's buffer -/
theorem data_reply_fits (env : Env) (k : Nat) (c : Bytes) (pid : Nat) (l : List ServiceDataRecord) (h : DataPacket c pid l) (hn : NoResponses l)
    (hl : l.length ≤ 333) : (reply env k c).length ≤ 2048 := by
  unfold reply
  rw [react_data _ _ c pid l h hn]
  have ha : (ackBytes (UInt16.ofNat pid) l).length ≤ 23 + 6 * l.length := by
    unfold ackBytes
    rw [answer_length]
    split
    · omega
    · simp
  have hr : (resultPacket (UInt16.ofNat pid) 0).length = 24 := by simp [resultPacket, le16]
  by_cases hp : (positions (subsOf l)).isEmpty <;> by_cases hx : (subsOf l).any (·.isLogin) <;> simp [writesOf, hx, hp, hr] <;> omega

/-- a RESPONSE packet that confirms nothing, packet 5 answered with result 0 -/
theorem bareResponse_meets : ResponsePacket (packet [1, 0, 0, 11, 0, 3, 0, 6, 0, 0] [5, 0, 0]) 6 5 0 [] :=
  ⟨_, [], rfl, by decide, by decide, by constructor <;> decide, .nil⟩

/-- the hypotheses of `send_hangs` are met: a data packet, a RESPONSE packet, a data packet; the last is not sent (test) -/
example (env : Env) :
    ∃ text, (sendEgts env (fun _ => 2047) text).sent = [fixPacket 9 1, packet [1, 0, 0, 11, 0, 3, 0, 6, 0, 0] [5, 0, 0]] := by
  obtain ⟨text, ht⟩ := hexFile_exists ([fixPacket 9 1] ++ packet [1, 0, 0, 11, 0, 3, 0, 6, 0, 0] [5, 0, 0] :: [fixPacket 9 1])
  refine ⟨text, (send_hangs env text [fixPacket 9 1] _ _ ht ?_ ?_ ?_ ?_ ?_).1⟩
  · intro c hc
    obtain rfl : c = fixPacket 9 1 := by simpa using hc
    exact data_answered env _ _ _ (fixPacket_data 9 1 49 (.inr ⟨rfl, rfl⟩)) (exFix_noResponses _)
  · intro c hc
    obtain rfl : c = fixPacket 9 1 := by simpa using hc
    exact fun k => data_reply_fits env k _ _ _ (fixPacket_data 9 1 49 (.inr ⟨rfl, rfl⟩)) (exFix_noResponses _) (by simp)
  · decide +kernel
  · exact fun k => (response_unanswered env _ _ _ _ _ bareResponse_meets k).1
  · exact fun k => (response_unanswered env _ _ _ _ _ bareResponse_meets k).2

/-- the hypotheses of `send_unterminated` are met by the file "01" (test) -/
example (env : Env) (cut : Nat → Nat) : (sendEgts env cut [48, 49]).how = .valueError :=
  (send_unterminated env cut [] [] .nil (by simp) [48] 49 [1] (.byte 48 49 0 1 [] [] (.dec 0 (by decide)) (.dec 1 (by decide)) .nil)
    (by unfold White; decide) (by decide)).2

end Egts.SendEgts
