import Verif.Spec.Stream
import Verif.Props.Server2
import Verif.Props.DecodeAll
import Verif.Props.Conform
set_option autoImplicit false
/- C33, C46, C85: connections with arbitrary bytes. -/
namespace Egts
open Frame
variable [P : Platform]

omit P in
theorem framed_taken {c : Bytes} (h : Framed c) : Taken c :=
  ⟨h.version, by have := h.fits; have := h.header; rw [h.complete]; omega⟩

omit P in
theorem taken_ten {c : Bytes} (h : Taken c) : 10 ≤ c.length := by rw [h.size]; omega

omit P in
theorem recv_taken (tail : Tail) (c s : Bytes) (hf : Taken c) : streamRecv tail (c ++ s) = .inr (c, s) := by
  have h10 := taken_ten hf
  have hr : 10 + (restLen ((c ++ s).take 10)).toNat = c.length := by
    rw [restLen_eq _ (by simp; omega), frameLen_prefix _ _ h10, ← hf.size]
  unfold streamRecv
  rw [hr, if_neg (by simp; omega), if_neg (by rw [byteAt_prefix _ _ _ (by omega), hf.version]; simp), if_neg (by simp)]
  simp

omit P in
theorem recv_incomplete (tail : Tail) (s : Bytes) (h : Incomplete s) : streamRecv tail s = .inl (lastEnd tail s) := by
  unfold streamRecv lastEnd
  by_cases h1 : s.length < 10
  · rw [if_pos h1, if_neg (by omega)]
    unfold cutEnd
    cases tail <;> simp
  · rw [if_neg h1]
    by_cases h2 : byteAt s 0 ≠ 1
    · rw [if_pos h2, if_pos ⟨by omega, h2⟩]
    · have h3 : s.length < 10 + (frameLen s + 65526) % 65536 := by
        rcases h with h | h | h
        · exact absurd h h1
        · exact absurd h h2
        · exact h
      rw [if_neg h2, restLen_eq s (by omega), if_pos h3, if_neg (fun h => h2 h.2)]
      have : s ≠ [] := by rintro rfl; simp at h1
      unfold cutEnd
      cases tail <;> simp [this]

omit P in
/-- C33: every stream of bytes is, in exactly one way, a sequence of packets followed by bytes that are not a packet. -/
theorem cut_unique (s : Bytes) : ∃! p : List Bytes × Bytes, CutInto s p.1 p.2 := by
  have ex : ∀ n (s : Bytes), s.length = n → ∃ p : List Bytes × Bytes, CutInto s p.1 p.2 := by
    intro n
    induction n using Nat.strong_induction_on with
    | _ n ih =>
      intro s hn
      by_cases h : Incomplete s
      · exact ⟨([], s), by simp, by simp, h⟩
      · have h' : 10 ≤ s.length ∧ byteAt s 0 = 1 ∧ 10 + (frameLen s + 65526) % 65536 ≤ s.length := by
          unfold Incomplete at h
          push Not at h
          exact h
        obtain ⟨h1, h2, h3⟩ := h'
        generalize hk : 10 + (frameLen s + 65526) % 65536 = k at h3
        have hlen : (s.take k).length = k := by simp [h3]
        have hsp : s = s.take k ++ s.drop k := by simp
        have hfl : frameLen s = frameLen (s.take k) := by
          conv_lhs => rw [hsp]
          exact frameLen_prefix _ _ (by omega)
        have ht : Taken (s.take k) := by
          refine ⟨?_, by rw [hlen, ← hfl]; exact hk.symm⟩
          rw [← h2]
          conv_rhs => rw [hsp]
          rw [byteAt_prefix _ _ _ (by omega)]
        obtain ⟨⟨cs, rest⟩, hc⟩ := ih (s.drop k).length (by simp; omega) (s.drop k) rfl
        refine ⟨(s.take k :: cs, rest), ?_, ?_, hc.incomplete⟩
        · have := hc.all
          simp only at this
          rw [List.flatten_cons, List.append_assoc, ← this]
          exact hsp
        · intro c hcm
          rcases List.mem_cons.mp hcm with rfl | hcm
          · exact ht
          · exact hc.taken c hcm
  obtain ⟨p, hp⟩ := ex _ s rfl
  refine ⟨p, hp, ?_⟩
  have uniq : ∀ (cs : List Bytes) (s r : Bytes) (cs' : List Bytes) (r' : Bytes), CutInto s cs r → CutInto s cs' r' → cs' = cs ∧ r' = r := by
    intro cs
    induction cs with
    | nil =>
      intro s r cs' r' h h'
      have e := h.all
      simp only [List.flatten_nil, List.nil_append] at e
      cases cs' with
      | nil =>
        have e' := h'.all
        simp only [List.flatten_nil, List.nil_append] at e'
        exact ⟨rfl, by rw [← e, ← e']⟩
      | cons c cs' =>
        exfalso
        have e' := h'.all
        rw [List.flatten_cons, List.append_assoc] at e'
        have h1 := recv_taken .eof c (cs'.flatten ++ r') (h'.taken c (by simp))
        have h2 := recv_incomplete .eof r h.incomplete
        rw [← e', e, h2] at h1
        cases h1
    | cons c cs ih =>
      intro s r cs' r' h h'
      have e := h.all
      rw [List.flatten_cons, List.append_assoc] at e
      have h1 := recv_taken .eof c (cs.flatten ++ r) (h.taken c (by simp))
      cases cs' with
      | nil =>
        exfalso
        have e' := h'.all
        simp only [List.flatten_nil, List.nil_append] at e'
        have h2 := recv_incomplete .eof r' h'.incomplete
        rw [← e', e, h1] at h2
        cases h2
      | cons c' cs' =>
        have e' := h'.all
        rw [List.flatten_cons, List.append_assoc] at e'
        have h2 := recv_taken .eof c' (cs'.flatten ++ r') (h'.taken c' (by simp))
        rw [← e', e, h1] at h2
        injection h2 with h2
        injection h2 with h2 h3
        obtain ⟨i1, i2⟩ := ih (cs.flatten ++ r) r cs' r' ⟨rfl, fun x hx => h.taken x (by simp [hx]), h.incomplete⟩
          ⟨h3, fun x hx => h'.taken x (by simp [hx]), h'.incomplete⟩
        exact ⟨by rw [h2, i1], i2⟩
  intro p' hp'
  obtain ⟨h1, h2⟩ := uniq _ _ _ _ _ hp hp'
  exact Prod.ext h1 h2

/-- a stream cut into two packets, the first one shorter than it announces, and a rest (test of the hypotheses) -/
example : CutInto ([1, 0, 0, 11, 0, 255, 255, 0, 0, 1, 5, 6] ++ ([1, 0, 0, 11, 0, 0, 0, 0, 0, 1, 126] ++ [1, 2, 3]))
    [[1, 0, 0, 11, 0, 255, 255, 0, 0, 1, 5, 6], [1, 0, 0, 11, 0, 0, 0, 0, 0, 1, 126]] [1, 2, 3] :=
  ⟨by decide, by decide, by decide⟩

theorem react_eq (now spare c : Bytes) (h10 : 10 ≤ c.length) :
    (handlePacket now spare ({} : LoopVars).reset c).seen =
      match react now spare c with
      | none => .panic
      | some l => .done l := by
  unfold react
  cases hd : Package.decode {} c spare with
  | panic => simp only; exact (handle_panic_iff now spare c).mpr hd
  | diverge => exact absurd hd (decode_terminates _ _ _)
  | ret code e p =>
    cases e with
    | some e =>
      obtain ⟨-, h⟩ := handle_rejected_bytes now spare c p code e hd
      simp only
      have hp : p.PacketIdentifier.toNat = word16At c 7 := by
        rw [decode_pid h10 hd, u16_toNat]; simp [word16At, leValue]
      rw [h, hp]
    | none =>
      obtain rfl : code = 0 := by
        rcases decode_codes_partial {} p c spare code none hd with h | h | ⟨-, h | h | h | h | h⟩
        · exact h.1
        all_goals simp at h
      obtain ⟨-, ht, -, b, hb, -⟩ := decode_ok_facts hd
      simp only [hb]
      cases b with
      | response r => exact handle_response _ _ c p r hd hb
      | appdata l =>
        simp only
        by_cases hn : NoResponses l
        · have : (subsOf l).any (·.isResponse) = false := by simpa [NoResponses] using hn
          obtain ⟨-, hs⟩ := handle_data_bytes now spare c p l hd hb hn
          rw [this, hs]; rfl
        · have : (subsOf l).any (·.isResponse) = true := by
            unfold NoResponses at hn
            push Not at hn
            simpa using hn
          rw [this, handle_received _ _ c p l hd hb hn]; rfl

theorem serve_taken (env : Env) (tail : Tail) (k : Nat) (v : LoopVars) (c s : Bytes) (hf : Taken c) :
    serve env tail k v (c ++ s) =
      match react (env.now k) (env.spare k) c with
      | none => ([], .crashed)
      | some l => (l ++ (serve env tail (k + 1) {} s).1, (serve env tail (k + 1) {} s).2) := by
  rw [serve_unfold, recv_taken tail c s hf]
  simp only
  have h := react_eq (env.now k) (env.spare k) c (taken_ten hf)
  rw [handlePacket_indep _ _ _ {} v] at h
  revert h
  cases handlePacket (env.now k) (env.spare k) v.reset c with
  | panic => cases react (env.now k) (env.spare k) c <;> simp [Handled.seen]
  | diverge => cases react (env.now k) (env.spare k) c <;> simp [Handled.seen]
  | done l v' =>
    cases react (env.now k) (env.spare k) c with
    | none => simp [Handled.seen]
    | some l' =>
      simp only [Handled.seen]
      intro h
      injection h with h
      rw [h, serve_indep env tail (k + 1) v' {} s]

theorem serve_all (env : Env) (tail : Tail) (k : Nat) (v : LoopVars) (cs : List Bytes) (rest : Bytes) (ht : ∀ c ∈ cs, Taken c)
    (hi : Incomplete rest) : serve env tail k v (cs.flatten ++ rest) = reactAll env tail rest k cs := by
  induction cs generalizing k v with
  | nil =>
    rw [List.flatten_nil, List.nil_append, serve_unfold, recv_incomplete tail rest hi]; rfl
  | cons c cs ih =>
    rw [List.flatten_cons, List.append_assoc, serve_taken env tail k v c _ (ht c (by simp)), reactAll,
      ih (k + 1) {} fun x hx => ht x (by simp [hx])]
    cases react (env.now k) (env.spare k) c <;> rfl

/-- C85: everything a connection does, for every stream of bytes, every segmentation, every end, clock and capacity: the packets the
stream consists of (`cut_unique`) are answered one after the other as `react` says, until one of them crashes the process or
there is no further packet. -/
theorem stream_behaviour (env : Env) (tail : Tail) (chunks cs : List Bytes) (rest : Bytes)
    (h : CutInto chunks.flatten cs rest) : handleConn env true tail chunks = reactAll env tail rest 0 cs := by
  rw [handleConn_serve, h.all]
  exact serve_all env tail 0 {} cs rest h.taken h.incomplete

theorem reactAll_ok (env : Env) (tail : Tail) (rest : Bytes) (k : Nat) (cs : List Bytes) (ls : List (List Effect))
    (hl : ls.length = cs.length)
    (h : ∀ i (hi : i < cs.length), react (env.now (k + i)) (env.spare (k + i)) cs[i] = some (ls[i]'(hl ▸ hi))) :
    reactAll env tail rest k cs = (ls.flatten, lastEnd tail rest) := by
  induction cs generalizing k ls with
  | nil =>
    obtain rfl : ls = [] := by simpa using hl
    rfl
  | cons c cs ih =>
    match ls, hl with
    | l :: ls, hl =>
      have h0 := h 0 (by simp)
      simp only [Nat.add_zero, List.getElem_cons_zero] at h0
      rw [reactAll, h0]
      simp only
      rw [ih (k + 1) ls (by simpa using hl)]
      · rfl
      · intro i hi
        have := h (i + 1) (by simp; omega)
        rw [Nat.add_assoc, Nat.add_comm 1 i]
        simpa using this

theorem react_none_iff (now spare c : Bytes) : react now spare c = none ↔ Package.decode {} c spare = .panic := by
  unfold react
  cases hd : Package.decode {} c spare with
  | panic => simp
  | diverge => exact absurd hd (decode_terminates _ _ _)
  | ret code e p =>
    simp only [reduceCtorEq, iff_false]
    cases e with
    | some e => simp
    | none =>
      simp only
      cases p.ServicesFrameData with
      | none => simp
      | some b =>
        cases b with
        | response r => simp
        | appdata l => simp only; split <;> simp

theorem reactAll_crash (env : Env) (tail : Tail) (rest : Bytes) (k : Nat) (cs : List Bytes) :
    (reactAll env tail rest k cs).2 = .crashed ↔ ∃ i, ∃ h : i < cs.length, Package.decode {} cs[i] (env.spare (k + i)) = .panic := by
  induction cs generalizing k with
  | nil =>
    simp only [reactAll, lastEnd, List.length_nil, Nat.not_lt_zero, IsEmpty.exists_iff, exists_const, iff_false]
    split
    · simp
    · cases tail <;> simp
      split <;> simp
  | cons c cs ih =>
    rw [reactAll]
    cases hr : react (env.now k) (env.spare k) c with
    | none => simp only [true_iff]; exact ⟨0, by simp, by simpa using (react_none_iff _ _ _).mp hr⟩
    | some l =>
      simp only
      rw [ih (k + 1)]
      constructor
      · rintro ⟨i, hi, h⟩
        refine ⟨i + 1, by simp; omega, ?_⟩
        rw [Nat.add_assoc, Nat.add_comm 1 i] at h
        simpa using h
      · rintro ⟨i, hi, h⟩
        cases i with
        | zero =>
          have := (react_none_iff (env.now k) (env.spare k) c).mpr (by simpa using h)
          rw [hr] at this; cases this
        | succ i =>
          refine ⟨i, by simpa using hi, ?_⟩
          rw [Nat.add_assoc, Nat.add_comm 1 i]
          simpa using h

/-- C46: exactly which streams crash the server: those in which Decode panics for one of the packets (`decode_panic_iff` says
for which bytes it does). -/
theorem crash_iff (env : Env) (tail : Tail) (chunks cs : List Bytes) (rest : Bytes) (h : CutInto chunks.flatten cs rest) :
    (handleConn env true tail chunks).2 = .crashed ↔ ∃ i, ∃ h : i < cs.length, Package.decode {} cs[i] (env.spare i) = .panic := by
  rw [stream_behaviour env tail chunks cs rest h, reactAll_crash]
  simp

theorem alone_taken (env : Env) (c : Bytes) (h : Taken c) : handleConn env true .silent [c] =
    match react (env.now 0) (env.spare 0) c with
    | none => ([], .crashed)
    | some l => (l, .waiting) := by
  rw [stream_behaviour env .silent [c] [c] [] ⟨by simp, by simpa using h, by simp [Incomplete]⟩]
  simp only [reactAll]
  cases react (env.now 0) (env.spare 0) c <;> simp [lastEnd]

/-- C33, for every stream: a connection that delivers the packets `cs` and then bytes that are no packet does what each of the packets causes when
it is the only one of its own connection, one after the other, up to the first that crashes the process. -/
theorem any_packets_independent (env : Env) (tail : Tail) (chunks cs : List Bytes) (rest : Bytes) (h : CutInto chunks.flatten cs rest) (n : Nat)
    (hn : n ≤ cs.length)
    (hok : ∀ i (hi : i < n), (handleConn (env.after i) true .silent [cs[i]]).2 ≠ .crashed) :
    (n = cs.length → handleConn env true tail chunks =
      ((List.ofFn fun i : Fin n => (handleConn (env.after i) true .silent [cs[i]]).1).flatten, lastEnd tail rest)) ∧
    (∀ hl : n < cs.length, (handleConn (env.after n) true .silent [cs[n]]).2 = .crashed → handleConn env true tail chunks =
      ((List.ofFn fun i : Fin n => (handleConn (env.after i) true .silent [cs[i]]).1).flatten, .crashed)) := by
  rw [stream_behaviour env tail chunks cs rest h]
  have ht := h.taken
  clear h
  have key : ∀ (k : Nat) (cs : List Bytes) (hT : ∀ c ∈ cs, Taken c) (n : Nat) (hn : n ≤ cs.length)
      (hok : ∀ i (hi : i < n), (handleConn (env.after (k + i)) true .silent [cs[i]]).2 ≠ .crashed),
    (n = cs.length → reactAll env tail rest k cs =
      ((List.ofFn fun i : Fin n => (handleConn (env.after (k + i)) true .silent [cs[i]]).1).flatten, lastEnd tail rest)) ∧
    (∀ hl : n < cs.length, (handleConn (env.after (k + n)) true .silent [cs[n]]).2 = .crashed → reactAll env tail rest k cs =
      ((List.ofFn fun i : Fin n => (handleConn (env.after (k + i)) true .silent [cs[i]]).1).flatten, .crashed)) := by
    intro k cs
    induction cs generalizing k with
    | nil =>
      intro hT n hn hok
      obtain rfl : n = 0 := by simpa using hn
      exact ⟨fun _ => by simp [reactAll], fun hl => by simp at hl⟩
    | cons c cs ih =>
      intro hT n hn hok
      have ha := alone_taken (env.after k) c (hT c (by simp))
      have e0 : (env.after k).now 0 = env.now k := by simp [Env.after]
      have e1 : (env.after k).spare 0 = env.spare k := by simp [Env.after]
      rw [e0, e1] at ha
      cases n with
      | zero =>
        refine ⟨fun h => by simp at h, fun hl hc => ?_⟩
        simp only [Nat.add_zero, List.getElem_cons_zero] at hc
        rw [reactAll]
        cases hr : react (env.now k) (env.spare k) c with
        | none => simp
        | some l => rw [hr] at ha; rw [ha] at hc; cases hc
      | succ n =>
        have h0 := hok 0 (by omega)
        simp only [Nat.add_zero, List.getElem_cons_zero] at h0
        rw [reactAll]
        cases hr : react (env.now k) (env.spare k) c with
        | none => rw [hr] at ha; rw [ha] at h0; exact absurd rfl h0
        | some l =>
          rw [hr] at ha
          simp only at ha ⊢
          have hshift : ∀ i, k + 1 + i = k + (i + 1) := fun i => by omega
          obtain ⟨i1, i2⟩ := ih (k + 1) (fun x hx => hT x (by simp [hx])) n (by simpa using hn) (fun i hi => by
            have := hok (i + 1) (by omega)
            rw [hshift]
            simpa using this)
          have hn' : n ≤ cs.length := by simpa using hn
          have hfn : (List.ofFn fun i : Fin (n + 1) => (handleConn (env.after (k + i)) true .silent [(c :: cs)[i]]).1).flatten =
              l ++ (List.ofFn fun i : Fin n => (handleConn (env.after (k + 1 + i)) true .silent [cs[i]]).1).flatten := by
            rw [List.ofFn_succ, List.flatten_cons]
            congr 1
            · simp [ha]
            · congr 1
              congr 1
              funext i
              simp [hshift]
          constructor
          · intro h
            rw [i1 (by simpa using h), hfn]
          · intro hl hc
            rw [i2 (by simpa using hl) (by rw [hshift]; simpa using hc), hfn]
  have := key 0 cs ht n hn (fun i hi => by rw [Nat.zero_add]; exact hok i hi)
  simp only [Nat.zero_add] at this
  exact this

end Egts
