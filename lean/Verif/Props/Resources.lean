import Verif.Props.AnyStream
set_option autoImplicit false
/- C86: what a connection costs. -/
namespace Egts
open Frame
variable [P : Platform]

omit P in
theorem writesOf_append (a b : List Effect) : writesOf (a ++ b) = writesOf a ++ writesOf b := by simp [writesOf]
omit P in
theorem savesOf_append (a b : List Effect) : savesOf (a ++ b) = savesOf a ++ savesOf b := by simp [savesOf]

/-- an accepted packet has more bytes than its header and its body together -/
theorem accepted_size {c spare : Bytes} {p : Package} (h : Package.decode {} c spare = .ret 0 none p) :
    headerSize c + declaredFDL c < c.length := by
  have hc := (decode_ok_facts h).1
  rw [decode_verdict {} c spare hc] at h
  obtain ⟨b, w, hvd, -⟩ := apply_ret h
  rcases verdict_cases c spare hc with h | ⟨code, e, b, w, h⟩ | h
  · rw [h.1] at hvd; cases hvd
  · rw [h] at hvd; cases hvd
  · exact h.2.1

theorem resultPacket_length (pid : UInt16) (code : UInt8) : (resultPacket pid code).length = 24 := by
  have := (resultPacket_framed pid code).complete
  rw [this]; rfl

/-- the answer to one packet: at most one save, at most two packets, at most 34 bytes more than were received -/
theorem react_bound {now spare c : Bytes} {l : List Effect} (h10 : 10 ≤ c.length) (h : react now spare c = some l) :
    (savesOf l).length ≤ 1 ∧ (writesOf l).length ≤ 2 ∧ (writesOf l).flatten.length ≤ c.length + 34 := by
  unfold react at h
  cases hd : Package.decode {} c spare with
  | panic => rw [hd] at h; cases h
  | diverge => rw [hd] at h; cases h
  | ret code e p =>
    rw [hd] at h
    cases e with
    | some e =>
      injection h with h
      subst h
      simp [savesOf, writesOf, answer_length]
    | none =>
      simp only at h
      obtain rfl : code = 0 := by
        rcases decode_codes_partial {} p c spare code none hd with h | h | ⟨-, h | h | h | h | h⟩
        · exact h.1
        all_goals simp at h
      obtain ⟨-, ht, -, b, hb, hdb⟩ := decode_ok_facts hd
      rw [hb] at h
      cases b with
      | response r =>
        injection h with h; subst h; simp [savesOf, writesOf]
      | appdata m =>
        simp only at h
        by_cases hr : (subsOf m).any (·.isResponse)
        · rw [if_pos hr] at h; injection h with h; subst h; simp [savesOf, writesOf]
        · rw [if_neg hr] at h
          injection h with h
          subst h
          have hsz := accepted_size hd
          have hhs := headerSize_cases c
          obtain ⟨-, hdb⟩ := decodeBody_appdata hdb
          have hcnt := (sds_count hdb).1
          rw [(bodyBytes_length c).1] at hcnt
          have hack : (ackBytes p.PacketIdentifier m).length ≤ c.length + 10 := by
            unfold ackBytes
            rw [answer_length]
            split
            · omega
            · rename_i hne
              rw [List.length_map]
              have : m ≠ [] := by rintro rfl; exact hne rfl
              have := List.length_pos_iff.mpr this
              omega
          have hres := resultPacket_length p.PacketIdentifier 0
          refine ⟨?_, ?_, ?_⟩
          · by_cases h1 : (positions (subsOf m)).isEmpty <;> by_cases h2 : (subsOf m).any (·.isLogin) <;> simp [savesOf, h1, h2]
          · by_cases h1 : (positions (subsOf m)).isEmpty <;> by_cases h2 : (subsOf m).any (·.isLogin) <;> simp [writesOf, h1, h2]
          · by_cases h1 : (positions (subsOf m)).isEmpty <;> by_cases h2 : (subsOf m).any (·.isLogin) <;> simp [writesOf, h1, h2] <;> omega

/-- C86: whatever a client sends, the server stores at most one record and sends at most two packets for each packet received,
and in total at most 34 bytes per packet more than it has received. -/
theorem resource_bound (env : Env) (tail : Tail) (chunks cs : List Bytes) (rest : Bytes) (h : CutInto chunks.flatten cs rest) :
    (savesOf (handleConn env true tail chunks).1).length ≤ cs.length ∧
    (writesOf (handleConn env true tail chunks).1).length ≤ 2 * cs.length ∧
    (writesOf (handleConn env true tail chunks).1).flatten.length ≤ chunks.flatten.length + 34 * cs.length := by
  rw [stream_behaviour env tail chunks cs rest h, h.all, List.length_append]
  have ht := h.taken
  clear h
  suffices H : ∀ k, (savesOf (reactAll env tail rest k cs).1).length ≤ cs.length ∧
      (writesOf (reactAll env tail rest k cs).1).length ≤ 2 * cs.length ∧
      (writesOf (reactAll env tail rest k cs).1).flatten.length ≤ cs.flatten.length + 34 * cs.length by
    obtain ⟨h1, h2, h3⟩ := H 0
    exact ⟨h1, h2, by omega⟩
  induction cs with
  | nil => intro k; simp [reactAll, savesOf, writesOf]
  | cons c cs ih =>
    intro k
    obtain ⟨i1, i2, i3⟩ := ih (fun x hx => ht x (by simp [hx])) (k + 1)
    rw [reactAll]
    cases hr : react (env.now k) (env.spare k) c with
    | none => simp [savesOf, writesOf]
    | some l =>
      obtain ⟨j1, j2, j3⟩ := react_bound (taken_ten (ht c (by simp))) hr
      simp only [writesOf_append, savesOf_append, List.length_append, List.flatten_append, List.length_cons, List.flatten_cons]
      omega

omit P in
/-- every packet has ten bytes or more -/
theorem packets_bound (s : Bytes) (cs : List Bytes) (rest : Bytes) (h : CutInto s cs rest) : 10 * cs.length + rest.length ≤ s.length := by
  rw [h.all, List.length_append]
  have ht := h.taken
  clear h
  induction cs with
  | nil => simp
  | cons c cs ih =>
    have := taken_ten (ht c (by simp))
    have := ih fun x hx => ht x (by simp [hx])
    simp only [List.length_cons, List.flatten_cons, List.length_append]
    omega

/-- C86: the server never sends more than 4.4 times the bytes it has received on a connection, and stores at most one record per ten bytes. -/
theorem amplification_bound (env : Env) (hasStore : Bool) (tail : Tail) (chunks : List Bytes) :
    10 * (writesOf (handleConn env hasStore tail chunks).1).flatten.length ≤ 44 * chunks.flatten.length ∧
    10 * (savesOf (handleConn env hasStore tail chunks).1).length ≤ chunks.flatten.length := by
  cases hasStore with
  | false => simp [handleConn, writesOf, savesOf]
  | true =>
    obtain ⟨⟨cs, rest⟩, h, -⟩ := cut_unique chunks.flatten
    obtain ⟨h1, -, h3⟩ := resource_bound env tail chunks cs rest h
    have := packets_bound _ _ _ h
    simp only at *
    omega

/-- what a connection sends are answers and authorisation results only, whatever it receives -/
theorem react_writes {now spare c w : Bytes} {l : List Effect} (h : react now spare c = some l) (hw : w ∈ writesOf l) :
    (∃ pid code rns, Answers w pid code rns) ∨ ∃ pid, w = resultPacket pid 0 := by
  unfold react at h
  cases hd : Package.decode {} c spare with
  | panic => rw [hd] at h; cases h
  | diverge => rw [hd] at h; cases h
  | ret code e p =>
    rw [hd] at h
    cases e with
    | some e =>
      injection h with h
      subst h
      obtain rfl : w = answerBytes (word16At c 7) code 0 [] := by simpa [writesOf] using hw
      have hlt : word16At c 7 < 65536 := by
        have h7 := (byteAt c 7).toNat_lt
        have h8 := (byteAt c 8).toNat_lt
        simp [word16At, leValue]
        omega
      have := answerBytes_answers (UInt16.ofNat (word16At c 7)) code 0 [] (by simp)
      rw [UInt16.toNat_ofNat_of_lt' hlt] at this
      exact .inl ⟨_, _, _, this⟩
    | none =>
      simp only at h
      obtain rfl : code = 0 := by
        rcases decode_codes_partial {} p c spare code none hd with h | h | ⟨-, h | h | h | h | h⟩
        · exact h.1
        all_goals simp at h
      obtain ⟨-, ht, -, b, hb, hdb⟩ := decode_ok_facts hd
      rw [hb] at h
      cases b with
      | response r =>
        injection h with h; subst h; simp [writesOf] at hw
      | appdata m =>
        simp only at h
        by_cases hr : (subsOf m).any (·.isResponse)
        · rw [if_pos hr] at h; injection h with h; subst h; simp [writesOf] at hw
        · rw [if_neg hr] at h
          injection h with h
          subst h
          have hn : NoResponses m := by simpa [NoResponses] using hr
          obtain ⟨ha, -⟩ := handle_data_bytes now spare c p m hd hb hn
          have : w = ackBytes p.PacketIdentifier m ∨ w = resultPacket p.PacketIdentifier 0 := by
            unfold writesOf at hw
            by_cases h1 : (positions (subsOf m)).isEmpty <;> by_cases h2 : (subsOf m).any (·.isLogin) <;> simp [h1, h2] at hw <;>
              first | exact .inl hw | exact hw
          rcases this with rfl | rfl
          · exact .inl ⟨_, _, _, ha⟩
          · exact .inr ⟨_, rfl⟩

/-- C37, every stream: all packets a server sends, whatever it receives, are responses (which another gate ignores) or authorisation
results. -/
theorem writes_any (env : Env) (hasStore : Bool) (tail : Tail) (chunks : List Bytes) (w : Bytes)
    (hw : w ∈ writesOf (handleConn env hasStore tail chunks).1) :
    (∃ pid code rns, Answers w pid code rns) ∨ ∃ pid, w = resultPacket pid 0 := by
  cases hasStore with
  | false => simp [handleConn, writesOf] at hw
  | true =>
    obtain ⟨⟨cs, rest⟩, h, -⟩ := cut_unique chunks.flatten
    rw [stream_behaviour env tail chunks cs rest h] at hw
    clear h
    generalize 0 = k at hw
    induction cs generalizing k with
    | nil => simp [reactAll, writesOf] at hw
    | cons c cs ih =>
      rw [reactAll] at hw
      cases hr : react (env.now k) (env.spare k) c with
      | none => rw [hr] at hw; simp [writesOf] at hw
      | some l =>
        rw [hr] at hw
        simp only [writesOf_append, List.mem_append] at hw
        rcases hw with hw | hw
        · exact react_writes hr hw
        · exact ih (k + 1) hw

/-- C37, two gates connected to each other, every history: if everything one gate has sent is delivered to another gate, in any
segmentation, that gate saves nothing, crashes never, and what it sends back is answered by silence. -/
theorem no_echo (env env' env'' : Env) (hasStore : Bool) (tail tail' tail'' : Tail) (chunks back back' : List Bytes)
    (hb : back.flatten = (writesOf (handleConn env hasStore tail chunks).1).flatten)
    (hb' : back'.flatten = (writesOf (handleConn env' true tail' back).1).flatten) :
    savesOf (handleConn env' true tail' back).1 = [] ∧ (handleConn env' true tail' back).2 ≠ .crashed ∧
    (handleConn env'' true tail'' back').1 = [] ∧ (handleConn env'' true tail'' back').2 ≠ .crashed := by
  -- packets that are ignored, and packets that are rejected
  have silent : ∀ (w : Bytes) pid code rns, Answers w pid code rns → Taken w ∧ ∀ now spare, react now spare w = some [] := by
    intro w pid code rns ha
    refine ⟨framed_taken ha.1, fun now spare => ?_⟩
    obtain ⟨q, r, hd, -, hq, -⟩ := ha.2.2 spare
    unfold react; rw [hd]; simp only [hq]
  have nack : ∀ pid now spare, ∃ n, react now spare (resultPacket pid 0) = some [.write n] ∧ ∃ a b c, Answers n a b c := by
    intro pid now spare
    obtain ⟨e, q, hd⟩ := auth_result_rejected pid 0 spare
    have hr : react now spare (resultPacket pid 0) = some [.write (answerBytes (word16At (resultPacket pid 0) 7) 129 0 [])] := by
      unfold react; rw [hd]
    refine ⟨_, hr, ?_⟩
    rcases react_writes hr (w := answerBytes (word16At (resultPacket pid 0) 7) 129 0 []) (by simp [writesOf]) with h | ⟨pid', h⟩
    · exact h
    · have := congrArg List.length h
      rw [answer_length, resultPacket_length] at this
      simp at this
  have lastNe : ∀ t r, lastEnd t r ≠ .crashed := by
    intro t r
    unfold lastEnd
    split
    · simp
    · cases t <;> simp
      split <;> simp
  have quiet : ∀ (env : Env) t (ws : List Bytes), (∀ w ∈ ws, ∃ a b c, Answers w a b c) → ∀ k, reactAll env t [] k ws = ([], lastEnd t []) := by
    intro env t ws
    induction ws with
    | nil => intro _ k; rfl
    | cons w ws ih =>
      intro h k
      obtain ⟨a, b, c, ha⟩ := h w (by simp)
      rw [reactAll, (silent w a b c ha).2]
      simp only [ih (fun x hx => h x (by simp [hx])) (k + 1), List.append_nil]
  have once : ∀ (ws : List Bytes), (∀ w ∈ ws, (∃ pid code rns, Answers w pid code rns) ∨ ∃ pid, w = resultPacket pid 0) →
      ∀ k, savesOf (reactAll env' tail' [] k ws).1 = [] ∧ (reactAll env' tail' [] k ws).2 ≠ .crashed ∧
        ∀ w ∈ writesOf (reactAll env' tail' [] k ws).1, ∃ a b c, Answers w a b c := by
    intro ws
    induction ws with
    | nil => intro _ k; simp [reactAll, savesOf, writesOf, lastNe]
    | cons w ws ih =>
      intro h k
      obtain ⟨i1, i2, i3⟩ := ih (fun x hx => h x (by simp [hx])) (k + 1)
      rw [reactAll]
      rcases h w (by simp) with ⟨a, b, c, ha⟩ | ⟨pid, rfl⟩
      · rw [(silent w a b c ha).2]
        exact ⟨i1, i2, i3⟩
      · obtain ⟨n, hn, hna⟩ := nack pid (env'.now k) (env'.spare k)
        rw [hn]
        refine ⟨by simpa [savesOf_append, savesOf] using i1, i2, fun x hx => ?_⟩
        simp only [writesOf_append, List.mem_append] at hx
        rcases hx with hx | hx
        · obtain rfl : x = n := by simpa [writesOf] using hx
          exact hna
        · exact i3 x hx
  have h1 := writes_any env hasStore tail chunks
  generalize writesOf (handleConn env hasStore tail chunks).1 = ws at hb h1
  have hc : CutInto back.flatten ws [] := by
    refine ⟨by rw [hb]; simp, fun w hw => ?_, by simp [Incomplete]⟩
    rcases h1 w hw with ⟨a, b, c, ha⟩ | ⟨pid, rfl⟩
    · exact (silent w a b c ha).1
    · exact framed_taken (resultPacket_framed pid 0)
  obtain ⟨o1, o2, o3⟩ := once ws h1 0
  rw [stream_behaviour env' tail' back ws [] hc] at hb' ⊢
  refine ⟨o1, o2, ?_⟩
  generalize writesOf (reactAll env' tail' [] 0 ws).1 = vs at hb' o3
  have hc' : CutInto back'.flatten vs [] := by
    refine ⟨by rw [hb']; simp, fun w hw => ?_, by simp [Incomplete]⟩
    obtain ⟨a, b, c, ha⟩ := o3 w hw
    exact (silent w a b c ha).1
  rw [stream_behaviour env'' tail'' back' vs [] hc', quiet env'' tail'' vs o3 0]
  exact ⟨rfl, lastNe tail'' []⟩

end Egts
