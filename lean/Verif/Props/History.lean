import Verif.Spec.History
import Verif.Props.Resend
import Verif.Props.GateStream
set_option autoImplicit false
/- C122: what a device has seen confirmed is in the storages, whatever crashes, restarts and reconnections there are. -/
namespace Egts
open Frame
variable [P : Platform]

/-! ### what is confirmed -/

omit P in
theorem word16At_lt (c : Bytes) (i : Nat) : word16At c i < 65536 := by
  have h1 := (byteAt c i).toNat_lt
  have h2 := (byteAt c (i + 1)).toNat_lt
  simp only [word16At, leValue]; omega

omit P in
/-- an answer of the server confirms no other packet than the one it answers -/
theorem answer_confirms {pid : Nat} {code st : UInt8} {rns : List Nat} {n : Nat} (hp : pid < 65536) (h : Confirms (answerBytes pid code st rns) n) :
    n = pid ∧ code = 0 := by
  obtain ⟨-, -, h2, h3⟩ := h
  simp only [answerBytes, packet, leBytes, word16At, byteAt, leValue, List.cons_append, List.nil_append,
    List.getD_cons_succ, List.getD_cons_zero] at h2 h3
  refine ⟨?_, h3⟩
  simp only [UInt8.toNat_ofNat'] at h2
  omega

omit P in
theorem answer_confirms_mk (pid : Nat) (st : UInt8) (rns : List Nat) (hp : pid < 65536) : Confirms (answerBytes pid 0 st rns) pid := by
  refine ⟨by simp [answerBytes, packet, leBytes, byteAt], by simp [answerBytes, packet, leBytes, byteAt], ?_, by simp [answerBytes, packet, leBytes, byteAt]⟩
  simp only [answerBytes, packet, leBytes, word16At, byteAt, leValue, List.cons_append, List.nil_append,
    List.getD_cons_succ, List.getD_cons_zero, UInt8.toNat_ofNat']
  omega

omit P in
/-- the authorisation result of the server confirms nothing -/
theorem result_confirms (pid : UInt16) (code : UInt8) (n : Nat) : ¬ Confirms (resultPacket pid code) n := by
  rintro ⟨-, -, -, h⟩
  simp [resultPacket, byteAt, le16] at h

/-- what is written in answer to packet `c` confirms nothing but `c` -/
theorem react_confirms (now spare c : Bytes) (h10 : 10 ≤ c.length) (es : List Effect) (h : react now spare c = some es) (b : Bytes)
    (hb : .write b ∈ es) (n : Nat) (hn : Confirms b n) : n = word16At c 7 := by
  have hlt := word16At_lt c 7
  unfold react at h
  cases hd : Package.decode {} c spare with
  | panic => rw [hd] at h; cases h
  | diverge => rw [hd] at h; cases h
  | ret code e p =>
    have hp : p.PacketIdentifier.toNat = word16At c 7 := by
      rw [decode_pid h10 hd, u16_toNat]; simp [word16At, leValue]
    rw [hd] at h
    cases e with
    | some e =>
      obtain rfl := (Option.some.inj h).symm
      obtain rfl : b = _ := by simpa using hb
      exact (answer_confirms hlt hn).1
    | none =>
      simp only at h
      cases hs : p.ServicesFrameData with
      | none => rw [hs] at h; obtain rfl := (Option.some.inj h).symm; simp at hb
      | some body =>
        rw [hs] at h
        cases body with
        | response r => obtain rfl := (Option.some.inj h).symm; simp at hb
        | appdata l =>
          simp only at h
          split at h
          · obtain rfl := (Option.some.inj h).symm; simp at hb
          · obtain rfl := (Option.some.inj h).symm
            have hb' : b = ackBytes p.PacketIdentifier l ∨ b = resultPacket p.PacketIdentifier 0 := by
              by_cases h1 : (positions (subsOf l)).isEmpty <;> by_cases h2 : (subsOf l).any (·.isLogin) <;> simp [h1, h2] at hb <;> tauto
            rcases hb' with rfl | rfl
            · rw [← hp]; exact (answer_confirms (by rw [hp]; exact hlt) hn).1
            · exact absurd hn (result_confirms _ _ _)

/-- among the packets of a connection that are answered one after the other, what confirms `pid` comes after the record of the packet with identifier `pid` -/
theorem confirmed_after (env : Env) (tail : Tail) (rest : Bytes) (c : Bytes) (pid : Nat) (l : List ServiceDataRecord) (hd : DataPacket c pid l)
    (hn : NoResponses l) (hp : positions (subsOf l) ≠ []) (cs : List Bytes) : ∀ (k : Nat), (∀ x ∈ cs, Taken x) → (∀ x ∈ cs, word16At x 7 = pid → x = c) →
    ∀ (pre : List Effect) (b : Bytes) (post : List Effect), (reactAll env tail rest k cs).1 = pre ++ .write b :: post → Confirms b pid →
    ∃ now, .save (exportOf now (UInt16.ofNat pid) l) ∈ pre := by
  induction cs with
  | nil => intro k _ _ pre b post h; simp [reactAll] at h
  | cons x cs ih =>
    intro k ht hu pre b post h hc
    rw [reactAll] at h
    cases hr : react (env.now k) (env.spare k) x with
    | none => rw [hr] at h; simp at h
    | some es =>
      rw [hr] at h
      simp only at h
      rw [List.append_eq_append_iff] at h
      rcases h with ⟨pre', h1, h2⟩ | ⟨post', h1, h2⟩
      · obtain ⟨now, hs⟩ := ih (k + 1) (fun y hy => ht y (by simp [hy])) (fun y hy => hu y (by simp [hy])) pre' b post h2 hc
        exact ⟨now, by rw [h1]; simp [hs]⟩
      · cases post' with
        | nil =>
          simp only [List.append_nil, List.nil_append] at h1 h2
          obtain ⟨now, hs⟩ := ih (k + 1) (fun y hy => ht y (by simp [hy])) (fun y hy => hu y (by simp [hy])) [] b post (by simpa using h2.symm) hc
          simp at hs
        | cons y post' =>
          obtain ⟨rfl, h2⟩ := List.cons.inj h2
          have hx := react_confirms _ _ x (taken_ten (ht x (by simp))) es hr b (by rw [h1]; simp) pid hc
          obtain rfl := hu x (by simp) hx.symm
          rw [react_data _ _ x pid l hd hn] at hr
          have he : (positions (subsOf l)).isEmpty = false := by simpa using hp
          rw [he] at hr
          simp only [Bool.false_eq_true, if_false, List.cons_append, List.nil_append, Option.some.injEq] at hr
          refine ⟨env.now k, ?_⟩
          cases pre with
          | nil => rw [h1] at hr; simp at hr
          | cons z pre =>
            rw [h1] at hr
            have := (List.cons.inj hr).1
            rw [← this]; simp

/-! ### invariants of the process -/

/-- a rule for properties `Q` of the phases and `R` of the log that no call of a storage destroys -/
theorem gate_rule {W : Type} (ss : List (Saver W)) (envs : Nat → Env) (Q : Phase W → W → Prop) (R : Done → W → Prop)
    (hQ : ∀ t ∈ ss, ∀ r w ph, Q ph w → Q ph (t.save r w).2) (hR : ∀ t ∈ ss, ∀ r w d, R d w → R d (t.save r w).2)
    (hidle : ∀ w, Q .idle w) (hended : ∀ e w, Q (.ended e) w) (hacting : ∀ l w, Q (.acting l) w) (hwrote : ∀ b w, R (.wrote b) w)
    (hbegin : ∀ r l w, Q (.saving r ss l) w)
    (hdone : ∀ r l w, Q (.saving r [] l) w → R (.saved r) w)
    (hok : ∀ r s left l w, s ∈ ss → Q (.saving r (s :: left) l) w → (s.save r w).1 = .ok → Q (.saving r left l) (s.save r w).2)
    (herr : ∀ r s left l w e, s ∈ ss → Q (.saving r (s :: left) l) w → (s.save r w).1 = .err e → R (.saveFailed r) (s.save r w).2)
    (w : W) (evs : List Event) :
    (∀ x ∈ (Gate.run ss envs w evs).log, R x.2 (Gate.run ss envs w evs).world) ∧
    ∀ c ∈ (Gate.run ss envs w evs).conns, Q c.phase (Gate.run ss envs w evs).world := by
  have step : ∀ (c : Conn W) (env : Env) (w : W), Q c.phase w → (∀ r left l, c.phase = .saving r left l → ∀ s ∈ left, s ∈ ss) →
      Q (c.run ss env w).1.phase (c.run ss env w).2.2.1 ∧ (∀ d ∈ (c.run ss env w).2.1, R d (c.run ss env w).2.2.1) ∧
      ((c.run ss env w).2.2.1 = w ∨ ∃ t ∈ ss, ∃ r, (c.run ss env w).2.2.1 = (t.save r w).2) := by
    intro c env w hq hl
    obtain ⟨received, unread, tail, vars, count, phase⟩ := c
    cases phase with
    | ended e => exact ⟨hq, by simp [Conn.run], .inl rfl⟩
    | idle =>
      simp only [Conn.run]
      cases recvPacket tail [unread] with
      | stop e => cases e <;> simp [hidle, hended]
      | packet p rest =>
        simp only
        cases handlePacket (env.now count) (env.spare count) vars.reset p <;> simp [hidle, hended, hacting]
    | acting l =>
      rcases l with _ | ⟨_ | _, l⟩
      · simp [Conn.run, hidle]
      · simp [Conn.run, hacting, hwrote]
      · simp [Conn.run, hbegin]
    | saving r left l =>
      cases left with
      | nil =>
        simp only [Conn.run, hacting, List.mem_singleton, forall_eq, true_and, true_or, and_true]
        exact hdone r l w hq
      | cons s left =>
        have hs : s ∈ ss := hl r _ l rfl s (by simp)
        simp only [Conn.run]
        rcases hsv : s.save r w with ⟨_ | _ | _, w'⟩
        · have h1 := hok r s left l w hs hq (by rw [hsv])
          rw [hsv] at h1
          exact ⟨h1, by simp, .inr ⟨s, hs, r, by rw [hsv]⟩⟩
        · rename_i e
          have h1 := herr r s left l w e hs hq (by rw [hsv])
          rw [hsv] at h1
          exact ⟨hacting _ _, by simpa using h1, .inr ⟨s, hs, r, by rw [hsv]⟩⟩
        · have h1 := hQ s hs r w _ hq
          rw [hsv] at h1
          exact ⟨h1, by simp, .inr ⟨s, hs, r, by rw [hsv]⟩⟩
  have next : ∀ (g : Gate W) (ev : Event), GateInv ss envs g → ((∀ x ∈ g.log, R x.2 g.world) ∧ ∀ c ∈ g.conns, Q c.phase g.world) →
      (∀ x ∈ (g.next ss envs ev).log, R x.2 (g.next ss envs ev).world) ∧ ∀ c ∈ (g.next ss envs ev).conns, Q c.phase (g.next ss envs ev).world := by
    rintro g ev hinv ⟨hlog, hconns⟩
    unfold Gate.next
    split
    · exact ⟨hlog, hconns⟩
    cases ev with
    | accept =>
      simp only
      split
      · exact ⟨hlog, hconns⟩
      · refine ⟨hlog, fun c hc => ?_⟩
        rcases List.mem_append.mp hc with hc | hc
        · exact hconns c hc
        · obtain rfl := List.mem_singleton.mp hc
          exact hidle _
    | stop => exact ⟨hlog, hconns⟩
    | deliver i b =>
      simp only
      split
      · exact ⟨hlog, hconns⟩
      · rename_i c hi
        split
        · refine ⟨hlog, fun x hx => ?_⟩
          rcases List.mem_or_eq_of_mem_set hx with hx | rfl
          · exact hconns x hx
          · exact hconns c (List.mem_of_getElem? hi)
        · exact ⟨hlog, hconns⟩
    | finish i t =>
      simp only
      split
      · exact ⟨hlog, hconns⟩
      · rename_i c hi
        split
        · refine ⟨hlog, fun x hx => ?_⟩
          rcases List.mem_or_eq_of_mem_set hx with hx | rfl
          · exact hconns x hx
          · exact hconns c (List.mem_of_getElem? hi)
        · exact ⟨hlog, hconns⟩
    | step i =>
      simp only
      split
      · exact ⟨hlog, hconns⟩
      · rename_i c hi
        have hl : ∀ r left l, c.phase = .saving r left l → ∀ s ∈ left, s ∈ ss := by
          intro r left l hph
          have h1 := hinv.conns i c hi
          rw [connInv_open (by simp [hph])] at h1
          exact h1.1 r left l hph
        obtain ⟨h1, h2, h3⟩ := step c (envs i) g.world (hconns c (List.mem_of_getElem? hi)) hl
        constructor
        · intro x hx
          rcases List.mem_append.mp hx with hx | hx
          · have := hlog x hx
            rcases h3 with h3 | ⟨t, ht, r, h3⟩
            · rw [h3]; exact this
            · rw [h3]; exact hR t ht r _ _ this
          · obtain ⟨d, hd, rfl⟩ := List.mem_map.mp hx
            exact h2 d hd
        · intro x hx
          rcases List.mem_or_eq_of_mem_set hx with hx | rfl
          · have := hconns x hx
            rcases h3 with h3 | ⟨t, ht, r, h3⟩
            · rw [h3]; exact this
            · rw [h3]; exact hQ t ht r _ _ this
          · exact h1
  have all : ∀ (evs : List Event) (g : Gate W), GateInv ss envs g → ((∀ x ∈ g.log, R x.2 g.world) ∧ ∀ c ∈ g.conns, Q c.phase g.world) →
      (∀ x ∈ (evs.foldl (Gate.next ss envs) g).log, R x.2 (evs.foldl (Gate.next ss envs) g).world) ∧
      ∀ c ∈ (evs.foldl (Gate.next ss envs) g).conns, Q c.phase (evs.foldl (Gate.next ss envs) g).world := by
    intro evs
    induction evs with
    | nil => intro g _ h; exact h
    | cons ev evs ih => intro g hi h; exact ih _ (next_inv ss envs g ev hi) (next g ev hi h)
  exact all evs _ ⟨by simp, by simp, by simp⟩ ⟨by simp, by simp⟩

/-- what the log calls saved is kept by each storage that keeps what it accepts -/
theorem saved_kept {W : Type} (ss : List (Saver W)) (envs : Nat → Env) (w : W) (evs : List Event) (s : Saver W) (hs : s ∈ ss)
    (has : NavRecord → W → Prop) (hk : KeepsAll ss s has) (i : Nat) (r : NavRecord) (h : (i, .saved r) ∈ (Gate.run ss envs w evs).log) :
    has r (Gate.run ss envs w evs).world := by
  have := (gate_rule ss envs
    (fun ph w => match ph with | .saving r left _ => s ∈ left ∨ has r w | _ => True)
    (fun d w => match d with | .saved r => has r w | _ => True)
    (by
      intro t ht r w ph h
      cases ph with
      | saving r' left l => exact h.imp id fun h => hk.stays t ht r' r w h
      | _ => trivial)
    (by
      intro t ht r w d h
      cases d with
      | saved r' => exact hk.stays t ht r' r w h
      | _ => trivial)
    (fun _ => trivial) (fun _ _ => trivial) (fun _ _ => trivial) (fun _ _ => trivial) (fun _ _ _ => .inl hs)
    (fun r l w h => by simpa using h)
    (by
      intro r t left l w ht h hok
      rcases h with h | h
      · rcases List.mem_cons.mp h with rfl | h
        · exact .inr (hk.kept r w hok)
        · exact .inl h
      · exact .inr (hk.stays t ht r r w h))
    (fun _ _ _ _ _ _ _ _ _ => trivial) w evs).1 _ h
  exact this

omit P in
theorem lives_keep [Platform] {W : Type} (ss : List (Saver W)) (I : W → Prop) (hI : ∀ t ∈ ss, ∀ r w, I w → I (t.save r w).2) (w : W) (lives : List Life) (h : I w) :
    I (worldAfter ss w lives) := by
  induction lives generalizing w with
  | nil => exact h
  | cons x lives ih =>
    refine ih _ ?_
    -- the world of a run: every change is a call of a storage
    have key : ∀ (evs : List Event) (g : Gate W), GateInv ss x.envs g → I g.world → I (evs.foldl (Gate.next ss x.envs) g).world := by
      intro evs
      induction evs with
      | nil => intro g _ h; exact h
      | cons ev evs ih =>
        intro g hi hg
        refine ih _ (next_inv ss x.envs g ev hi) ?_
        unfold Gate.next
        split
        · exact hg
        cases ev with
        | accept => simp only; split <;> exact hg
        | stop => exact hg
        | deliver i b => simp only; split <;> [exact hg; (split <;> exact hg)]
        | finish i t => simp only; split <;> [exact hg; (split <;> exact hg)]
        | step i =>
          simp only
          split
          · exact hg
          · rename_i c hc
            simp only
            have h1 := hi.conns i c hc
            obtain ⟨received, unread, tail, vars, count, phase⟩ := c
            cases phase with
            | ended e => exact hg
            | idle =>
              simp only [Conn.run]
              cases recvPacket tail [unread] with
              | stop e => cases e <;> exact hg
              | packet p rest =>
                simp only
                cases handlePacket ((x.envs i).now count) ((x.envs i).spare count) vars.reset p <;> exact hg
            | acting l => rcases l with _ | ⟨_ | _, l⟩ <;> exact hg
            | saving r left l =>
              rw [connInv_open (by simp)] at h1
              cases left with
              | nil => exact hg
              | cons s left =>
                have hs : s ∈ ss := h1.1 r _ l rfl s (by simp)
                have := hI s hs r g.world hg
                simp only [Conn.run]
                rcases hsv : s.save r g.world with ⟨_ | _ | _, w'⟩ <;> (rw [hsv] at this; exact this)
    exact key x.evs _ ⟨by simp, by simp, by simp⟩ h

/-! ### C122 -/

/-- C122, one run of the process, any schedule, any crash point, any storages: suppose that all packets with identifier `pid` that have arrived on connection `i` are
the data packet `p`, which holds positions. If a confirmation of `pid` has been sent on that connection, then before it a record with exactly the positions of
`p` has been given to the storages, which have accepted or refused it. -/
theorem confirmed_was_saved {W : Type} (ss : List (Saver W)) (envs : Nat → Env) (w : W) (evs : List Event) (i : Nat) (c : Conn W)
    (hi : (Gate.run ss envs w evs).conns[i]? = some c) (cs : List Bytes) (rest : Bytes) (hcut : CutInto c.received cs rest) (p : Bytes) (pid : Nat)
    (l : List ServiceDataRecord) (hd : DataPacket p pid l) (hn : NoResponses l) (hp : positions (subsOf l) ≠ [])
    (hu : ∀ x ∈ cs, word16At x 7 = pid → x = p) (pre : List Done) (b : Bytes) (post : List Done)
    (hb : (Gate.run ss envs w evs).doneFor i = pre ++ .wrote b :: post) (hc : Confirms b pid) :
    ∃ r, (.saved r ∈ pre ∨ .saveFailed r ∈ pre) ∧ r.LocStates = (positions (subsOf l)).map locOf := by
  have h1 := isolation_prefix ss envs w evs i c hi
  rw [stream_behaviour (envs i) c.tail [c.received] cs rest (by simpa using hcut)] at h1
  obtain ⟨more, h1⟩ := h1
  unfold Gate.did at h1
  rw [hb] at h1
  simp only [List.map_append, List.map_cons, Done.effect, List.append_assoc, List.cons_append] at h1
  obtain ⟨now, hs⟩ := confirmed_after (envs i) c.tail rest p pid l hd hn hp cs 0 hcut.taken hu _ b _ h1.symm hc
  obtain ⟨d, hm, he⟩ := List.mem_map.mp hs
  refine ⟨exportOf now (UInt16.ofNat pid) l, ?_, rfl⟩
  cases d with
  | wrote b => cases he
  | saved r => cases he; exact .inl hm
  | saveFailed r => cases he; exact .inr hm

/-- with storages that accept everything nothing is refused -/
theorem none_refused {W : Type} (ss : List (Saver W)) (envs : Nat → Env) (w : W) (evs : List Event) (hok : ∀ s ∈ ss, ∀ r w, (s.save r w).1 = .ok)
    (i : Nat) (r : NavRecord) : (i, .saveFailed r) ∉ (Gate.run ss envs w evs).log := by
  intro h
  have := (gate_rule ss envs (fun _ _ => True) (fun d _ => match d with | .saveFailed _ => False | _ => True)
    (fun _ _ _ _ _ _ => trivial) (fun _ _ _ _ d h => by cases d <;> exact h)
    (fun _ => trivial) (fun _ _ => trivial) (fun _ _ => trivial) (fun _ _ => trivial) (fun _ _ _ => trivial) (fun _ _ _ _ => trivial)
    (fun _ _ _ _ _ _ _ _ => trivial) (fun r s left l w e hs _ he => by rw [hok s hs] at he; cases he) w evs).1 _ h
  exact this

theorem doneFor_mem {W : Type} {g : Gate W} {i : Nat} {d : Done} (h : d ∈ g.doneFor i) : (i, d) ∈ g.log := by
  unfold Gate.doneFor at h
  obtain ⟨⟨j, d'⟩, h1, rfl⟩ := List.mem_map.mp h
  obtain ⟨h3, h2⟩ := List.mem_filter.mp h1
  obtain rfl : j = i := by simpa using h2
  exact h3

/-- C122 (partial): take any number of runs of the process, each killed at any point (or dead of a panic), and any connection of any of these runs, with storages
that accept every record and keep it. If a confirmation of `pid` has been sent on that connection, and all packets with that identifier that arrived on it were the data
packet `p`, then after all the runs every storage has a record with exactly the positions of `p`. Missing: storages that refuse (`confirmed_but_lost`). -/
theorem confirmed_is_kept_partial {W : Type} (ss : List (Saver W)) (hok : ∀ s ∈ ss, ∀ r w, (s.save r w).1 = .ok)
    (w : W) (before : List Life) (x : Life) (later : List Life) (i : Nat) (c : Conn W)
    (hi : (x.gate ss (worldAfter ss w before)).conns[i]? = some c) (cs : List Bytes) (rest : Bytes) (hcut : CutInto c.received cs rest)
    (p : Bytes) (pid : Nat) (l : List ServiceDataRecord) (hd : DataPacket p pid l) (hn : NoResponses l) (hp : positions (subsOf l) ≠ [])
    (hu : ∀ y ∈ cs, word16At y 7 = pid → y = p) (b : Bytes)
    (hb : .wrote b ∈ (x.gate ss (worldAfter ss w before)).doneFor i) (hc : Confirms b pid) :
    ∃ r, r.LocStates = (positions (subsOf l)).map locOf ∧
      ∀ s ∈ ss, ∀ has, KeepsAll ss s has → has r (worldAfter ss w (before ++ x :: later)) := by
  obtain ⟨pre, post, hb⟩ := List.append_of_mem hb
  obtain ⟨r, hr, hl⟩ := confirmed_was_saved ss x.envs _ x.evs i c hi cs rest hcut p pid l hd hn hp hu pre b post hb hc
  have hm : ∀ d ∈ pre, (i, d) ∈ (Gate.run ss x.envs (worldAfter ss w before) x.evs).log := by
    intro d hd
    refine doneFor_mem ?_
    rw [show (Gate.run ss x.envs (worldAfter ss w before) x.evs).doneFor i = _ from hb]
    simp [hd]
  refine ⟨r, hl, fun s hs has hk => ?_⟩
  rcases hr with hr | hr
  · have h1 := saved_kept ss x.envs _ x.evs s hs has hk i r (hm _ hr)
    have h2 : worldAfter ss w (before ++ x :: later) = worldAfter ss (x.gate ss (worldAfter ss w before)).world later := by
      simp [worldAfter]
    rw [h2]
    exact lives_keep ss (has r) (fun t ht r' w h => hk.stays t ht r r' w h) _ later h1
  · exact absurd (hm _ hr) (none_refused ss x.envs _ x.evs hok i r)

/-- C122, progress: a session in which the packet arrives whole, no packet before it crashes the process, and the handler gets as far as it can, ends with a confirmation
of it. So a device that sends the packet again in each session until it is confirmed stops as soon as one session is good. -/
theorem good_session_confirms {W : Type} (ss : List (Saver W)) (envs : Nat → Env) (w : W) (evs : List Event) (i : Nat) (c : Conn W)
    (hi : (Gate.run ss envs w evs).conns[i]? = some c) (hs : Settled ss (envs i) c) (cs : List Bytes) (rest : Bytes) (hcut : CutInto c.received cs rest)
    (hno : ∀ x ∈ cs, ∀ spare, Package.decode {} x spare ≠ .panic) (p : Bytes) (hp : p ∈ cs) (pid : Nat)
    (l : List ServiceDataRecord) (hd : DataPacket p pid l) (hn : NoResponses l) :
    ∃ b, .wrote b ∈ (Gate.run ss envs w evs).doneFor i ∧ Confirms b pid := by
  have h1 := congrArg Prod.fst (isolation ss envs w evs i c hi hs)
  rw [stream_behaviour (envs i) c.tail [c.received] cs rest (by simpa using hcut)] at h1
  have key : ∀ (cs : List Bytes) (k : Nat), (∀ x ∈ cs, ∀ spare, Package.decode {} x spare ≠ .panic) → p ∈ cs →
      .write (ackBytes (UInt16.ofNat pid) l) ∈ (reactAll (envs i) c.tail rest k cs).1 := by
    intro cs
    induction cs with
    | nil => intro k _ h; cases h
    | cons x cs ih =>
      intro k hno hm
      rw [reactAll]
      cases hr : react ((envs i).now k) ((envs i).spare k) x with
      | none => exact absurd ((react_none_iff _ _ _).mp hr) (hno x (by simp) _)
      | some es =>
        simp only [List.mem_append]
        rcases List.mem_cons.mp hm with rfl | hm
        · left
          rw [react_data _ _ p pid l hd hn] at hr
          rw [← Option.some.inj hr]; simp
        · exact .inr (ih (k + 1) (fun y hy => hno y (by simp [hy])) hm)
  have h2 := key cs 0 hno hp
  rw [← h1] at h2
  obtain ⟨d, hm, he⟩ := List.mem_map.mp h2
  cases d with
  | wrote b =>
    cases he
    refine ⟨_, hm, ?_⟩
    obtain ⟨hdr, body, -, -, -, hh, -⟩ := hd
    have hlt : pid < 65536 := by
      rw [← hh.pid]; exact word16At_lt _ _
    have := answer_confirms_mk (UInt16.ofNat pid).toNat ((l.getLast?.map (·.SourceServiceType)).getD 0) (l.map fun r => r.RecordNumber.toNat) (UInt16.toNat_lt _)
    rw [UInt16.toNat_ofNat', Nat.mod_eq_of_lt hlt] at this
    unfold ackBytes
    rw [UInt16.toNat_ofNat', Nat.mod_eq_of_lt hlt]
    exact this
  | saved r => cases he
  | saveFailed r => cases he

omit P in
theorem streamTo_steps (i n : Nat) (b : Bytes) : streamTo i (.deliver i b :: List.replicate n (.step i)) = (b, .silent) := by
  have : streamTo i (List.replicate n (.step i)) = ([], .silent) := by
    induction n with
    | zero => rfl
    | succ n ih => rw [List.replicate_succ]; exact ih
  simp [streamTo, this]

/-- with a first storage that refuses everything nothing is saved -/
theorem none_saved {W : Type} (s : Saver W) (ss : List (Saver W)) (envs : Nat → Env) (w : W) (evs : List Event)
    (hno : ∀ r w, (s.save r w).1 ≠ .ok) (i : Nat) (r : NavRecord) : (i, .saved r) ∉ (Gate.run (s :: ss) envs w evs).log := by
  intro h
  have := (gate_rule (s :: ss) envs (fun ph _ => match ph with | .saving _ left _ => left = s :: ss | _ => True)
    (fun d _ => match d with | .saved _ => False | _ => True)
    (fun _ _ _ _ ph h => by cases ph <;> exact h) (fun _ _ _ _ d h => by cases d <;> exact h)
    (fun _ => trivial) (fun _ _ => trivial) (fun _ _ => trivial) (fun _ _ => trivial) (fun _ _ _ => rfl)
    (fun _ _ _ h => by cases h)
    (fun r t left l w _ h hok => by
      obtain ⟨rfl, rfl⟩ := List.cons.inj h
      exact absurd hok (hno r w))
    (fun _ _ _ _ _ _ _ _ _ => trivial) w evs).1 _ h
  exact this

/-- letting the only handler run changes neither what has arrived nor the number of connections -/
theorem steps_keep {W : Type} (ss : List (Saver W)) (envs : Nat → Env) (n : Nat) : ∀ (g : Gate W) (c : Conn W), g.conns = [c] →
    ∃ c', (g.steps ss envs 0 n).conns = [c'] ∧ c'.received = c.received ∧ c'.tail = c.tail := by
  induction n with
  | zero => intro g c h; exact ⟨c, h, rfl, rfl⟩
  | succ n ih =>
    intro g c h
    rw [steps_succ]
    cases hc : g.crashed with
    | true =>
      have : g.next ss envs (.step 0) = g := by unfold Gate.next; rw [if_pos hc]
      rw [this]; exact ih g c h
    | false =>
      have hcon : (g.next ss envs (.step 0)).conns = [(c.run ss (envs 0) g.world).1] := by
        rw [step_eq ss envs g 0 c hc (by rw [h]; rfl)]
        simp only [h, List.set_cons_zero]
      obtain ⟨h1, h2, -⟩ := run_keeps ss (envs 0) c g.world
      obtain ⟨c', h3, h4, h5⟩ := ih _ _ hcon
      exact ⟨c', h3, h4.trans h1, h5.trans h2⟩

/-- C122 is false of the code if storages may refuse: take storages that refuse every record and stay as they are. In the run in which a device connects, sends a packet with
a position and the handler does its work, the device gets its confirmation, although nothing has been saved and the outside world is as before. -/
theorem confirmed_but_lost {W : Type} (s : Saver W) (ss : List (Saver W)) (hno : ∀ t ∈ s :: ss, ∀ r w, ∃ e, t.save r w = (.err e, w)) (envs : Nat → Env) (w : W) :
    ∃ n b, let g := Gate.run (s :: ss) envs w (.accept :: .deliver 0 (fixPacket 9 1) :: List.replicate n (.step 0))
      .wrote b ∈ g.doneFor 0 ∧ Confirms b 9 ∧ (∀ i r, (i, .saved r) ∉ g.log) ∧ g.world = w := by
  have hdp := fixPacket_data (P := P) 9 1 49 (.inr ⟨rfl, rfl⟩)
  have hnr := exFix_noResponses (P := P) 49
  have htk : Taken (fixPacket 9 1) := framed_taken (data_packet_framed _ _ _ hdp)
  have hcut : CutInto [fixPacket 9 1].flatten [fixPacket 9 1] [] := ⟨by simp, by simpa using htk, .inl (by simp)⟩
  have hr := fun now spare => react_data now spare _ _ _ hdp hnr
  -- the run
  let g0 := Gate.run (s :: ss) envs w [.accept, .deliver 0 (fixPacket 9 1)]
  have h0 : g0.conns[0]? = some { received := fixPacket 9 1, unread := fixPacket 9 1 } := rfl
  obtain ⟨n, hn⟩ := handler_settles (s :: ss) envs g0 0 _ h0
  have hrun : g0.steps (s :: ss) envs 0 n =
      Gate.run (s :: ss) envs w (.accept :: .deliver 0 (fixPacket 9 1) :: List.replicate n (.step 0)) := rfl
  rw [hrun] at hn
  refine ⟨n, ackBytes (UInt16.ofNat 9) [exFixRecord 49], ?_⟩
  simp only
  generalize hg : Gate.run (s :: ss) envs w (.accept :: .deliver 0 (fixPacket 9 1) :: List.replicate n (.step 0)) = g at hn
  have hex : ∀ tail, tail = Tail.silent → reactAll (envs 0) tail [] 0 [fixPacket 9 1] =
      ([.save (exportOf ((envs 0).now 0) (UInt16.ofNat 9) [exFixRecord 49]), .write (ackBytes (UInt16.ofNat 9) [exFixRecord 49])], .waiting) := by
    rintro _ rfl
    simp only [reactAll]
    rw [hr]
    rfl
  have halive : g.crashed = false := by
    cases hcr : g.crashed with
    | false => rfl
    | true =>
      rw [← hg] at hcr
      rcases crash_has_cause (s :: ss) envs w _ hcr with ⟨i, c, hi, hcc⟩ | ⟨t, ht, r, w', hpn⟩
      · obtain ⟨c', h1, h2, h3⟩ := steps_keep (s :: ss) envs n g0 _ (show g0.conns = [{ received := fixPacket 9 1, unread := fixPacket 9 1 }] from rfl)
        rw [hrun] at h1
        rw [h1] at hi
        obtain ⟨rfl, rfl⟩ : i = 0 ∧ c' = c := by
          cases i with
          | zero => exact ⟨rfl, Option.some.inj hi⟩
          | succ i => simp at hi
        rw [h2, h3, stream_behaviour (envs 0) _ _ _ _ hcut, hex _ rfl] at hcc
        cases hcc
      · obtain ⟨e, he⟩ := hno t ht r w'
        rw [he] at hpn; cases hpn
  obtain ⟨c, hc, -, hset⟩ := every_client_served (s :: ss) envs w [] (.deliver 0 (fixPacket 9 1) :: List.replicate n (.step 0)) rfl (by rw [List.nil_append, hg]; exact halive) 0 rfl
  rw [List.nil_append, hg, streamTo_steps, stream_behaviour (envs 0) .silent _ _ _ hcut, hex _ rfl] at hset
  rw [List.nil_append, hg] at hc
  obtain ⟨c', hc', hst⟩ := hn.resolve_left (by simp [halive])
  rw [hc'] at hc
  obtain rfl := Option.some.inj hc
  have hdid := congrArg Prod.fst (hset hst)
  refine ⟨?_, ?_, ?_, ?_⟩
  · unfold Gate.did at hdid
    simp only at hdid
    have hm : Effect.write (ackBytes (UInt16.ofNat 9) [exFixRecord 49]) ∈ (g.doneFor 0).map Done.effect := by rw [hdid]; simp
    obtain ⟨d, hm, he⟩ := List.mem_map.mp hm
    cases d with
    | wrote b => cases he; exact hm
    | saved r => cases he
    | saveFailed r => cases he
  · exact answer_confirms_mk 9 _ _ (by decide)
  · intro i r
    rw [← hg]
    exact none_saved s ss envs w _ (fun r w h => by obtain ⟨e, he⟩ := hno s (by simp) r w; rw [he] at h; cases h) i r
  · have := lives_keep (s :: ss) (fun w' => w' = w) (fun t ht r w' h => by obtain ⟨e, he⟩ := hno t ht r w'; rw [he]; exact h) w
      [⟨envs, .accept :: .deliver 0 (fixPacket 9 1) :: List.replicate n (.step 0)⟩] rfl
    rw [← hg]; exact this

/-! ### a case that meets the hypotheses -/

/-- a storage that keeps a list of everything (test) -/
def listStorage : Saver (List NavRecord) := ⟨fun r w => (.ok, w ++ [r])⟩

omit P in
theorem listStorage_keeps : KeepsAll [listStorage] listStorage (fun r w => r ∈ w) :=
  ⟨fun r w _ => by simp [listStorage], fun t ht r r' w h => by
    obtain rfl := List.mem_singleton.mp ht
    simp [listStorage, h]⟩

/-- two runs of the process (test): in the first one the device connects, sends its packet and is killed together with the process after any number of steps; if it has
been confirmed by then, the position is in the list after the second run, whatever happened in it -/
example (envs : Nat → Env) (n : Nat) (second : Life) (c : Conn (List NavRecord))
    (hc : (Life.gate [listStorage] [] ⟨envs, .accept :: .deliver 0 (fixPacket 9 1) :: List.replicate n (.step 0)⟩).conns[0]? = some c) (b : Bytes)
    (hb : .wrote b ∈ (Life.gate [listStorage] [] ⟨envs, .accept :: .deliver 0 (fixPacket 9 1) :: List.replicate n (.step 0)⟩).doneFor 0) (h9 : Confirms b 9) :
    ∃ r ∈ worldAfter [listStorage] [] [⟨envs, .accept :: .deliver 0 (fixPacket 9 1) :: List.replicate n (.step 0)⟩, second], r.LocStates = [locOf (exFix 49)] := by
  have hdp := fixPacket_data (P := P) 9 1 49 (.inr ⟨rfl, rfl⟩)
  obtain ⟨c', h1, h2, -⟩ := steps_keep [listStorage] envs n (Gate.run [listStorage] envs [] [.accept, .deliver 0 (fixPacket 9 1)]) _
    (show _ = [{ received := fixPacket 9 1, unread := fixPacket 9 1 }] from rfl)
  have h3 : c.received = fixPacket 9 1 := by
    have : some c' = some c := by
      rw [← hc]
      show _ = ((Gate.run [listStorage] envs [] [.accept, .deliver 0 (fixPacket 9 1)]).steps [listStorage] envs 0 n).conns[0]?
      rw [h1]; rfl
    rw [← Option.some.inj this]; exact h2
  obtain ⟨r, hl, hk⟩ := confirmed_is_kept_partial [listStorage] (by simp [listStorage]) [] [] _ [second] 0 c hc [fixPacket 9 1] []
    (by rw [h3]; exact ⟨by simp, by simpa using framed_taken (data_packet_framed _ _ _ hdp), .inl (by simp)⟩) (fixPacket 9 1) 9 _ hdp (exFix_noResponses 49)
    (by simp [positions, subsOf, exFixRecord, SubData.pos?]) (by simp) b hb h9
  exact ⟨r, hk _ (by simp) _ listStorage_keeps, hl⟩

end Egts
