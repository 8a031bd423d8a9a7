import Verif.Model.Timer
import Verif.Props.Server2
set_option autoImplicit false
/- C48: idle connections. -/
namespace Egts
open Frame
variable [P : Platform]

omit P in
theorem conn_flatten (b : Bytes) : [b].flatten = b := by simp

def TimedRead.untimed : TimedRead → ReadOut
  | .full _ b rest => .full b (rest.map (·.2))
  | .eof _ => .eof
  | .failed _ => .failed
  | .blocked => .blocked

omit P in
theorem readFullAt_untimed (tail : TimedTail) (now : Int) (n : Nat) (acc : Bytes) (chunks : List (Int × Bytes)) :
    (readFullAt tail now n acc chunks).untimed = readFull tail.tail n acc (chunks.map (·.2)) := by
  induction chunks generalizing now n acc with
  | nil =>
    cases n with
    | zero => rfl
    | succ n =>
      cases tail with
      | eof t => simp only [readFullAt, readFull, TimedTail.tail, List.map_nil]; split <;> rfl
      | error t => rfl
      | silent => rfl
  | cons x rest ih =>
    obtain ⟨t, ch⟩ := x
    cases n with
    | zero => rfl
    | succ n =>
      simp only [readFullAt, readFull, List.map_cons]
      split
      · rfl
      · exact ih _ _ _

def TimedRecv.untimed : TimedRecv → Recv
  | .packet _ c rest => .packet c (rest.map (·.2))
  | .stop e _ => .stop e

omit P in
theorem recvPacketAt_untimed (ttl : Int) (tail : TimedTail) (t0 : Int) (chunks : List (Int × Bytes)) :
    (recvPacketAt ttl tail t0 chunks).untimed = recvPacket tail.tail (chunks.map (·.2)) := by
  unfold recvPacketAt recvPacket
  rw [← readFullAt_untimed tail t0]
  cases readFullAt tail t0 10 [] chunks with
  | eof t => rfl
  | failed t => rfl
  | blocked => rfl
  | full t hdr rest =>
    simp only [TimedRead.untimed]
    split
    · rfl
    · rw [← readFullAt_untimed tail t]
      cases readFullAt tail t (restLen hdr).toNat [] rest <;> rfl

/-- the timed handler does what the handler does; the time has no influence on the replies, the records and the way the
connection ends -/
theorem timed_agrees (ttl : Int) (delay : Nat → Nat) (env : Env) (tail : TimedTail) (start : Int) (chunks : List (Int × Bytes)) :
    (handleConnAt ttl delay env tail start chunks).1 = (handleConn env true tail.tail (chunks.map (·.2))).1 ∧
    (handleConnAt ttl delay env tail start chunks).2.e = (handleConn env true tail.tail (chunks.map (·.2))).2 := by
  unfold handleConnAt handleConn
  rw [if_pos rfl]
  generalize (chunks.map (·.2)).flatten.length + 1 = fuel
  generalize (0 : Nat) = k
  generalize ({} : LoopVars) = v
  induction fuel generalizing start k v chunks with
  | zero => exact ⟨rfl, rfl⟩
  | succ fuel ih =>
    simp only [connLoopAt, connLoop]
    rw [← recvPacketAt_untimed ttl tail start]
    cases recvPacketAt ttl tail start chunks with
    | stop e t => exact ⟨rfl, rfl⟩
    | packet t c rest =>
      simp only [TimedRecv.untimed]
      cases handlePacket (env.now k) (env.spare k) v.reset c with
      | panic => exact ⟨rfl, rfl⟩
      | diverge => exact ⟨rfl, rfl⟩
      | done l v' =>
        simp only
        obtain ⟨h1, h2⟩ := ih (t + delay k) rest (k + 1) v'
        exact ⟨by rw [h1], h2⟩

omit P in
/-- reading at the end of the connection, when every piece that arrived has at least one byte -/
theorem readFullAt_eof {tail : TimedTail} {now t : Int} {n : Nat} {chunks : List (Int × Bytes)} (hne : ∀ x ∈ chunks, x.2 ≠ [])
    (h : readFullAt tail now n [] chunks = .eof t) : ∃ te, tail = .eof te ∧ chunks = [] ∧ t = max now te := by
  have hacc : ∀ (chunks : List (Int × Bytes)) (now : Int) (n : Nat) (acc : Bytes), acc ≠ [] → readFullAt tail now n acc chunks ≠ .eof t := by
    intro chunks
    induction chunks with
    | nil =>
      intro now n acc ha
      cases n with
      | zero => simp [readFullAt]
      | succ n => cases tail <;> simp [readFullAt, ha]
    | cons x rest ih =>
      intro now n acc ha
      obtain ⟨t', ch⟩ := x
      cases n with
      | zero => simp [readFullAt]
      | succ n =>
        simp only [readFullAt]
        split
        · simp
        · exact ih _ _ _ (by simp [ha])
  cases n with
  | zero => simp [readFullAt] at h
  | succ n =>
    cases chunks with
    | nil =>
      cases tail with
      | eof te =>
        simp only [readFullAt, if_true] at h
        injection h with h
        exact ⟨te, rfl, rfl, h.symm⟩
      | error te => simp [readFullAt] at h
      | silent => simp [readFullAt] at h
    | cons x rest =>
      obtain ⟨t', ch⟩ := x
      simp only [readFullAt] at h
      split at h
      · cases h
      · exact absurd h (hacc _ _ _ _ (by simpa using hne _ List.mem_cons_self))

omit P in
theorem readFullAt_full {tail : TimedTail} {now t : Int} {n : Nat} {acc b : Bytes} {chunks rest : List (Int × Bytes)}
    (h : readFullAt tail now n acc chunks = .full t b rest) (hne : ∀ x ∈ chunks, x.2 ≠ []) :
    now ≤ t ∧ ∀ x ∈ rest, x.2 ≠ [] := by
  induction chunks generalizing now n acc with
  | nil =>
    cases n with
    | zero => simp only [readFullAt] at h; injection h with h1 h2 h3; subst h1 h3; exact ⟨le_refl _, by simp⟩
    | succ n => cases tail <;> simp only [readFullAt] at h <;> (try split at h) <;> cases h
  | cons x chunks ih =>
    obtain ⟨t', ch⟩ := x
    cases n with
    | zero => simp only [readFullAt] at h; injection h with h1 h2 h3; subst h1 h3; exact ⟨le_refl _, hne⟩
    | succ n =>
      simp only [readFullAt] at h
      split at h
      · rename_i hlt
        injection h with h1 h2 h3
        subst h1 h3
        refine ⟨le_max_left _ _, ?_⟩
        intro x hx
        rcases List.mem_cons.mp hx with rfl | hx
        · intro h0
          have := congrArg List.length h0
          simp at this
          omega
        · exact hne x (List.mem_cons_of_mem _ hx)
      · obtain ⟨h1, h2⟩ := ih h fun x hx => hne x (List.mem_cons_of_mem _ hx)
        exact ⟨le_trans (le_max_left _ _) h1, h2⟩

/-- C48 (partial), the exact moment: a connection whose peer has closed it between two packets, at `te`, is closed by the
server when both the peer has closed it and ttl has passed since the server began to wait for the next packet. Missing: a peer that is
merely silent, `idle_never_closed`. -/
theorem eof_closed_partial (ttl : Int) (delay : Nat → Nat) (env : Env) (tail : TimedTail) (start : Int) (chunks : List (Int × Bytes))
    (hne : ∀ x ∈ chunks, x.2 ≠ []) (h : (handleConnAt ttl delay env tail start chunks).2.e = .closedByTimer) :
    ∃ te, tail = .eof te ∧ start ≤ (handleConnAt ttl delay env tail start chunks).2.since ∧
      (handleConnAt ttl delay env tail start chunks).2.closed =
        some (max (max (handleConnAt ttl delay env tail start chunks).2.since te)
          ((handleConnAt ttl delay env tail start chunks).2.since + ttl)) := by
  revert h
  unfold handleConnAt
  generalize (chunks.map (·.2)).flatten.length + 1 = fuel
  generalize (0 : Nat) = k
  generalize ({} : LoopVars) = v
  induction fuel generalizing start k v chunks with
  | zero => intro h; cases h
  | succ fuel ih =>
    simp only [connLoopAt]
    cases hr : recvPacketAt ttl tail start chunks with
    | stop e t =>
      intro h
      simp only at h ⊢
      subst h
      unfold recvPacketAt at hr
      simp only at hr
      cases hf : readFullAt tail start 10 [] chunks with
      | eof t' =>
        rw [hf] at hr
        injection hr with _ hr
        obtain ⟨te, h1, -, h3⟩ := readFullAt_eof hne hf
        exact ⟨te, h1, le_refl _, by rw [← hr, h3]⟩
      | failed t' => rw [hf] at hr; injection hr with hr; cases hr
      | blocked => rw [hf] at hr; injection hr with hr; cases hr
      | full t' hdr rest =>
        rw [hf] at hr
        simp only at hr
        split at hr
        · injection hr with hr; cases hr
        · split at hr
          all_goals first | cases hr | (injection hr with hr; cases hr)
    | packet t c rest =>
      have ht : start ≤ t ∧ ∀ x ∈ rest, x.2 ≠ [] := by
        unfold recvPacketAt at hr
        simp only at hr
        cases hf : readFullAt tail start 10 [] chunks with
        | eof t' => rw [hf] at hr; cases hr
        | failed t' => rw [hf] at hr; cases hr
        | blocked => rw [hf] at hr; cases hr
        | full t' hdr rest' =>
          rw [hf] at hr
          simp only at hr
          obtain ⟨h1, h2⟩ := readFullAt_full hf hne
          split at hr
          · cases hr
          · split at hr
            · rename_i t'' buf rest'' hf2
              injection hr with hr1 hr2 hr3
              subst hr1 hr3
              obtain ⟨h3, h4⟩ := readFullAt_full hf2 h2
              exact ⟨le_trans h1 h3, h4⟩
            · cases hr
            · cases hr
            · cases hr
      simp only
      cases handlePacket (env.now k) (env.spare k) v.reset c with
      | panic => intro h; cases h
      | diverge => intro h; cases h
      | done l v' =>
        intro h
        obtain ⟨te, h1, h2, h3⟩ := ih (t + delay k) rest ht.2 (k + 1) v' h
        exact ⟨te, h1, by have := ht.1; simp only; omega, h3⟩

/-- C48 is false of the code: for every ttl, a client that sends nothing at all, or any number of complete packets (at any
moments, in any pieces) and then nothing more, is never disconnected. -/
theorem idle_never_closed (ttl : Int) (delay : Nat → Nat) (env : Env) (start : Int) (chunks : List (Int × Bytes)) (cs : List Bytes)
    (hcs : (chunks.map (·.2)).flatten = cs.flatten) (hf : ∀ c ∈ cs, Framed c)
    (hc : ∀ k (hk : k < cs.length), (handleConn (env.after k) true .silent [cs[k]]).2 = .waiting) :
    (handleConnAt ttl delay env .silent start chunks).2.e = .waiting ∧
    (handleConnAt ttl delay env .silent start chunks).2.closed = none := by
  have he : (handleConnAt ttl delay env .silent start chunks).2.e = .waiting := by
    rw [(timed_agrees ttl delay env .silent start chunks).2]
    have := packets_independent env .silent cs [] hf hc
    rw [List.append_nil] at this
    rw [handleConn_serve] at this ⊢
    rw [conn_flatten] at this
    show (serve env .silent 0 {} _).2 = _
    rw [hcs, this]
    simp only [handleConn_serve]
    exact congrArg Prod.snd (serve_silent _ _ _)
  refine ⟨he, ?_⟩
  revert he
  unfold handleConnAt
  generalize (chunks.map (·.2)).flatten.length + 1 = fuel
  generalize (0 : Nat) = k
  generalize ({} : LoopVars) = v
  clear hcs
  induction fuel generalizing start k v chunks with
  | zero => intro h; cases h
  | succ fuel ih =>
    simp only [connLoopAt]
    cases hr : recvPacketAt ttl .silent start chunks with
    | stop e t =>
      intro h
      simp only at h ⊢
      subst h
      unfold recvPacketAt at hr
      simp only at hr
      split at hr
      · injection hr with hr; cases hr
      · injection hr with hr; cases hr
      · injection hr with _ hr; exact hr.symm
      · split at hr
        · injection hr with hr; cases hr
        · split at hr
          · cases hr
          · injection hr with _ hr; exact hr.symm
          · injection hr with hr; cases hr
          · injection hr with hr; cases hr
    | packet t c rest =>
      simp only
      cases handlePacket (env.now k) (env.spare k) v.reset c with
      | panic => intro h; cases h
      | diverge => intro h; cases h
      | done l v' => exact ih (t + delay k) rest (k + 1) v'

/-- a client that connects and sends nothing, ttl one second (test of `idle_never_closed`) -/
example (env : Env) : (handleConnAt 1000000000 (fun _ => 0) env .silent 0 []).2.closed = none := rfl

/-- a client that connects at 0, sends nothing and disconnects after 3 s, ttl 10 s: the server keeps the connection until 10 s
(test of `eof_closed_partial`) -/
example (env : Env) : (handleConnAt 10000000000 (fun _ => 0) env (.eof 3000000000) 0 []).2.closed = some 10000000000 := rfl

end Egts
