import Verif.Props.Fair
import Verif.Props.Resend
set_option autoImplicit false
/- C123: how many turns a handler needs. -/
namespace Egts
open Frame
variable [P : Platform]

/-- the number of turns that one packet can cost, with `n` storages: reading it, finishing it, and for each of at most three actions (save, confirm, authorisation
result) its beginning, its end and one turn per storage -/
def packetTurns (n : Nat) : Nat := 3 * (n + 2) + 2

/-- at most three actions are due for a packet -/
theorem handle_few (now spare c : Bytes) (v v' : LoopVars) (l : List Effect) (h10 : 10 ≤ c.length) (h : handlePacket now spare v.reset c = .done l v') : l.length ≤ 3 := by
  have h1 := handlePacket_indep now spare c v {}
  rw [h, react_eq now spare c h10] at h1
  cases hr : react now spare c with
  | none => rw [hr] at h1; simp [Handled.seen] at h1
  | some es =>
    rw [hr] at h1
    simp only [Handled.seen] at h1
    injection h1 with h1
    subst h1
    unfold react at hr
    cases hd : Package.decode {} c spare with
    | panic => rw [hd] at hr; cases hr
    | diverge => rw [hd] at hr; cases hr
    | ret code e p =>
      rw [hd] at hr
      cases e with
      | some e => obtain rfl := (Option.some.inj hr).symm; simp
      | none =>
        simp only at hr
        split at hr
        · split at hr
          · obtain rfl := (Option.some.inj hr).symm; simp
          · obtain rfl := (Option.some.inj hr).symm
            simp only [List.length_append]
            split <;> split <;> simp
        · obtain rfl := (Option.some.inj hr).symm; simp

/-- ten times a bound for the turns that are still needed -/
def Conn.weight {W : Type} (n : Nat) (c : Conn W) : Nat :=
  10 * c.phase.size n + packetTurns n * c.unread.length + (match c.phase with | .ended _ => 0 | _ => 10)

/-- a turn of a handler that has something to do brings it nearer to its end -/
theorem run_less {W : Type} (ss : List (Saver W)) (env : Env) (c : Conn W) (w : W) :
    Settled ss env c ∨ (c.run ss env w).2.2.2 = true ∨ (c.run ss env w).1.weight ss.length + 10 ≤ c.weight ss.length := by
  obtain ⟨received, unread, tail, vars, count, phase⟩ := c
  cases phase with
  | ended e => exact .inl fun w => rfl
  | idle =>
    cases hr : recvPacket tail [unread] with
    | stop e =>
      by_cases he : e = .waiting
      · subst he
        exact .inl fun w => by simp [Conn.run, hr]
      · have hrun : (Conn.run ss env ⟨received, unread, tail, vars, count, .idle⟩ w) =
            (⟨received, unread, tail, vars, count, .ended e⟩, [], w, false) := by
          simp only [Conn.run, hr]
        rw [hrun]
        right; right
        simp [Conn.weight, Phase.size]
    | packet p rest =>
      have hlen : 10 ≤ p.length ∧ unread.length = p.length + rest.flatten.length := by
        rcases recv_eq tail [unread] with ⟨e, h1, h2⟩ | ⟨p', rest', h1, h2⟩
        · rw [hr] at h1; cases h1
        · rw [hr] at h1
          injection h1 with h1 h3
          subst h1 h3
          obtain ⟨hp, he⟩ := streamRecv_length h2
          rw [conn_stream] at he
          rw [he, List.length_append]
          exact ⟨hp, rfl⟩
      have hk : packetTurns ss.length * 10 + packetTurns ss.length * rest.flatten.length ≤ packetTurns ss.length * unread.length := by
        rw [hlen.2, Nat.mul_add]
        exact Nat.add_le_add_right (Nat.mul_le_mul_left _ hlen.1) _
      cases hp : handlePacket (env.now count) (env.spare count) vars.reset p with
      | panic => right; left; simp [Conn.run, hr, hp]
      | diverge =>
        have hrun : (Conn.run ss env ⟨received, unread, tail, vars, count, .idle⟩ w) =
            (⟨received, unread, tail, vars, count, .ended .diverged⟩, [], w, false) := by
          simp only [Conn.run, hr, hp]
        rw [hrun]
        right; right
        simp [Conn.weight, Phase.size]
      | done l v =>
        have hrun : (Conn.run ss env ⟨received, unread, tail, vars, count, .idle⟩ w) =
            (⟨received, rest.flatten, tail, v, count + 1, .acting l⟩, [], w, false) := by
          simp only [Conn.run, hr, hp]
        rw [hrun]
        right; right
        have h3 := Nat.mul_le_mul_left (ss.length + 2) (handle_few _ _ _ _ _ _ hlen.1 hp)
        simp only [Conn.weight, Phase.size]
        unfold packetTurns at hk ⊢
        omega
  | acting l =>
    right; right
    cases l with
    | nil => simp only [Conn.run, Conn.weight, Phase.size, List.length_nil]; omega
    | cons e l =>
      cases e with
      | write b => simp only [Conn.run, Conn.weight, Phase.size, List.length_cons, Nat.mul_add]; omega
      | save r => simp only [Conn.run, Conn.weight, Phase.size, List.length_cons, Nat.mul_add]; omega
  | saving r left l =>
    right
    cases left with
    | nil => right; simp only [Conn.run, Conn.weight, Phase.size, List.length_nil]; omega
    | cons s left =>
      rcases hsv : s.save r w with ⟨_ | _ | _, w1⟩
      · right; simp only [Conn.run, hsv, Conn.weight, Phase.size, List.length_cons]; omega
      · right; simp only [Conn.run, hsv, Conn.weight, Phase.size, List.length_cons]; omega
      · left; simp only [Conn.run, hsv]

/-- a turn never adds anything -/
theorem run_le {W : Type} (ss : List (Saver W)) (env : Env) (c : Conn W) (w : W) : (c.run ss env w).1.weight ss.length ≤ c.weight ss.length := by
  by_cases hd : (c.run ss env w).2.2.2 = true
  · have : (c.run ss env w).1 = c := by
      obtain ⟨received, unread, tail, vars, count, phase⟩ := c
      revert hd
      cases phase with
      | ended e => exact fun _ => rfl
      | idle =>
        simp only [Conn.run]
        cases recvPacket tail [unread] with
        | stop e => cases e <;> simp
        | packet p rest =>
          simp only
          cases handlePacket (env.now count) (env.spare count) vars.reset p <;> simp
      | acting l => rcases l with _ | ⟨_ | _, l⟩ <;> simp [Conn.run]
      | saving r left l =>
        cases left with
        | nil => simp [Conn.run]
        | cons s left => simp only [Conn.run]; rcases s.save r w with ⟨_ | _ | _, w1⟩ <;> simp
    rw [this]
  · rcases run_less ss env c w with h | h | h
    · rw [h w]
    · exact absurd h hd
    · omega

/-- in every state the turns still needed are bounded by what has arrived -/
theorem weight_bound {W : Type} (ss : List (Saver W)) (envs : Nat → Env) (w : W) (evs : List Event) :
    ∀ c ∈ (Gate.run ss envs w evs).conns, c.weight ss.length ≤ packetTurns ss.length * c.received.length + 10 := by
  have all : ∀ (evs : List Event) (g : Gate W), (∀ c ∈ g.conns, c.weight ss.length ≤ packetTurns ss.length * c.received.length + 10) →
      ∀ c ∈ (evs.foldl (Gate.next ss envs) g).conns, c.weight ss.length ≤ packetTurns ss.length * c.received.length + 10 := by
    intro evs
    induction evs with
    | nil => intro g h; exact h
    | cons ev evs ih =>
      intro g h
      refine ih _ ?_
      unfold Gate.next
      split
      · exact h
      cases ev with
      | accept =>
        simp only
        split
        · exact h
        · intro c hc
          rcases List.mem_append.mp hc with hc | hc
          · exact h c hc
          · obtain rfl := List.mem_singleton.mp hc
            simp [Conn.weight, Phase.size]
      | stop => exact h
      | deliver i b =>
        simp only
        split
        · exact h
        · rename_i c hi
          split
          · intro x hx
            rcases List.mem_or_eq_of_mem_set hx with hx | rfl
            · exact h x hx
            · have := h c (List.mem_of_getElem? hi)
              simp only [Conn.weight, List.length_append, Nat.mul_add] at this ⊢
              omega
          · exact h
      | finish i t =>
        simp only
        split
        · exact h
        · rename_i c hi
          split
          · intro x hx
            rcases List.mem_or_eq_of_mem_set hx with hx | rfl
            · exact h x hx
            · exact h c (List.mem_of_getElem? hi)
          · exact h
      | step i =>
        simp only
        split
        · exact h
        · rename_i c hi
          intro x hx
          rcases List.mem_or_eq_of_mem_set hx with hx | rfl
          · exact h x hx
          · rw [(run_keeps ss (envs i) c g.world).1]
            exact (run_le ss (envs i) c g.world).trans (h c (List.mem_of_getElem? hi))
  exact all evs _ (by simp)

/-- nothing more comes for connection `i` -/
def Quiet (i : Nat) (evs : List Event) : Prop := ∀ ev ∈ evs, (∀ b, ev ≠ .deliver i b) ∧ ∀ t, ev ≠ .finish i t

/-- the number of turns of handler `i` -/
def turnsOf (i : Nat) (evs : List Event) : Nat := (evs.filter fun | .step j => j == i | _ => false).length

theorem next_quiet {W : Type} (ss : List (Saver W)) (envs : Nat → Env) (g : Gate W) (ev : Event) (i : Nat) (c : Conn W)
    (hi : g.conns[i]? = some c) (hev : ev ≠ .step i) (hq : (∀ b, ev ≠ .deliver i b) ∧ ∀ t, ev ≠ .finish i t) : (g.next ss envs ev).conns[i]? = some c := by
  have hlt : i < g.conns.length := by
    by_contra hn
    rw [List.getElem?_eq_none (by omega)] at hi; cases hi
  unfold Gate.next
  split
  · exact hi
  cases ev with
  | accept =>
    simp only
    split
    · exact hi
    · simp only; rw [List.getElem?_append_left hlt]; exact hi
  | stop => exact hi
  | deliver j b =>
    have hj : j ≠ i := fun h => hq.1 b (by rw [h])
    simp only
    split
    · exact hi
    · split
      · simp only; rw [List.getElem?_set_ne hj]; exact hi
      · exact hi
  | finish j t =>
    have hj : j ≠ i := fun h => hq.2 t (by rw [h])
    simp only
    split
    · exact hi
    · split
      · simp only; rw [List.getElem?_set_ne hj]; exact hi
      · exact hi
  | step j =>
    have hj : j ≠ i := fun h => hev (by rw [h])
    simp only
    split
    · exact hi
    · simp only; rw [List.getElem?_set_ne hj]; exact hi

/-- enough turns, whatever the others do in between -/
theorem enough_turns {W : Type} (ss : List (Saver W)) (envs : Nat → Env) (i : Nat) (evs : List Event) : ∀ (g : Gate W) (c : Conn W), g.conns[i]? = some c →
    Quiet i evs → (Settled ss (envs i) c ∨ c.weight ss.length < 10 * turnsOf i evs + 10) →
    (evs.foldl (Gate.next ss envs) g).crashed = true ∨
    ∃ c', (evs.foldl (Gate.next ss envs) g).conns[i]? = some c' ∧ c'.received = c.received ∧ c'.tail = c.tail ∧ Settled ss (envs i) c' := by
  induction evs with
  | nil =>
    intro g c hi _ h
    refine .inr ⟨c, hi, rfl, rfl, ?_⟩
    rcases h with h | h
    · exact h
    · simp only [turnsOf, List.filter_nil, List.length_nil] at h
      rcases run_less ss (envs i) c g.world with h1 | h1 | h1
      · exact h1
      · exfalso
        -- a handler that could still die is not at its end
        obtain ⟨received, unread, tail, vars, count, phase⟩ := c
        cases phase with
        | ended e => simp [Conn.run] at h1
        | idle => simp [Conn.weight] at h
        | acting l => simp [Conn.weight] at h
        | saving r left l => simp [Conn.weight] at h
      · omega
  | cons ev evs ih =>
    intro g c hi hq h
    have hq' : Quiet i evs := fun e he => hq e (by simp [he])
    cases hcr : g.crashed with
    | true => exact .inl (by rw [stays_crashed ss envs _ g hcr]; exact hcr)
    | false =>
      by_cases hev : ev = .step i
      · subst hev
        have hlt : i < g.conns.length := by
          by_contra hn
          rw [List.getElem?_eq_none (by omega)] at hi; cases hi
        have hset : (g.next ss envs (.step i)).conns[i]? = some (c.run ss (envs i) g.world).1 := by
          rw [step_eq ss envs g i c hcr hi]
          simp [hlt]
        have hdie : (g.next ss envs (.step i)).crashed = (c.run ss (envs i) g.world).2.2.2 := by rw [step_eq ss envs g i c hcr hi]
        obtain ⟨k1, k2, -⟩ := run_keeps ss (envs i) c g.world
        rw [List.foldl_cons]
        rcases run_less ss (envs i) c g.world with h1 | h1 | h1
        · rw [h1 g.world] at hset
          exact ih _ c hset hq' (.inl h1)
        · left
          rw [stays_crashed ss envs _ _ (by rw [hdie]; exact h1), hdie]; exact h1
        · have h2 : Settled ss (envs i) (c.run ss (envs i) g.world).1 ∨ (c.run ss (envs i) g.world).1.weight ss.length < 10 * turnsOf i evs + 10 := by
            rcases h with h | h
            · rw [h g.world]; exact .inl h
            · right
              have : turnsOf i (.step i :: evs) = turnsOf i evs + 1 := by simp [turnsOf]
              omega
          rcases ih _ _ hset hq' h2 with h3 | ⟨c', h3, h4, h5, h6⟩
          · exact .inl h3
          · exact .inr ⟨c', h3, h4.trans k1, h5.trans k2, h6⟩
      · rw [List.foldl_cons]
        refine ih _ c (next_quiet ss envs g ev i c hi hev (hq ev (by simp))) hq' ?_
        have : turnsOf i (ev :: evs) = turnsOf i evs := by
          unfold turnsOf
          rw [List.filter_cons_of_neg]
          cases ev <;> simp
          intro hj; exact hev (by rw [hj])
        rw [this] at h
        exact h

/-- C123: let any history lead to a state in which `b` bytes have arrived on connection `i`, and let it go on in any way in which nothing more arrives on `i`. As soon as handler `i`
has had `(3 n + 8) b / 10 + 1` turns (`n` storages), it has done exactly what is due for these bytes and waits or has returned (or the process has died, C46, C53). No other
connection, and nothing that arrived on them, changes the bound. -/
theorem served_in_bounded_turns {W : Type} (ss : List (Saver W)) (envs : Nat → Env) (w : W) (before after : List Event) (i : Nat) (c : Conn W)
    (hi : (Gate.run ss envs w before).conns[i]? = some c) (hq : Quiet i after)
    (hn : (3 * ss.length + 8) * c.received.length / 10 + 1 ≤ turnsOf i after) :
    (Gate.run ss envs w (before ++ after)).crashed = true ∨
    ∃ c', (Gate.run ss envs w (before ++ after)).conns[i]? = some c' ∧ c'.received = c.received ∧ c'.tail = c.tail ∧
      ((Gate.run ss envs w (before ++ after)).did i, c'.state) = handleConn (envs i) true c.tail [c.received] := by
  have hfold : Gate.run ss envs w (before ++ after) = after.foldl (Gate.next ss envs) (Gate.run ss envs w before) := by simp [Gate.run]
  have hb := weight_bound ss envs w before c (List.mem_of_getElem? hi)
  have hk : packetTurns ss.length = 3 * ss.length + 8 := by unfold packetTurns; omega
  rw [hk] at hb
  rcases enough_turns ss envs i after _ c hi hq (.inr (by omega)) with h | ⟨c', h1, h2, h3, h4⟩
  · left; rw [hfold]; exact h
  · right
    rw [← hfold] at h1
    refine ⟨c', h1, h2, h3, ?_⟩
    rw [isolation ss envs w (before ++ after) i c' h1 h4, h2, h3]

/-- the bound of a packet of 44 bytes and one storage (test) -/
example : (3 * 1 + 8) * (fixPacket 9 1).length / 10 + 1 = 49 ∧ (fixPacket 9 1).length = 44 := by
  constructor <;> rfl

/-- a case (test): two clients; the first one sends one packet; the second one sends any bytes `x` again and again and gets twice as many turns. After 49 turns of the first
handler its packet is stored and confirmed, or the process has died -/
example {W : Type} (s : Saver W) (envs : Nat → Env) (w : W) (x : Bytes) :
    let evs := [Event.accept, .accept, .deliver 0 (fixPacket 9 1)] ++ (List.replicate 49 [Event.deliver 1 x, .step 1, .step 0, .step 1]).flatten
    (Gate.run [s] envs w evs).crashed = true ∨ (Gate.run [s] envs w evs).did 0 = (handleConn (envs 0) true .silent [fixPacket 9 1]).1 := by
  simp only
  have hq : Quiet 0 (List.replicate 49 [Event.deliver 1 x, .step 1, .step 0, .step 1]).flatten := by
    intro ev hev
    obtain ⟨l, hl, hev⟩ := List.mem_flatten.mp hev
    rw [List.eq_of_mem_replicate hl] at hev
    simp only [List.mem_cons, List.not_mem_nil, or_false] at hev
    rcases hev with rfl | rfl | rfl | rfl <;> simp
  have ht : turnsOf 0 (List.replicate 49 [Event.deliver 1 x, .step 1, .step 0, .step 1]).flatten = 49 := rfl
  rcases served_in_bounded_turns [s] envs w [.accept, .accept, .deliver 0 (fixPacket 9 1)] _ 0
    { received := fixPacket 9 1, unread := fixPacket 9 1 } rfl hq (by
      rw [ht]
      simp only [List.length_cons, List.length_nil, show (fixPacket 9 1).length = 44 from rfl]
      decide) with h | ⟨c', -, -, -, h⟩ <;> generalize Gate.run [s] envs w _ = g at h ⊢
  · exact .inl h
  · simp only at h
    generalize handleConn (envs 0) true .silent [fixPacket 9 1] = r at h ⊢
    rw [← h]
    exact .inr rfl

end Egts
