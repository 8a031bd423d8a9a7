import Verif.Lemmas.Gate
import Verif.Props.ServerEx
set_option autoImplicit false
/- C47 and C49: any number of connections, any schedule, shared storages. -/
namespace Egts
open Frame
variable [P : Platform]

omit P in
theorem conn_stream (b : Bytes) : [b].flatten = b := by simp

/-! ### C47 -/

theorem settled_cases {W : Type} {ss : List (Saver W)} {env : Env} {c : Conn W} (h : Settled ss env c) (w : W) :
    (∃ e, c.phase = .ended e) ∨ (c.phase = .idle ∧ recvPacket c.tail [c.unread] = .stop .waiting) := by
  have hw := h w
  obtain ⟨received, unread, tail, vars, count, phase⟩ := c
  cases phase with
  | ended e => exact .inl ⟨e, rfl⟩
  | idle =>
    right
    refine ⟨rfl, ?_⟩
    simp only [Conn.run] at hw ⊢
    cases hr : recvPacket tail [unread] with
    | stop e =>
      rw [hr] at hw
      cases e <;> simp_all
    | packet p rest =>
      rw [hr] at hw
      simp only at hw
      split at hw <;> simp at hw
  | acting l =>
    exfalso
    cases l with
    | nil => simp [Conn.run] at hw
    | cons e l => cases e <;> simp [Conn.run] at hw
  | saving r left l =>
    exfalso
    cases left with
    | nil => simp [Conn.run] at hw
    | cons s left =>
      rcases hsv : s.save r w with ⟨_ | _ | _, w1⟩ <;> simp [Conn.run, hsv] at hw

/-- C47, at every moment of every history: what has been done for connection `i` (packets sent to it, records given to the
storages, in this order) is the beginning of what a handler does that serves this connection alone and has received the same
bytes, whatever the other connections do, however the handlers are scheduled and whatever the storages answer. -/
theorem isolation_prefix {W : Type} (ss : List (Saver W)) (envs : Nat → Env) (w : W) (evs : List Event) (i : Nat) (c : Conn W)
    (hc : (Gate.run ss envs w evs).conns[i]? = some c) :
    (Gate.run ss envs w evs).did i <+: (handleConn (envs i) true c.tail [c.received]).1 := by
  have h := (run_gate_inv ss envs w evs).conns i c hc
  rw [handleConn_serve, conn_stream]
  by_cases he : ∃ e, c.phase = .ended e
  · obtain ⟨e, he⟩ := he
    unfold ConnInv at h
    simp only [he] at h
    rw [h]
  · rw [connInv_open (fun e h => he ⟨e, h⟩)] at h
    have := h.2 [] c.tail
    rw [List.append_nil, List.append_nil] at this
    rw [this]
    simp [List.append_assoc]

/-- C47, when the handler of connection `i` has done what it can do: exactly the packets that a handler alone would send were
sent, exactly the records it would save were given to the storages, in the same order, and the connection is in the same
state. -/
theorem isolation {W : Type} (ss : List (Saver W)) (envs : Nat → Env) (w : W) (evs : List Event) (i : Nat) (c : Conn W)
    (hc : (Gate.run ss envs w evs).conns[i]? = some c) (hs : Settled ss (envs i) c) :
    ((Gate.run ss envs w evs).did i, c.state) = handleConn (envs i) true c.tail [c.received] := by
  have h := (run_gate_inv ss envs w evs).conns i c hc
  generalize (Gate.run ss envs w evs).did i = did at h
  rw [handleConn_serve, conn_stream]
  rcases settled_cases hs w with ⟨e, he⟩ | ⟨hi, hr⟩
  · unfold ConnInv at h
    simp only [he] at h
    rw [h]
    simp [Conn.state, he]
  · rw [connInv_open (by simp [hi])] at h
    have h0 := h.2 [] c.tail
    rw [List.append_nil, List.append_nil, hi] at h0
    rw [h0, serve_unfold]
    rcases recv_eq c.tail [c.unread] with ⟨e, h1, h2⟩ | ⟨p, rest, h1, h2⟩
    · rw [hr] at h1
      injection h1 with h1
      rw [conn_stream, ← h1] at h2
      rw [h2]
      simp [Conn.state, hi, Phase.pending]
    · rw [hr] at h1; cases h1

/-- C47: two histories, with different other connections, schedules, storages and storage contents, in which connection `i`
received the same bytes: when its handler has done what it can do, the same was done for it. -/
theorem isolation_equal {W W' : Type} (ss : List (Saver W)) (ss' : List (Saver W')) (envs envs' : Nat → Env) (w : W) (w' : W')
    (evs evs' : List Event) (i j : Nat) (c : Conn W) (c' : Conn W') (hc : (Gate.run ss envs w evs).conns[i]? = some c)
    (hc' : (Gate.run ss' envs' w' evs').conns[j]? = some c') (he : envs i = envs' j) (hr : c.received = c'.received)
    (ht : c.tail = c'.tail) (hs : Settled ss (envs i) c) (hs' : Settled ss' (envs' j) c') :
    (Gate.run ss envs w evs).did i = (Gate.run ss' envs' w' evs').did j ∧ c.state = c'.state := by
  have h1 := isolation ss envs w evs i c hc hs
  have h2 := isolation ss' envs' w' evs' j c' hc' hs'
  rw [he, hr, ht, ← h2] at h1
  exact Prod.mk.inj h1

/-- C47: the process dies only if one of the byte streams would crash a handler alone (C46), or if a storage panics (C53). -/
theorem crash_has_cause {W : Type} (ss : List (Saver W)) (envs : Nat → Env) (w : W) (evs : List Event)
    (h : (Gate.run ss envs w evs).crashed = true) :
    (∃ i c, (Gate.run ss envs w evs).conns[i]? = some c ∧ (handleConn (envs i) true c.tail [c.received]).2 = .crashed) ∨
    ∃ s ∈ ss, ∃ r w, (s.save r w).1 = .panic := by
  rcases (run_gate_inv ss envs w evs).crash h with ⟨i, c, h1, h2⟩ | h
  · exact .inl ⟨i, c, h1, by rw [handleConn_serve, conn_stream]; exact h2⟩
  · exact .inr h

/-- letting handler `i` run `n` times -/
def Gate.steps {W : Type} (ss : List (Saver W)) (envs : Nat → Env) (g : Gate W) (i n : Nat) : Gate W :=
  (List.replicate n (Event.step i)).foldl (Gate.next ss envs) g

theorem steps_succ {W : Type} (ss : List (Saver W)) (envs : Nat → Env) (g : Gate W) (i n : Nat) :
    g.steps ss envs i (n + 1) = (g.next ss envs (.step i)).steps ss envs i n := rfl

theorem step_eq {W : Type} (ss : List (Saver W)) (envs : Nat → Env) (g : Gate W) (i : Nat) (c : Conn W) (hc : g.crashed = false)
    (hi : g.conns[i]? = some c) :
    g.next ss envs (.step i) = { g with
      conns := g.conns.set i (c.run ss (envs i) g.world).1
      log := g.log ++ (c.run ss (envs i) g.world).2.1.map (fun d => (i, d))
      world := (c.run ss (envs i) g.world).2.2.1
      crashed := (c.run ss (envs i) g.world).2.2.2 } := by
  unfold Gate.next
  rw [if_neg (by simp [hc])]
  simp only [hi]

/-- a bound for the number of steps a handler needs to finish the actions it has begun -/
def Phase.size {W : Type} (n : Nat) : Phase W → Nat
  | .idle => 0
  | .acting l => 1 + (n + 2) * l.length
  | .saving _ left l => 2 + left.length + (n + 2) * l.length
  | .ended _ => 0

/-- C47: no handler can be kept from its work by the others: in every state, if handler `i` is allowed to run often enough, it
reaches a point where it has processed everything that has arrived (or the process dies). -/
theorem handler_settles {W : Type} (ss : List (Saver W)) (envs : Nat → Env) (g : Gate W) (i : Nat) (c : Conn W)
    (hi : g.conns[i]? = some c) :
    ∃ n, (g.steps ss envs i n).crashed = true ∨ ∃ c', (g.steps ss envs i n).conns[i]? = some c' ∧ Settled ss (envs i) c' := by
  suffices H : ∀ (m k : Nat) (g : Gate W) (c : Conn W), c.unread.length = m → c.phase.size ss.length = k → g.conns[i]? = some c →
      ∃ n, (g.steps ss envs i n).crashed = true ∨ ∃ c', (g.steps ss envs i n).conns[i]? = some c' ∧ Settled ss (envs i) c' from
    H _ _ g c rfl rfl hi
  intro m
  induction m using Nat.strong_induction_on with
  | _ m ihm =>
    intro k
    induction k using Nat.strong_induction_on with
    | _ k ihk =>
      intro g c hm hk hi
      cases hcr : g.crashed with
      | true => exact ⟨0, .inl hcr⟩
      | false =>
        have hlt : i < g.conns.length := by
          by_contra hn
          rw [List.getElem?_eq_none (by omega)] at hi; cases hi
        have hset : (g.next ss envs (.step i)).conns[i]? = some (c.run ss (envs i) g.world).1 := by
          rw [step_eq ss envs g i c hcr hi]
          simp [hlt]
        -- one more step
        have hmore : (∃ n, ((g.next ss envs (.step i)).steps ss envs i n).crashed = true ∨
              ∃ c', ((g.next ss envs (.step i)).steps ss envs i n).conns[i]? = some c' ∧ Settled ss (envs i) c') →
            ∃ n, (g.steps ss envs i n).crashed = true ∨ ∃ c', (g.steps ss envs i n).conns[i]? = some c' ∧ Settled ss (envs i) c' := by
          rintro ⟨n, hn⟩
          exact ⟨n + 1, by rw [steps_succ]; exact hn⟩
        obtain ⟨received, unread, tail, vars, count, phase⟩ := c
        cases phase with
        | ended e => exact ⟨0, .inr ⟨_, hi, fun w => rfl⟩⟩
        | idle =>
          cases hr : recvPacket tail [unread] with
          | stop e =>
            by_cases he : e = .waiting
            · subst he
              exact ⟨0, .inr ⟨_, hi, fun w => by simp [Conn.run, hr]⟩⟩
            · have hrun : (Conn.run ss (envs i) ⟨received, unread, tail, vars, count, .idle⟩ g.world) =
                  (⟨received, unread, tail, vars, count, .ended e⟩, [], g.world, false) := by
                simp only [Conn.run, hr]
              rw [hrun] at hset
              exact ⟨1, .inr ⟨_, hset, fun w => rfl⟩⟩
          | packet p rest =>
            have hlen : rest.flatten.length < unread.length := by
              rcases recv_eq tail [unread] with ⟨e, h1, h2⟩ | ⟨p', rest', h1, h2⟩
              · rw [hr] at h1; cases h1
              · rw [hr] at h1
                injection h1 with h1 h3
                subst h1 h3
                obtain ⟨hp, he⟩ := streamRecv_length h2
                rw [conn_stream] at he
                rw [he, List.length_append]
                omega
            cases hp : handlePacket ((envs i).now count) ((envs i).spare count) vars.reset p with
            | panic =>
              refine ⟨1, .inl ?_⟩
              show (g.next ss envs (.step i)).crashed = true
              rw [step_eq ss envs g i _ hcr hi]
              simp [Conn.run, hr, hp]
            | diverge =>
              have hrun : (Conn.run ss (envs i) ⟨received, unread, tail, vars, count, .idle⟩ g.world) =
                  (⟨received, unread, tail, vars, count, .ended .diverged⟩, [], g.world, false) := by
                simp only [Conn.run, hr, hp]
              rw [hrun] at hset
              exact ⟨1, .inr ⟨_, hset, fun w => rfl⟩⟩
            | done l v =>
              have hrun : (Conn.run ss (envs i) ⟨received, unread, tail, vars, count, .idle⟩ g.world) =
                  (⟨received, rest.flatten, tail, v, count + 1, .acting l⟩, [], g.world, false) := by
                simp only [Conn.run, hr, hp]
              rw [hrun] at hset
              exact hmore (ihm rest.flatten.length (by rw [← hm]; exact hlen) _ _ _ rfl rfl hset)
        | acting l =>
          apply hmore
          cases l with
          | nil =>
            simp only [Conn.run] at hset
            exact ihk 0 (by rw [← hk]; simp [Phase.size]) _ _ (by exact hm) rfl hset
          | cons e l =>
            cases e with
            | write b =>
              simp only [Conn.run] at hset
              refine ihk _ ?_ _ _ (by exact hm) rfl hset
              rw [← hk]
              simp only [Phase.size, List.length_cons, Nat.mul_add]
              omega
            | save r =>
              simp only [Conn.run] at hset
              refine ihk _ ?_ _ _ (by exact hm) rfl hset
              rw [← hk]
              simp only [Phase.size, List.length_cons, Nat.mul_add]
              omega
        | saving r left l =>
          cases left with
          | nil =>
            simp only [Conn.run] at hset
            refine hmore (ihk _ ?_ _ _ (by exact hm) rfl hset)
            rw [← hk]
            simp only [Phase.size, List.length_nil]
            omega
          | cons s left =>
            rcases hsv : s.save r g.world with ⟨_ | _ | _, w1⟩
            · simp only [Conn.run, hsv] at hset
              refine hmore (ihk _ ?_ _ _ (by exact hm) rfl hset)
              rw [← hk]
              simp only [Phase.size, List.length_cons]
              omega
            · simp only [Conn.run, hsv] at hset
              refine hmore (ihk _ ?_ _ _ (by exact hm) rfl hset)
              rw [← hk]
              simp only [Phase.size, List.length_cons]
              omega
            · refine ⟨1, .inl ?_⟩
              show (g.next ss envs (.step i)).crashed = true
              rw [step_eq ss envs g i _ hcr hi]
              simp [Conn.run, hsv]

/-! ### what `received` is -/

/-- the bytes that the events `evs` bring for connection `i` -/
def sentTo (i : Nat) (evs : List Event) : Bytes :=
  evs.flatMap fun
    | .deliver j b => if j = i then b else []
    | _ => []

theorem run_open {W : Type} (ss : List (Saver W)) (env : Env) (c : Conn W) (w : W) (h : (c.run ss env w).1.open = true) :
    c.open = true ∧ (c.run ss env w).1.received = c.received := by
  obtain ⟨received, unread, tail, vars, count, phase⟩ := c
  cases phase with
  | ended e => simp [Conn.run, Conn.open] at h
  | idle =>
    revert h
    simp only [Conn.run]
    cases hr : recvPacket tail [unread] with
    | stop e => cases e <;> simp [Conn.open]
    | packet p rest =>
      simp only
      cases handlePacket (env.now count) (env.spare count) vars.reset p <;> cases tail <;> simp [Conn.open]
  | acting l =>
    rcases l with _ | ⟨_ | _, l⟩ <;> cases tail <;> simp [Conn.run, Conn.open] at h ⊢
  | saving r left l =>
    rcases left with _ | ⟨s, left⟩
    · cases tail <;> simp [Conn.run, Conn.open] at h ⊢
    · rcases hsv : s.save r w with ⟨_ | _ | _, w1⟩ <;> cases tail <;> simp [Conn.run, Conn.open, hsv] at h ⊢

/-- one event and the connection `i` -/
theorem next_received {W : Type} (ss : List (Saver W)) (envs : Nat → Env) (g : Gate W) (ev : Event) (i : Nat) (c : Conn W)
    (hi : g.conns[i]? = some c) : ∃ c', (g.next ss envs ev).conns[i]? = some c' ∧
      ((g.next ss envs ev).crashed = false → c'.open = true → c.open = true ∧ c'.received = c.received ++ sentTo i [ev]) ∧
      (g.crashed = true → (g.next ss envs ev).crashed = true) := by
  have hlt : i < g.conns.length := by
    by_contra hn
    rw [List.getElem?_eq_none (by omega)] at hi; cases hi
  unfold Gate.next
  split
  · rename_i hc
    exact ⟨c, hi, by simp [hc], fun h => h⟩
  rename_i hc
  cases ev with
  | accept =>
    simp only
    split
    · exact ⟨c, hi, by simp [sentTo], fun h => absurd h hc⟩
    · refine ⟨c, ?_, by simp [sentTo], fun h => absurd h hc⟩
      rw [List.getElem?_append_left hlt]; exact hi
  | stop => exact ⟨c, hi, by simp [sentTo], fun h => absurd h hc⟩
  | deliver j b =>
    simp only
    by_cases hj : j = i
    · subst hj
      simp only [hi]
      split
      · rename_i ho
        refine ⟨{ c with received := c.received ++ b, unread := c.unread ++ b }, by simp [hlt], ?_, fun h => absurd h hc⟩
        intro _ _
        exact ⟨ho, by simp [sentTo]⟩
      · rename_i ho
        exact ⟨c, hi, fun _ h => absurd h ho, fun h => absurd h hc⟩
    · have hs : sentTo i [.deliver j b] = [] := by simp [sentTo, hj]
      rw [hs]
      split
      · exact ⟨c, hi, by simp, fun h => absurd h hc⟩
      · split
        · refine ⟨c, ?_, by simp, fun h => absurd h hc⟩
          simp only [List.getElem?_set, if_neg hj]; exact hi
        · exact ⟨c, hi, by simp, fun h => absurd h hc⟩
  | finish j t =>
    simp only
    have hs : sentTo i [.finish j t] = [] := by simp [sentTo]
    rw [hs]
    by_cases hj : j = i
    · subst hj
      simp only [hi]
      split
      · rename_i ho
        exact ⟨{ c with tail := t }, by simp [hlt], fun _ _ => ⟨ho, by simp⟩, fun h => absurd h hc⟩
      · exact ⟨c, hi, by simp, fun h => absurd h hc⟩
    · split
      · exact ⟨c, hi, by simp, fun h => absurd h hc⟩
      · split
        · refine ⟨c, ?_, by simp, fun h => absurd h hc⟩
          simp only [List.getElem?_set, if_neg hj]; exact hi
        · exact ⟨c, hi, by simp, fun h => absurd h hc⟩
  | step j =>
    simp only
    have hs : sentTo i [.step j] = [] := by simp [sentTo]
    rw [hs]
    by_cases hj : j = i
    · subst hj
      simp only [hi]
      refine ⟨(c.run ss (envs j) g.world).1, by simp [hlt], ?_, fun h => absurd h hc⟩
      intro _ ho
      obtain ⟨h1, h2⟩ := run_open ss (envs j) c g.world ho
      exact ⟨h1, by simpa using h2⟩
    · split
      · exact ⟨c, hi, by simp, fun h => absurd h hc⟩
      · refine ⟨c, ?_, by simp, fun h => absurd h hc⟩
        simp only [List.getElem?_set, if_neg hj]; exact hi

/-- The history of a connection really is what the network brought: as long as the connection is open and the process lives,
`received` is everything that was delivered to it since it was accepted, in order, whatever happened in between. -/
theorem received_all {W : Type} (ss : List (Saver W)) (envs : Nat → Env) (evs : List Event) (g : Gate W) (i : Nat) (c : Conn W)
    (hi : g.conns[i]? = some c) : ∃ c', (evs.foldl (Gate.next ss envs) g).conns[i]? = some c' ∧
      ((evs.foldl (Gate.next ss envs) g).crashed = false → c'.open = true →
        c.open = true ∧ c'.received = c.received ++ sentTo i evs) ∧
      (g.crashed = true → (evs.foldl (Gate.next ss envs) g).crashed = true) := by
  induction evs generalizing g c with
  | nil => exact ⟨c, hi, by simp [sentTo], fun h => h⟩
  | cons ev evs ih =>
    obtain ⟨c1, h1, h2, h3⟩ := next_received ss envs g ev i c hi
    obtain ⟨c2, h4, h5, h6⟩ := ih _ c1 h1
    refine ⟨c2, h4, ?_, fun h => h6 (h3 h)⟩
    intro hc ho
    obtain ⟨h7, h8⟩ := h5 hc ho
    have hn : (g.next ss envs ev).crashed = false := by
      cases hh : (g.next ss envs ev).crashed with
      | false => rfl
      | true => have := h6 hh; simp only [List.foldl_cons] at hc; rw [hc] at this; cases this
    obtain ⟨h9, h10⟩ := h2 hn h7
    refine ⟨h9, ?_⟩
    rw [h8, h10]
    simp [sentTo, List.append_assoc]

/-! ### C49 -/

/-- C49 is false of the code: whatever happens, before or after Stop, Run has not returned; and after Stop each further
iteration of its loop only logs an error. -/
theorem stop_does_not_end_run {W : Type} (ss : List (Saver W)) (envs : Nat → Env) (w : W) (evs : List Event) :
    (Gate.run ss envs w evs).running = true ∧
    ∀ n, (Gate.run ss envs w evs).crashed = false →
      ((List.replicate n Event.accept).foldl (Gate.next ss envs) ((Gate.run ss envs w evs).next ss envs .stop)).acceptErrors =
        (Gate.run ss envs w evs).acceptErrors + n := by
  have hrun : ∀ (g : Gate W) ev, g.running = true → (g.next ss envs ev).running = true := by
    intro g ev h
    unfold Gate.next
    cases ev <;> simp only <;> repeat' split
    all_goals first | exact h | rfl
  constructor
  · have : ∀ (evs : List Event) (g : Gate W), g.running = true → (evs.foldl (Gate.next ss envs) g).running = true := by
      intro evs
      induction evs with
      | nil => intro g h; exact h
      | cons ev evs ih => intro g h; exact ih _ (hrun g ev h)
    exact this evs _ rfl
  · intro n hc
    have : ∀ (n : Nat) (g : Gate W), g.crashed = false → g.stopped = true →
        ((List.replicate n Event.accept).foldl (Gate.next ss envs) g).acceptErrors = g.acceptErrors + n := by
      intro n
      induction n with
      | zero => intro g _ _; rfl
      | succ n ih =>
        intro g h1 h2
        have e : g.next ss envs .accept = { g with acceptErrors := g.acceptErrors + 1, running := true } := by
          unfold Gate.next; simp [h1, h2]
        rw [List.replicate_succ, List.foldl_cons, ih _ (by rw [e]; exact h1) (by rw [e]; exact h2), e]
        simp only
        omega
    rw [this n]
    · unfold Gate.next; simp [hc]
    · unfold Gate.next; simp [hc]
    · unfold Gate.next; simp [hc]

/-- C49 (partial): after Stop no connection is accepted any more; the handlers that are running go on. Missing: Run does not
return (`stop_does_not_end_run`). -/
theorem stop_no_new_connections_partial {W : Type} (ss : List (Saver W)) (envs : Nat → Env) (g : Gate W) (evs : List Event) :
    ((evs.foldl (Gate.next ss envs) (g.next ss envs .stop)).conns.length = g.conns.length) := by
  have : ∀ (evs : List Event) (g : Gate W), (g.crashed = true ∨ g.stopped = true) →
      (evs.foldl (Gate.next ss envs) g).conns.length = g.conns.length := by
    intro evs
    induction evs with
    | nil => intro g _; rfl
    | cons ev evs ih =>
      intro g h
      have h1 : (g.next ss envs ev).conns.length = g.conns.length ∧ ((g.next ss envs ev).crashed = true ∨ (g.next ss envs ev).stopped = true) := by
        unfold Gate.next
        split
        · exact ⟨rfl, h⟩
        · rename_i hc
          have hs : g.stopped = true := by rcases h with h | h; exact absurd h hc; exact h
          cases ev with
          | accept => simp [hs]
          | stop => simp
          | deliver i b =>
            simp only
            split
            · exact ⟨rfl, .inr hs⟩
            · split
              · exact ⟨by simp, .inr hs⟩
              · exact ⟨rfl, .inr hs⟩
          | finish i b =>
            simp only
            split
            · exact ⟨rfl, .inr hs⟩
            · split
              · exact ⟨by simp, .inr hs⟩
              · exact ⟨rfl, .inr hs⟩
          | step i =>
            simp only
            split
            · exact ⟨rfl, .inr hs⟩
            · exact ⟨by simp, .inr hs⟩
      rw [List.foldl_cons, ih _ h1.2, h1.1]
  rw [this evs _ (by unfold Gate.next; split <;> simp_all)]
  unfold Gate.next
  split <;> rfl

/-- non-trivial case for C47 (test): two clients send any packet, the first one in two pieces; whatever happens in
between, as soon as the handler of the first has processed what it has, it has been answered exactly as if it had been alone. -/
example {W : Type} (ss : List (Saver W)) (envs : Nat → Env) (w : W) (x : Bytes) (evs1 evs2 : List Event)
    (h1 : sentTo 0 evs1 = []) (h2 : sentTo 0 evs2 = []) (c : Conn W)
    (hc : (Gate.run ss envs w ([.accept, .accept, .deliver 1 x, .deliver 0 (x.take 20)] ++ evs1 ++
      [.deliver 0 (x.drop 20)] ++ evs2)).conns[0]? = some c) (hs : Settled ss (envs 0) c) (ho : c.open = true)
    (hl : (Gate.run ss envs w ([.accept, .accept, .deliver 1 x, .deliver 0 (x.take 20)] ++ evs1 ++
      [.deliver 0 (x.drop 20)] ++ evs2)).crashed = false) :
    ((Gate.run ss envs w ([.accept, .accept, .deliver 1 x, .deliver 0 (x.take 20)] ++ evs1 ++
      [.deliver 0 (x.drop 20)] ++ evs2)).did 0) = (handleConn (envs 0) true .silent [x]).1 := by
  have hev : [Event.accept, .accept, .deliver 1 x, .deliver 0 (x.take 20)] ++ evs1 ++ [.deliver 0 (x.drop 20)] ++ evs2
      = [.accept] ++ ([.accept, .deliver 1 x, .deliver 0 (x.take 20)] ++ evs1 ++ [.deliver 0 (x.drop 20)] ++ evs2) := by simp
  have hi := isolation ss envs w _ 0 c hc hs
  obtain ⟨c', h3, h4, -⟩ := received_all ss envs ([.accept, .deliver 1 x, .deliver 0 (x.take 20)] ++ evs1 ++
    [.deliver 0 (x.drop 20)] ++ evs2) (Gate.run ss envs w [.accept]) 0 {} rfl
  have hg : ∀ a b, Gate.run ss envs w (a ++ b) = b.foldl (Gate.next ss envs) (Gate.run ss envs w a) := by
    intro a b; simp [Gate.run]
  rw [← hg, ← hev] at h3 h4
  obtain rfl : c' = c := Option.some.inj (h3.symm.trans hc)
  obtain ⟨-, h5⟩ := h4 hl ho
  have h6 : c'.received = x := by
    rw [h5]
    simp only [sentTo, List.flatMap_append] at h1 h2 ⊢
    rw [h1, h2]
    simp
  have h7 : c'.tail = .silent := by
    clear hi hc h3 h4 hs h5 h6
    unfold Conn.open at ho
    cases ht : c'.tail with
    | silent => rfl
    | eof => rw [ht] at ho; split at ho <;> simp at *
    | error => rw [ht] at ho; split at ho <;> simp at *
  rw [h6, h7] at hi
  exact congrArg Prod.fst hi

end Egts
