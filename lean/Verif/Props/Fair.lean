import Verif.Props.GateStream
import Verif.Props.ServerEx
set_option autoImplicit false
/- C117: every client is served in the end, in every fair schedule, whatever the other clients do. -/
namespace Egts
open Frame
variable [P : Platform]

/-- the first `n` events of an infinite schedule -/
def upTo (sched : Nat → Event) (n : Nat) : List Event := (List.range n).map sched

/-- handler `i` is let run again and again -/
def FairTo (i : Nat) (sched : Nat → Event) : Prop := ∀ n, ∃ m, n ≤ m ∧ sched m = .step i

omit P in
theorem upTo_succ (sched : Nat → Event) (n : Nat) : upTo sched (n + 1) = upTo sched n ++ [sched n] := by
  simp [upTo, List.range_succ]

omit P in
theorem upTo_add (sched : Nat → Event) (n d : Nat) : ∃ l, upTo sched (n + d) = upTo sched n ++ l := by
  induction d with
  | zero => exact ⟨[], by simp⟩
  | succ d ih =>
    obtain ⟨l, h⟩ := ih
    exact ⟨l ++ [sched (n + d)], by rw [← Nat.add_assoc, upTo_succ, h, List.append_assoc]⟩

/-- the effects of a stream are a prefix of those of a longer one -/
theorem serve_prefix (env : Env) (t t' : Tail) (ext : Bytes) : ∀ (n k : Nat) (v : LoopVars) (s : Bytes), s.length ≤ n →
    (serve env t k v s).1 <+: (serve env t' k v (s ++ ext)).1 := by
  intro n
  induction n with
  | zero =>
    intro k v s hn
    have : s = [] := List.eq_nil_of_length_eq_zero (by omega)
    subst this
    rw [serve_unfold env t]
    simp [streamRecv]
  | succ n ih =>
    intro k v s hn
    rw [serve_unfold env t]
    cases hr : streamRecv t s with
    | inl e => simp
    | inr p =>
      obtain ⟨p, rest⟩ := p
      obtain ⟨hp, hs⟩ := streamRecv_length hr
      rw [serve_unfold env t', streamRecv_mono ext hr]
      simp only
      cases handlePacket (env.now k) (env.spare k) v.reset p with
      | panic => simp
      | diverge => simp
      | done l v' =>
        simp only
        rw [List.prefix_append_right_inj]
        refine ih _ _ _ ?_
        rw [hs, List.length_append] at hn
        omega

omit P in
theorem streamTo_append (i : Nat) (a b : List Event) :
    ((streamTo i a).2 = .silent ∧ ∃ ext, (streamTo i (a ++ b)).1 = (streamTo i a).1 ++ ext) ∨
    ((streamTo i a).2 ≠ .silent ∧ streamTo i (a ++ b) = streamTo i a) := by
  induction b using List.reverseRecOn with
  | nil =>
    by_cases h : (streamTo i a).2 = .silent
    · exact .inl ⟨h, [], by simp⟩
    · exact .inr ⟨h, by simp⟩
  | append_singleton b ev ih =>
    rw [← List.append_assoc, streamTo_snoc]
    rcases ih with ⟨h1, ext, h2⟩ | ⟨h1, h2⟩
    · refine .inl ⟨h1, ?_⟩
      split
      · exact ⟨ext ++ (streamTo i [ev]).1, by simp [h2]⟩
      · exact ⟨ext, h2⟩
    · refine .inr ⟨h1, ?_⟩
      rw [h2, if_neg h1]

/-- what is done for a client is never undone -/
theorem did_next {W : Type} (ss : List (Saver W)) (envs : Nat → Env) (g : Gate W) (ev : Event) (i : Nat) :
    g.did i <+: (g.next ss envs ev).did i := by
  have hlog : ∃ l, (g.next ss envs ev).log = g.log ++ l := by
    unfold Gate.next
    split
    · exact ⟨[], by simp⟩
    · cases ev with
      | accept => simp only; split <;> exact ⟨[], by simp⟩
      | stop => exact ⟨[], by simp⟩
      | deliver j b =>
        simp only
        cases g.conns[j]? with
        | none => exact ⟨[], by simp⟩
        | some c => simp only; split <;> exact ⟨[], by simp⟩
      | finish j t =>
        simp only
        cases g.conns[j]? with
        | none => exact ⟨[], by simp⟩
        | some c => simp only; split <;> exact ⟨[], by simp⟩
      | step j =>
        simp only
        cases g.conns[j]? with
        | none => exact ⟨[], by simp⟩
        | some c => exact ⟨_, rfl⟩
  obtain ⟨l, h⟩ := hlog
  unfold Gate.did Gate.doneFor
  rw [h, List.filter_append, List.map_append, List.map_append]
  exact List.prefix_append _ _

theorem did_fold {W : Type} (ss : List (Saver W)) (envs : Nat → Env) (evs : List Event) (g : Gate W) (i : Nat) :
    g.did i <+: (evs.foldl (Gate.next ss envs) g).did i := by
  induction evs generalizing g with
  | nil => exact List.prefix_refl _
  | cons ev evs ih => exact (did_next ss envs g ev i).trans (ih _)

/-- an event that is not a step of handler `i` leaves what it is doing as it is; it may only bring more bytes, and only while the
connection is open -/
theorem next_other {W : Type} (ss : List (Saver W)) (envs : Nat → Env) (g : Gate W) (ev : Event) (i : Nat) (c : Conn W)
    (hi : g.conns[i]? = some c) (hev : ev ≠ .step i) :
    ∃ c', (g.next ss envs ev).conns[i]? = some c' ∧ c'.phase = c.phase ∧ c'.vars = c.vars ∧ c'.count = c.count ∧
      c.unread <+: c'.unread ∧ (c.tail ≠ .silent → c' = c) ∧ (g.next ss envs ev).did i = g.did i := by
  have hlt : i < g.conns.length := by
    by_contra hn
    rw [List.getElem?_eq_none (by omega)] at hi; cases hi
  have same : ∀ g' : Gate W, g'.conns[i]? = some c → g'.log = g.log → ∃ c', g'.conns[i]? = some c' ∧ c'.phase = c.phase ∧
      c'.vars = c.vars ∧ c'.count = c.count ∧ c.unread <+: c'.unread ∧ (c.tail ≠ .silent → c' = c) ∧ g'.did i = g.did i := by
    intro g' h1 h2
    exact ⟨c, h1, rfl, rfl, rfl, List.prefix_refl _, fun _ => rfl, by unfold Gate.did Gate.doneFor; rw [h2]⟩
  have hopen : c.open = true → c.tail = .silent := by
    intro ho
    unfold Conn.open at ho
    split at ho
    · cases ho
    · assumption
    · cases ho
  unfold Gate.next
  by_cases hcr : g.crashed = true
  · rw [if_pos hcr]; exact same g hi rfl
  rw [if_neg hcr]
  cases ev with
  | accept =>
    simp only
    split
    · exact same _ hi rfl
    · exact same _ (by rw [← hi]; exact List.getElem?_append_left hlt) rfl
  | stop => exact same _ hi rfl
  | deliver j b =>
    by_cases hj : j = i
    · subst hj
      simp only [hi]
      by_cases ho : c.open = true
      · rw [if_pos ho]
        exact ⟨{ c with received := c.received ++ b, unread := c.unread ++ b }, by simp [hlt], rfl, rfl, rfl, List.prefix_append _ _,
          fun h => absurd (hopen ho) h, rfl⟩
      · rw [if_neg ho]; exact same _ hi rfl
    · simp only
      cases hc : g.conns[j]? with
      | none => exact same _ hi rfl
      | some d =>
        simp only
        split
        · exact same _ (by simpa [List.getElem?_set, hj] using hi) rfl
        · exact same _ hi rfl
  | finish j t =>
    by_cases hj : j = i
    · subst hj
      simp only [hi]
      by_cases ho : c.open = true
      · rw [if_pos ho]
        exact ⟨{ c with tail := t }, by simp [hlt], rfl, rfl, rfl, List.prefix_refl _, fun h => absurd (hopen ho) h, rfl⟩
      · rw [if_neg ho]; exact same _ hi rfl
    · simp only
      cases hc : g.conns[j]? with
      | none => exact same _ hi rfl
      | some d =>
        simp only
        split
        · exact same _ (by simpa [List.getElem?_set, hj] using hi) rfl
        · exact same _ hi rfl
  | step j =>
    have hj : j ≠ i := fun h => hev (by rw [h])
    simp only
    cases hc : g.conns[j]? with
    | none => exact same _ hi rfl
    | some d =>
      simp only
      refine ⟨c, by simpa [List.getElem?_set, hj] using hi, rfl, rfl, rfl, List.prefix_refl _, fun _ => rfl, ?_⟩
      unfold Gate.did Gate.doneFor
      simp only [List.filter_append]
      have : List.filter (fun x => x.1 == i) (((d.run ss (envs j) g.world).2.1).map (fun d => (j, d))) = [] := by
        simp [hj]
      rw [this, List.append_nil]

/-- a process with its history so far and the rest of an infinite schedule: the state at time `n` -/
def Gate.after {W : Type} (ss : List (Saver W)) (envs : Nat → Env) (g : Gate W) (sched : Nat → Event) (n : Nat) : Gate W :=
  (upTo sched n).foldl (Gate.next ss envs) g

theorem after_succ {W : Type} (ss : List (Saver W)) (envs : Nat → Env) (g : Gate W) (sched : Nat → Event) (n : Nat) :
    g.after ss envs sched (n + 1) = (g.after ss envs sched n).next ss envs (sched n) := by
  simp [Gate.after, upTo_succ]

theorem after_did {W : Type} (ss : List (Saver W)) (envs : Nat → Env) (g : Gate W) (sched : Nat → Event) (i n m : Nat) (h : n ≤ m) :
    (g.after ss envs sched n).did i <+: (g.after ss envs sched m).did i := by
  obtain ⟨d, rfl⟩ := Nat.exists_eq_add_of_le h
  obtain ⟨l, hl⟩ := upTo_add sched n d
  unfold Gate.after
  rw [hl, List.foldl_append]
  exact did_fold ss envs l _ i

/-- until the next turn of handler `i` -/
theorem until_step {W : Type} (ss : List (Saver W)) (envs : Nat → Env) (g : Gate W) (sched : Nat → Event) (i : Nat) :
    ∀ (d n : Nat) (c : Conn W), sched (n + d) = .step i → (g.after ss envs sched n).conns[i]? = some c →
    ∃ m c', n ≤ m ∧ sched m = .step i ∧ (g.after ss envs sched m).conns[i]? = some c' ∧ c'.phase = c.phase ∧ c'.vars = c.vars ∧
      c'.count = c.count ∧ c.unread <+: c'.unread ∧ (c.tail ≠ .silent → c' = c) ∧
      (g.after ss envs sched m).did i = (g.after ss envs sched n).did i := by
  intro d
  induction d with
  | zero => intro n c hd hc; exact ⟨n, c, Nat.le_refl _, hd, hc, rfl, rfl, rfl, List.prefix_refl _, fun _ => rfl, rfl⟩
  | succ d ih =>
    intro n c hd hc
    by_cases hs : sched n = .step i
    · exact ⟨n, c, Nat.le_refl _, hs, hc, rfl, rfl, rfl, List.prefix_refl _, fun _ => rfl, rfl⟩
    · obtain ⟨c1, h1, h2, h3, h4, h5, h6, h7⟩ := next_other ss envs _ (sched n) i c hc hs
      rw [← after_succ] at h1 h7
      obtain ⟨m, c2, k1, k2, k3, k4, k5, k6, k7, k8, k9⟩ := ih (n + 1) c1 (by rw [← hd]; congr 1; omega) h1
      refine ⟨m, c2, by omega, k2, k3, k4.trans h2, k5.trans h3, k6.trans h4, h5.trans k7, ?_, k9.trans h7⟩
      intro ht
      rw [h6 ht] at k8
      exact k8 ht

/-- the turn of handler `i` -/
theorem turn {W : Type} (ss : List (Saver W)) (envs : Nat → Env) (g : Gate W) (sched : Nat → Event) (i n : Nat) (c : Conn W)
    (hs : sched n = .step i) (hc : (g.after ss envs sched n).conns[i]? = some c) (ha : (g.after ss envs sched n).crashed = false) :
    (g.after ss envs sched (n + 1)).conns[i]? = some (c.run ss (envs i) (g.after ss envs sched n).world).1 ∧
    (g.after ss envs sched (n + 1)).did i = (g.after ss envs sched n).did i ++
      (c.run ss (envs i) (g.after ss envs sched n).world).2.1.map Done.effect ∧
    (g.after ss envs sched (n + 1)).crashed = (c.run ss (envs i) (g.after ss envs sched n).world).2.2.2 := by
  have hlt : i < (g.after ss envs sched n).conns.length := by
    by_contra hn
    rw [List.getElem?_eq_none (by omega)] at hc; cases hc
  rw [after_succ, hs, step_eq ss envs _ i c ha hc]
  refine ⟨by simp [hlt], ?_, rfl⟩
  unfold Gate.did Gate.doneFor
  have : ∀ l : List Done, List.filter (fun x : Nat × Done => x.1 == i) (l.map (fun d => (i, d))) = l.map (fun d => (i, d)) := by
    intro l
    rw [List.filter_eq_self]
    simp
  simp [List.filter_append, this, Function.comp_def]

/-- what is in the unread bytes at time `n` is answered in the end, unless the handler ends before -/
theorem progress {W : Type} (ss : List (Saver W)) (envs : Nat → Env) (g : Gate W) (sched : Nat → Event) (i : Nat) (t : Tail)
    (hf : FairTo i sched) (ha : ∀ n, (g.after ss envs sched n).crashed = false) :
    ∀ (m k n : Nat) (c : Conn W) (old : Bytes), old.length = m → c.phase.size ss.length = k →
    (g.after ss envs sched n).conns[i]? = some c → old <+: c.unread →
    ∃ n', n ≤ n' ∧ ((∃ c' e, (g.after ss envs sched n').conns[i]? = some c' ∧ c'.phase = .ended e) ∨
      (g.after ss envs sched n).did i ++ c.phase.pending ++ (serve (envs i) t c.count c.vars old).1 <+: (g.after ss envs sched n').did i) := by
  intro m
  induction m using Nat.strong_induction_on with
  | _ m ihm =>
    intro k
    induction k using Nat.strong_induction_on with
    | _ k ihk =>
      intro n0 c0 old hm hk0 hc0 hold0
      obtain ⟨d, hd1, hd2⟩ := hf n0
      obtain ⟨d, rfl⟩ := Nat.exists_eq_add_of_le hd1
      obtain ⟨n, c, hn, hst, hc, e1, e2, e3, e4, -, e5⟩ := until_step ss envs g sched i d n0 c0 hd2 hc0
      rw [← e5, ← e1, ← e2, ← e3]
      have hk : c.phase.size ss.length = k := by rw [e1]; exact hk0
      have hold : old <+: c.unread := hold0.trans e4
      clear e1 e2 e3 e4 e5 hc0 hk0 hold0 hd1 hd2
      obtain ⟨t1, t2, t3⟩ := turn ss envs g sched i n c hst hc (ha n)
      have hal := ha (n + 1)
      rw [t3] at hal
      -- one more step
      have more : ∀ (c' : Conn W) (old' : Bytes), (g.after ss envs sched (n + 1)).conns[i]? = some c' → old' <+: c'.unread →
          (old'.length < m ∨ (old'.length = m ∧ c'.phase.size ss.length < k)) →
          (g.after ss envs sched n).did i ++ c.phase.pending ++ (serve (envs i) t c.count c.vars old).1 =
            (g.after ss envs sched (n + 1)).did i ++ c'.phase.pending ++ (serve (envs i) t c'.count c'.vars old').1 →
          ∃ n', n0 ≤ n' ∧ ((∃ c' e, (g.after ss envs sched n').conns[i]? = some c' ∧ c'.phase = .ended e) ∨
            (g.after ss envs sched n).did i ++ c.phase.pending ++ (serve (envs i) t c.count c.vars old).1 <+:
              (g.after ss envs sched n').did i) := by
        intro c' old' h1 h2 h3 h4
        rw [h4]
        rcases h3 with h3 | ⟨h3, h5⟩
        · obtain ⟨n', k1, k2⟩ := ihm _ h3 _ (n + 1) c' old' rfl rfl h1 h2
          exact ⟨n', by omega, k2⟩
        · obtain ⟨n', k1, k2⟩ := ihk _ h5 (n + 1) c' old' h3 rfl h1 h2
          exact ⟨n', by omega, k2⟩
      obtain ⟨received, unread, tail, vars, count, phase⟩ := c
      cases phase with
      | ended e => exact ⟨n, hn, .inl ⟨_, e, hc, rfl⟩⟩
      | idle =>
        cases hr : streamRecv t old with
        | inl e =>
          refine ⟨n, hn, .inr ?_⟩
          simp only [Phase.pending]
          rw [serve_unfold, hr]
          simp
        | inr pr =>
          obtain ⟨p, rest⟩ := pr
          obtain ⟨ext, rfl⟩ := hold
          have hr2 : streamRecv tail (old ++ ext) = .inr (p, rest ++ ext) := streamRecv_mono ext hr
          obtain ⟨hp, hsp⟩ := streamRecv_length hr
          rcases recv_eq tail [old ++ ext] with ⟨e, h1, h2⟩ | ⟨p', rest', h1, h2⟩
          · rw [conn_stream, hr2] at h2; cases h2
          · rw [conn_stream, hr2] at h2
            obtain ⟨rfl, hrest⟩ := Prod.mk.inj (Sum.inr.inj h2)
            cases hh : handlePacket ((envs i).now count) ((envs i).spare count) vars.reset p with
            | panic => simp [Conn.run, h1, hh] at hal
            | diverge =>
              have hrun : (Conn.run ss (envs i) ⟨received, old ++ ext, tail, vars, count, .idle⟩ (g.after ss envs sched n).world) =
                  (⟨received, old ++ ext, tail, vars, count, .ended .diverged⟩, [], (g.after ss envs sched n).world, false) := by
                simp only [Conn.run, h1, hh]
              rw [hrun] at t1
              exact ⟨n + 1, by omega, .inl ⟨_, _, t1, rfl⟩⟩
            | done l v =>
              have hrun : (Conn.run ss (envs i) ⟨received, old ++ ext, tail, vars, count, .idle⟩ (g.after ss envs sched n).world) =
                  (⟨received, rest'.flatten, tail, v, count + 1, .acting l⟩, [], (g.after ss envs sched n).world, false) := by
                simp only [Conn.run, h1, hh]
              rw [hrun] at t1 t2
              refine more _ rest t1 ?_ (.inl ?_) ?_
              · rw [← hrest]; exact List.prefix_append _ _
              · rw [← hm, hsp, List.length_append]; omega
              · rw [t2]
                simp only [Phase.pending, List.map_nil, List.append_nil]
                rw [serve_unfold, hr]
                simp only [hh]
                rw [List.append_assoc]
      | acting l =>
        cases l with
        | nil =>
          simp only [Conn.run] at t1 t2
          exact more _ old t1 hold (.inr ⟨hm, by rw [← hk]; simp [Phase.size]⟩) (by rw [t2]; simp [Phase.pending])
        | cons e l =>
          cases e with
          | write b =>
            simp only [Conn.run] at t1 t2
            exact more _ old t1 hold (.inr ⟨hm, by rw [← hk]; simp only [Phase.size, List.length_cons, Nat.mul_add]; omega⟩)
              (by rw [t2]; simp [Phase.pending, Done.effect])
          | save r =>
            simp only [Conn.run] at t1 t2
            exact more _ old t1 hold (.inr ⟨hm, by rw [← hk]; simp only [Phase.size, List.length_cons, Nat.mul_add]; omega⟩)
              (by rw [t2]; simp [Phase.pending])
      | saving r left l =>
        cases left with
        | nil =>
          simp only [Conn.run] at t1 t2
          exact more _ old t1 hold (.inr ⟨hm, by rw [← hk]; simp only [Phase.size, List.length_nil]; omega⟩)
            (by rw [t2]; simp [Phase.pending, Done.effect])
        | cons s left =>
          rcases hsv : s.save r (g.after ss envs sched n).world with ⟨_ | _ | _, w1⟩
          · simp only [Conn.run, hsv] at t1 t2
            exact more _ old t1 hold (.inr ⟨hm, by rw [← hk]; simp only [Phase.size, List.length_cons]; omega⟩)
              (by rw [t2]; simp [Phase.pending])
          · simp only [Conn.run, hsv] at t1 t2
            exact more _ old t1 hold (.inr ⟨hm, by rw [← hk]; simp only [Phase.size, List.length_cons]; omega⟩)
              (by rw [t2]; simp [Phase.pending, Done.effect])
          · simp [Conn.run, hsv] at hal

/-- after the peer has closed the connection its handler ends -/
theorem ends {W : Type} (ss : List (Saver W)) (envs : Nat → Env) (g : Gate W) (sched : Nat → Event) (i : Nat)
    (hf : FairTo i sched) (ha : ∀ n, (g.after ss envs sched n).crashed = false) :
    ∀ (m k n : Nat) (c : Conn W), c.unread.length = m → c.phase.size ss.length = k →
    (g.after ss envs sched n).conns[i]? = some c → c.tail ≠ .silent →
    ∃ n', n ≤ n' ∧ ∃ c' e, (g.after ss envs sched n').conns[i]? = some c' ∧ c'.phase = .ended e := by
  intro m
  induction m using Nat.strong_induction_on with
  | _ m ihm =>
    intro k
    induction k using Nat.strong_induction_on with
    | _ k ihk =>
      intro n0 c hm hk hc0 ht
      obtain ⟨d, hd1, hd2⟩ := hf n0
      obtain ⟨d, rfl⟩ := Nat.exists_eq_add_of_le hd1
      obtain ⟨n, c1, hn, hst, hc, -, -, -, -, hsame, -⟩ := until_step ss envs g sched i d n0 c hd2 hc0
      rw [hsame ht] at hc
      clear hsame hc0 hd1 hd2
      obtain ⟨t1, -, t3⟩ := turn ss envs g sched i n c hst hc (ha n)
      have hal := ha (n + 1)
      rw [t3] at hal
      have more : ∀ (c' : Conn W), (g.after ss envs sched (n + 1)).conns[i]? = some c' → c'.tail = c.tail →
          (c'.unread.length < m ∨ (c'.unread.length = m ∧ c'.phase.size ss.length < k)) →
          ∃ n', n0 ≤ n' ∧ ∃ c' e, (g.after ss envs sched n').conns[i]? = some c' ∧ c'.phase = .ended e := by
        intro c' h1 h2 h3
        rcases h3 with h3 | ⟨h3, h5⟩
        · obtain ⟨n', k1, k2⟩ := ihm _ h3 _ (n + 1) c' rfl rfl h1 (by rw [h2]; exact ht)
          exact ⟨n', by omega, k2⟩
        · obtain ⟨n', k1, k2⟩ := ihk _ h5 (n + 1) c' h3 rfl h1 (by rw [h2]; exact ht)
          exact ⟨n', by omega, k2⟩
      obtain ⟨received, unread, tail, vars, count, phase⟩ := c
      cases phase with
      | ended e => exact ⟨n, hn, _, e, hc, rfl⟩
      | idle =>
        rcases recv_eq tail [unread] with ⟨e, h1, h2⟩ | ⟨p, rest, h1, h2⟩
        · have he : e ≠ .waiting := by
            rintro rfl
            rw [conn_stream] at h2
            unfold streamRecv at h2
            simp only at ht
            split at h2
            · cases tail <;> simp [cutEnd] at h2 ht
              split at h2 <;> cases h2
            · split at h2
              · cases h2
              · split at h2
                · cases tail <;> simp [cutEnd] at h2 ht
                · cases h2
          have hrun : (Conn.run ss (envs i) ⟨received, unread, tail, vars, count, .idle⟩ (g.after ss envs sched n).world) =
              (⟨received, unread, tail, vars, count, .ended e⟩, [], (g.after ss envs sched n).world, false) := by
            simp only [Conn.run, h1]
          rw [hrun] at t1
          exact ⟨n + 1, by omega, _, e, t1, rfl⟩
        · rw [conn_stream] at h2
          obtain ⟨hp, hsp⟩ := streamRecv_length h2
          cases hh : handlePacket ((envs i).now count) ((envs i).spare count) vars.reset p with
          | panic => simp [Conn.run, h1, hh] at hal
          | diverge =>
            have hrun : (Conn.run ss (envs i) ⟨received, unread, tail, vars, count, .idle⟩ (g.after ss envs sched n).world) =
                (⟨received, unread, tail, vars, count, .ended .diverged⟩, [], (g.after ss envs sched n).world, false) := by
              simp only [Conn.run, h1, hh]
            rw [hrun] at t1
            exact ⟨n + 1, by omega, _, _, t1, rfl⟩
          | done l v =>
            have hrun : (Conn.run ss (envs i) ⟨received, unread, tail, vars, count, .idle⟩ (g.after ss envs sched n).world) =
                (⟨received, rest.flatten, tail, v, count + 1, .acting l⟩, [], (g.after ss envs sched n).world, false) := by
              simp only [Conn.run, h1, hh]
            rw [hrun] at t1
            refine more _ t1 rfl (.inl ?_)
            rw [← hm, hsp, List.length_append]
            simp only
            omega
      | acting l =>
        cases l with
        | nil =>
          simp only [Conn.run] at t1
          exact more _ t1 rfl (.inr ⟨hm, by rw [← hk]; simp [Phase.size]⟩)
        | cons e l =>
          cases e with
          | write b =>
            simp only [Conn.run] at t1
            exact more _ t1 rfl (.inr ⟨hm, by rw [← hk]; simp only [Phase.size, List.length_cons, Nat.mul_add]; omega⟩)
          | save r =>
            simp only [Conn.run] at t1
            exact more _ t1 rfl (.inr ⟨hm, by rw [← hk]; simp only [Phase.size, List.length_cons, Nat.mul_add]; omega⟩)
      | saving r left l =>
        cases left with
        | nil =>
          simp only [Conn.run] at t1
          exact more _ t1 rfl (.inr ⟨hm, by rw [← hk]; simp only [Phase.size, List.length_nil]; omega⟩)
        | cons s left =>
          rcases hsv : s.save r (g.after ss envs sched n).world with ⟨_ | _ | _, w1⟩
          · simp only [Conn.run, hsv] at t1
            exact more _ t1 rfl (.inr ⟨hm, by rw [← hk]; simp only [Phase.size, List.length_cons]; omega⟩)
          · simp only [Conn.run, hsv] at t1
            exact more _ t1 rfl (.inr ⟨hm, by rw [← hk]; simp only [Phase.size, List.length_cons]; omega⟩)
          · simp [Conn.run, hsv] at hal

/-- the whole process at time `n` after the connection was accepted -/
abbrev history (before : List Event) (sched : Nat → Event) (n : Nat) : List Event := before ++ .accept :: upTo sched n

theorem history_after {W : Type} (ss : List (Saver W)) (envs : Nat → Env) (w : W) (before : List Event) (sched : Nat → Event) (n : Nat) :
    Gate.run ss envs w (history before sched n) = ((Gate.run ss envs w before).next ss envs .accept).after ss envs sched n := by
  simp [Gate.run, Gate.after, history]

/-- an ended handler has done everything the stream asks for -/
theorem ended_did {W : Type} (ss : List (Saver W)) (envs : Nat → Env) (w : W) (before : List Event) (sched : Nat → Event) (n : Nat)
    (hopen : (Gate.run ss envs w before).stopped = false)
    (halive : (Gate.run ss envs w (history before sched n)).crashed = false) (c : Conn W) (e : End)
    (hc : (Gate.run ss envs w (history before sched n)).conns[(Gate.run ss envs w before).conns.length]? = some c) (he : c.phase = .ended e) :
    ((Gate.run ss envs w (history before sched n)).did (Gate.run ss envs w before).conns.length, c.state) =
      handleConn (envs (Gate.run ss envs w before).conns.length) true (streamTo (Gate.run ss envs w before).conns.length (upTo sched n)).2
        [(streamTo (Gate.run ss envs w before).conns.length (upTo sched n)).1] := by
  obtain ⟨c', h1, -, h3⟩ := every_client_served ss envs w before (upTo sched n) hopen halive _ rfl
  have : c' = c := by
    have := h1.symm.trans hc
    exact Option.some.inj this
  subst this
  exact h3 fun w => by unfold Conn.run; rw [he]

/-- C117: in every fair schedule, everything a client is due for what it has sent up to time `n` has been done from some time on: the
confirmations have been written and the records given to the storages. `sched` is what happens after its connection was accepted: any
interleaving of the arrival of bytes, other connections and the turns of the handlers, in which handler `i` gets infinitely many turns. -/
theorem answered_eventually {W : Type} (ss : List (Saver W)) (envs : Nat → Env) (w : W) (before : List Event) (sched : Nat → Event)
    (i : Nat) (hi : i = (Gate.run ss envs w before).conns.length) (hopen : (Gate.run ss envs w before).stopped = false)
    (halive : ∀ n, (Gate.run ss envs w (history before sched n)).crashed = false) (hfair : FairTo i sched) (n : Nat) :
    ∃ m, n ≤ m ∧ ∀ k, m ≤ k → (handleConn (envs i) true (streamTo i (upTo sched n)).2 [(streamTo i (upTo sched n)).1]).1 <+:
      (Gate.run ss envs w (history before sched k)).did i := by
  subst hi
  suffices H : ∃ m, n ≤ m ∧ (handleConn (envs (Gate.run ss envs w before).conns.length) true (streamTo (Gate.run ss envs w before).conns.length (upTo sched n)).2
      [(streamTo (Gate.run ss envs w before).conns.length (upTo sched n)).1]).1 <+:
      (Gate.run ss envs w (history before sched m)).did (Gate.run ss envs w before).conns.length by
    obtain ⟨m, h1, h2⟩ := H
    refine ⟨m, h1, fun k hk => h2.trans ?_⟩
    rw [history_after, history_after]
    exact after_did ss envs _ sched _ m k hk
  -- once the handler has ended
  have hend : ∀ m, n ≤ m → (∃ c e, (Gate.run ss envs w (history before sched m)).conns[(Gate.run ss envs w before).conns.length]? = some c ∧
      c.phase = .ended e) → (handleConn (envs (Gate.run ss envs w before).conns.length) true (streamTo (Gate.run ss envs w before).conns.length (upTo sched n)).2
      [(streamTo (Gate.run ss envs w before).conns.length (upTo sched n)).1]).1 <+:
      (Gate.run ss envs w (history before sched m)).did (Gate.run ss envs w before).conns.length := by
    rintro m hm ⟨c, e, h1, h2⟩
    have hd := congrArg Prod.fst (ended_did ss envs w before sched m hopen (halive m) c e h1 h2)
    simp only at hd
    rw [hd, handleConn_serve, handleConn_serve, conn_stream, conn_stream]
    obtain ⟨d, rfl⟩ := Nat.exists_eq_add_of_le hm
    obtain ⟨l, hl⟩ := upTo_add sched n d
    rw [hl]
    rcases streamTo_append (Gate.run ss envs w before).conns.length (upTo sched n) l with ⟨-, ext, h4⟩ | ⟨-, h4⟩
    · rw [h4]; exact serve_prefix _ _ _ ext _ _ _ _ (Nat.le_refl _)
    · rw [h4]
  obtain ⟨c, hc, -, -⟩ := every_client_served ss envs w before (upTo sched n) hopen (halive n) _ rfl
  by_cases he : ∃ e, c.phase = .ended e
  · obtain ⟨e, he⟩ := he
    exact ⟨n, Nat.le_refl _, hend n (Nat.le_refl _) ⟨c, e, hc, he⟩⟩
  · have he' : ∀ e, c.phase ≠ .ended e := fun e h => he ⟨e, h⟩
    have hb : (Gate.run ss envs w before).crashed = false := by
      cases hh : (Gate.run ss envs w before).crashed with
      | false => rfl
      | true =>
        have h1 := halive 0
        have h2 : Gate.run ss envs w (history before sched 0) = (Event.accept :: upTo sched 0).foldl (Gate.next ss envs) (Gate.run ss envs w before) := by
          simp [Gate.run, history]
        rw [h2, stays_crashed ss envs _ _ hh, hh] at h1
        cases h1
    have hacc : ((Gate.run ss envs w before).next ss envs .accept).conns[(Gate.run ss envs w before).conns.length]? = some {} := by
      unfold Gate.next
      rw [hb, hopen]
      simp
    obtain ⟨c', h1, h2⟩ := all_streams ss envs _ (upTo sched n) [] _ _ hacc (.inl ⟨rfl, rfl, by simp⟩)
      (by have := halive n; rw [history_after] at this; exact this)
    rw [history_after] at hc
    have : c' = c := Option.some.inj (h1.symm.trans hc)
    subst this
    rw [List.nil_append] at h2
    have hrec : c'.received = (streamTo (Gate.run ss envs w before).conns.length (upTo sched n)).1 ∧
        c'.tail = (streamTo (Gate.run ss envs w before).conns.length (upTo sched n)).2 := by
      rcases h2 with ⟨e1, e2, -⟩ | ⟨e, e1, -⟩
      · exact ⟨e1, e2⟩
      · exact absurd e1 (he' e)
    have hinv := (run_gate_inv ss envs w (history before sched n)).conns _ c' (by rw [history_after]; exact hc)
    rw [connInv_open he'] at hinv
    have hserve := hinv.2 [] c'.tail
    rw [List.append_nil, List.append_nil] at hserve
    obtain ⟨m, hm, hp⟩ := progress ss envs ((Gate.run ss envs w before).next ss envs .accept) sched _ c'.tail hfair
      (fun n => by rw [← history_after]; exact halive n) _ _ n c' c'.unread rfl rfl hc (List.prefix_refl _)
    rcases hp with ⟨c2, e, k1, k2⟩ | hp
    · exact ⟨m, hm, hend m hm ⟨c2, e, by rw [history_after]; exact k1, k2⟩⟩
    · refine ⟨m, hm, ?_⟩
      rw [← hrec.1, ← hrec.2, handleConn_serve, conn_stream, hserve, history_after, history_after]
      exact hp

/-- a handler that has returned stays so -/
theorem after_ended {W : Type} (ss : List (Saver W)) (envs : Nat → Env) (g : Gate W) (sched : Nat → Event) (i : Nat) (n d : Nat) (c : Conn W)
    (e : End) (h : (g.after ss envs sched n).conns[i]? = some c) (he : c.phase = .ended e)
    (ha : ∀ n, (g.after ss envs sched n).crashed = false) :
    ∃ c', (g.after ss envs sched (n + d)).conns[i]? = some c' ∧ c'.phase = .ended e := by
  induction d with
  | zero => exact ⟨c, h, he⟩
  | succ d ih =>
    obtain ⟨c1, h1, h2⟩ := ih
    rw [← Nat.add_assoc]
    by_cases hs : sched (n + d) = .step i
    · obtain ⟨t1, -, -⟩ := turn ss envs g sched i (n + d) c1 hs h1 (ha _)
      refine ⟨_, t1, ?_⟩
      rw [(run_keeps ss (envs i) c1 _).2.2.2 e h2, h2]
    · obtain ⟨c2, k1, k2, -⟩ := next_other ss envs _ _ i c1 h1 hs
      rw [← after_succ] at k1
      exact ⟨c2, k1, k2.trans h2⟩

/-- C117: and when the peer closes (or resets) the connection, its handler returns in the end, having done exactly what is due for the
whole stream: no goroutine is left behind. -/
theorem closed_eventually {W : Type} (ss : List (Saver W)) (envs : Nat → Env) (w : W) (before : List Event) (sched : Nat → Event)
    (i : Nat) (hi : i = (Gate.run ss envs w before).conns.length) (hopen : (Gate.run ss envs w before).stopped = false)
    (halive : ∀ n, (Gate.run ss envs w (history before sched n)).crashed = false) (hfair : FairTo i sched) (n : Nat)
    (hclosed : (streamTo i (upTo sched n)).2 ≠ .silent) :
    ∃ m, n ≤ m ∧ ∀ k, m ≤ k → ∃ c, (Gate.run ss envs w (history before sched k)).conns[i]? = some c ∧ c.state ≠ .waiting ∧
      ((Gate.run ss envs w (history before sched k)).did i, c.state) =
        handleConn (envs i) true (streamTo i (upTo sched n)).2 [(streamTo i (upTo sched n)).1] := by
  subst hi
  have hb : (Gate.run ss envs w before).crashed = false := by
    cases hh : (Gate.run ss envs w before).crashed with
    | false => rfl
    | true =>
      have h1 := halive 0
      have h2 : Gate.run ss envs w (history before sched 0) = (Event.accept :: upTo sched 0).foldl (Gate.next ss envs) (Gate.run ss envs w before) := by
        simp [Gate.run, history]
      rw [h2, stays_crashed ss envs _ _ hh, hh] at h1
      cases h1
  have hacc : ((Gate.run ss envs w before).next ss envs .accept).conns[(Gate.run ss envs w before).conns.length]? = some {} := by
    unfold Gate.next
    rw [hb, hopen]
    simp
  have hal : ∀ n, (((Gate.run ss envs w before).next ss envs .accept).after ss envs sched n).crashed = false :=
    fun n => by rw [← history_after]; exact halive n
  have inv := fun n => all_streams ss envs _ (upTo sched n) [] _ _ hacc (.inl ⟨rfl, rfl, by simp⟩) (hal n)
  simp only [List.nil_append] at inv
  have hend : ∃ m, n ≤ m ∧ ∃ c e, (((Gate.run ss envs w before).next ss envs .accept).after ss envs sched m).conns[(Gate.run ss envs w before).conns.length]? = some c ∧
      c.phase = .ended e := by
    obtain ⟨c, h1, h2⟩ := inv n
    rcases h2 with ⟨-, e2, -⟩ | ⟨e, e1, -⟩
    · exact ends ss envs _ sched _ hfair hal _ _ n c rfl rfl h1 (by rw [e2]; exact hclosed)
    · exact ⟨n, Nat.le_refl _, c, e, h1, e1⟩
  obtain ⟨m, hm, c, e, h1, h2⟩ := hend
  refine ⟨m, hm, fun k hk => ?_⟩
  obtain ⟨d, rfl⟩ := Nat.exists_eq_add_of_le hk
  obtain ⟨c', k1, k2⟩ := after_ended ss envs _ sched _ m d c e h1 h2 hal
  have hdid := ended_did ss envs w before sched (m + d) hopen (halive _) c' e (by rw [history_after]; exact k1) k2
  obtain ⟨d', hd'⟩ := Nat.exists_eq_add_of_le (Nat.le_trans hm (Nat.le_add_right m d))
  have hstream : streamTo (Gate.run ss envs w before).conns.length (upTo sched (m + d)) = streamTo (Gate.run ss envs w before).conns.length (upTo sched n) := by
    rw [hd']
    obtain ⟨l, hl⟩ := upTo_add sched n d'
    rw [hl]
    rcases streamTo_append (Gate.run ss envs w before).conns.length (upTo sched n) l with ⟨h, -⟩ | ⟨-, h⟩
    · exact absurd h hclosed
    · exact h
  rw [hstream] at hdid
  refine ⟨c', by rw [history_after]; exact k1, ?_, hdid⟩
  have hw : e ≠ .waiting := by
    obtain ⟨c2, h3, h4⟩ := inv (m + d)
    have : c2 = c' := Option.some.inj (h3.symm.trans k1)
    subst this
    rcases h4 with ⟨-, -, h5⟩ | ⟨e', e1, e2, -⟩
    · exact h5 e k2
    · rw [k2] at e1; injection e1 with e1; rw [e1]; exact e2
  unfold Conn.state
  rw [k2]
  exact hw

/-- non-trivial case: a client sends a packet of two records, and from then on its handler and that of a connection accepted later get
their turns alternately -/
def exSched : Nat → Event
  | 0 => .deliver 0 exPacket
  | 1 => .accept
  | n + 2 => if n % 2 = 0 then .step 0 else .step 1

omit P in
theorem exSched_fair : FairTo 0 exSched := by
  intro n
  refine ⟨2 * n + 2, by omega, ?_⟩
  show (if 2 * n % 2 = 0 then Event.step 0 else Event.step 1) = _
  rw [if_pos (by omega)]

/-- neither of the two connections ever gets anything but this packet -/
theorem exSched_inv {W : Type} (ss : List (Saver W)) (envs : Nat → Env) (w : W) (n : Nat) :
    ∀ (i : Nat) (c : Conn W), (Gate.run ss envs w (history [] exSched n)).conns[i]? = some c → (c.received = [] ∨ c.received = exPacket) ∧ c.tail = .silent := by
  rw [history_after]
  induction n with
  | zero =>
    intro i c h
    simp only [Gate.after, upTo, List.range_zero, List.map_nil, List.foldl_nil, Gate.run, Gate.next] at h
    cases i with
    | zero => simp at h; subst h; exact ⟨.inl rfl, rfl⟩
    | succ i => simp at h
  | succ n ih =>
    rw [after_succ]
    generalize hg : Gate.after ss envs ((Gate.run ss envs w []).next ss envs .accept) exSched n = g at ih
    match n, hg with
    | 0, hg =>
      intro i c h
      rw [← hg] at h
      simp only [Gate.after, upTo, List.range_zero, List.map_nil, List.foldl_nil, Gate.run, Gate.next, exSched] at h
      cases i with
      | zero => simp [Conn.open] at h; subst h; exact ⟨.inr rfl, rfl⟩
      | succ i => simp [Conn.open] at h
    | 1, hg =>
      intro i c h
      simp only [exSched, Gate.next] at h
      split at h
      · exact ih i c h
      · split at h
        · exact ih i c h
        · simp only at h
          rw [List.getElem?_append] at h
          split at h
          · exact ih i c h
          · rename_i hlt
            cases hk : i - g.conns.length with
            | zero =>
              rw [hk] at h
              obtain rfl : ({} : Conn W) = c := Option.some.inj h
              exact ⟨.inl rfl, rfl⟩
            | succ k => rw [hk] at h; cases h
    | n + 2, hg =>
      have key : ∀ (j i : Nat) (c : Conn W), (g.next ss envs (.step j)).conns[i]? = some c → (c.received = [] ∨ c.received = exPacket) ∧ c.tail = .silent := by
        intro j i c h
        unfold Gate.next at h
        split at h
        · exact ih i c h
        · simp only at h
          cases hc : g.conns[j]? with
          | none => rw [hc] at h; exact ih i c h
          | some d =>
            rw [hc] at h
            simp only [List.getElem?_set] at h
            split at h
            · split at h
              · injection h with h
                subst h
                have hk := run_keeps ss (envs j) d g.world
                rw [hk.1, hk.2.1]
                exact ih j d hc
              · cases h
            · exact ih i c h
      intro i c h
      simp only [exSched] at h
      split at h
      · exact key 0 i c h
      · exact key 1 i c h

/-- so the theorems apply: both confirmations, and the answer to the identification of the terminal, are written in the end -/
theorem exSched_answered {W : Type} (ss : List (Saver W)) (hss : ∀ s ∈ ss, ∀ r w, (s.save r w).1 ≠ .panic) (envs : Nat → Env) (w : W) :
    ∃ m ack x pid, Answers ack pid 0 [95, 96] ∧ ∀ k, m ≤ k →
      [ack, x] <+: writesOf ((Gate.run ss envs w (history [] exSched k)).did 0) := by
  obtain ⟨p, l, hd, hb, hn, -, hl, hr, -⟩ := exPacket_meets (P := P) ((envs 0).spare 0)
  obtain ⟨effects, ack, more, h1, h2, -, h4, -, h5⟩ := data_acknowledged (envs 0) exPacket p l exPacket_framed hd hb hn
  obtain ⟨x, rfl⟩ := h4 hl
  rw [hr] at h5
  have halive : ∀ n, (Gate.run ss envs w (history [] exSched n)).crashed = false := by
    intro n
    cases hcr : (Gate.run ss envs w (history [] exSched n)).crashed with
    | false => rfl
    | true =>
      rcases crash_has_cause ss envs w _ hcr with ⟨i, c, hc, hx⟩ | ⟨s, hs, r, w', hx⟩
      · obtain ⟨h6, h7⟩ := exSched_inv ss envs w n i c hc
        rw [h7] at hx
        rcases h6 with h6 | h6
        · rw [h6, handleConn_serve, conn_stream, serve_silent] at hx; cases hx
        · rw [h6] at hx
          obtain ⟨p, l, hd, hb, hn, -⟩ := exPacket_meets (P := P) ((envs i).spare 0)
          obtain ⟨e', -, -, h1', -⟩ := data_acknowledged (envs i) exPacket p l exPacket_framed hd hb hn
          rw [h1'] at hx
          cases hx
      · exact absurd hx (hss s hs r w')
  obtain ⟨m, hm, h⟩ := answered_eventually ss envs w [] exSched 0 rfl rfl halive exSched_fair 1
  refine ⟨m, ack, x, _, h5, fun k hk => ?_⟩
  have := h k hk
  rw [show streamTo 0 (upTo exSched 1) = (exPacket, .silent) by simp [upTo, exSched, streamTo]] at this
  simp only at this
  rw [h1] at this
  obtain ⟨more, hmore⟩ := this
  rw [← hmore, ← h2]
  simp [writesOf]

end Egts
