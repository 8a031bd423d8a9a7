import Verif.Spec.Gate
import Verif.Props.Server2
set_option autoImplicit false
/- Invariants of the process model. -/
namespace Egts
open Frame
variable [P : Platform]

omit P in
/-- a packet that has arrived completely is read the same way whatever comes later -/
theorem streamRecv_mono {tail tail' : Tail} {s p rest : Bytes} (ext : Bytes) (h : streamRecv tail s = .inr (p, rest)) :
    streamRecv tail' (s ++ ext) = .inr (p, rest ++ ext) := by
  unfold streamRecv at h
  split at h
  · cases h
  · rename_i h10
    split at h
    · cases h
    · rename_i hv
      split at h
      · cases h
      · rename_i hl
        injection h with h
        injection h with h1 h2
        have ht : (s ++ ext).take 10 = s.take 10 := List.take_append_of_le_length (by omega)
        have hb : byteAt (s ++ ext) 0 = byteAt s 0 := byteAt_prefix s ext 0 (by omega)
        unfold streamRecv
        rw [ht, hb, if_neg (by rw [List.length_append]; omega), if_neg hv, if_neg (by rw [List.length_append]; omega),
          List.take_append_of_le_length (by omega), List.drop_append_of_le_length (by omega), h1, h2]

/-- actions still to be done -/
def Phase.pending {W : Type} : Phase W → List Effect
  | .idle => []
  | .acting l => l
  | .saving r _ l => .save r :: l
  | .ended _ => []

/-- what has been done for a connection (`did`), what is still to be done and what is in the unread bytes is together
what a handler alone does -/
def ConnInv {W : Type} (ss : List (Saver W)) (env : Env) (did : List Effect) (c : Conn W) : Prop :=
  match c.phase with
  | .ended e => serve env c.tail 0 {} c.received = (did, e)
  | ph => (∀ r left l, ph = .saving r left l → ∀ s ∈ left, s ∈ ss) ∧ ∀ (ext : Bytes) (tail : Tail),
      serve env tail 0 {} (c.received ++ ext) =
        (did ++ ph.pending ++ (serve env tail c.count c.vars (c.unread ++ ext)).1, (serve env tail c.count c.vars (c.unread ++ ext)).2)

theorem connInv_open {W : Type} {ss : List (Saver W)} {env : Env} {did : List Effect} {c : Conn W} (h : ∀ e, c.phase ≠ .ended e) :
    ConnInv ss env did c ↔ (∀ r left l, c.phase = .saving r left l → ∀ s ∈ left, s ∈ ss) ∧ ∀ (ext : Bytes) (tail : Tail),
      serve env tail 0 {} (c.received ++ ext) =
        (did ++ c.phase.pending ++ (serve env tail c.count c.vars (c.unread ++ ext)).1,
          (serve env tail c.count c.vars (c.unread ++ ext)).2) := by
  unfold ConnInv
  split
  · rename_i e he; exact absurd he (h e)
  · rfl

/-- the invariant is kept by every step of the handler; a panic has a cause -/
theorem run_inv {W : Type} (ss : List (Saver W)) (env : Env) (did : List Effect) (c : Conn W) (w : W) (h : ConnInv ss env did c) :
    ConnInv ss env (did ++ (c.run ss env w).2.1.map Done.effect) (c.run ss env w).1 ∧
    (c.run ss env w).1.tail = c.tail ∧ (c.run ss env w).1.received = c.received ∧
    ((c.run ss env w).2.2.2 = true → (serve env c.tail 0 {} c.received).2 = .crashed ∨ ∃ s ∈ ss, ∃ r w, (s.save r w).1 = .panic) := by
  obtain ⟨received, unread, tail, vars, count, phase⟩ := c
  cases phase with
  | ended e => exact ⟨by simpa [Conn.run] using h, rfl, rfl, by simp [Conn.run]⟩
  | idle =>
    rw [connInv_open (by simp)] at h
    obtain ⟨-, h⟩ := h
    have h0 := h [] tail
    simp only [List.append_nil, Phase.pending] at h0
    rw [serve_unfold env tail count vars unread] at h0
    have hfl : [unread].flatten = unread := by simp
    rcases recv_eq tail [unread] with ⟨e, h1, h2⟩ | ⟨p, rest, h1, h2⟩
    · rw [hfl] at h2
      rw [h2] at h0
      simp only [List.append_nil] at h0
      by_cases hw : e = .waiting
      · subst hw
        simp only [Conn.run, h1]
        exact ⟨by rw [connInv_open (by simp)]; exact ⟨by simp, by simpa using h⟩, trivial, trivial, by simp⟩
      · have hr : (Conn.run ss env ⟨received, unread, tail, vars, count, .idle⟩ w) =
            (⟨received, unread, tail, vars, count, .ended e⟩, [], w, false) := by
          simp only [Conn.run, h1]
        rw [hr]
        exact ⟨by simpa [ConnInv] using h0, rfl, rfl, by simp⟩
    · rw [hfl] at h2
      rw [h2] at h0
      simp only at h0
      cases hp : handlePacket (env.now count) (env.spare count) vars.reset p with
      | panic =>
        rw [hp] at h0
        simp only [Conn.run, h1, hp]
        refine ⟨by rw [connInv_open (by simp)]; exact ⟨by simp, by simpa using h⟩, trivial, trivial, fun _ => .inl ?_⟩
        rw [h0]
      | diverge =>
        rw [hp] at h0
        simp only [Conn.run, h1, hp]
        exact ⟨by simpa [ConnInv] using h0, trivial, trivial, by simp⟩
      | done l v =>
        simp only [Conn.run, h1, hp]
        refine ⟨?_, trivial, trivial, by simp⟩
        rw [connInv_open (by simp)]
        refine ⟨by simp, fun ext tail' => ?_⟩
        rw [h ext tail', serve_unfold env tail' count vars (unread ++ ext), streamRecv_mono ext h2]
        simp only [hp, Phase.pending, List.map_nil, List.append_nil]
        simp [List.append_assoc]
  | acting l =>
    rw [connInv_open (by simp)] at h
    obtain ⟨-, h⟩ := h
    cases l with
    | nil =>
      simp only [Conn.run]
      refine ⟨?_, trivial, trivial, by simp⟩
      rw [connInv_open (by simp)]
      exact ⟨by simp, by simpa [Phase.pending] using h⟩
    | cons e l =>
      cases e with
      | write b =>
        simp only [Conn.run]
        refine ⟨?_, trivial, trivial, by simp⟩
        rw [connInv_open (by simp)]
        exact ⟨by simp, by simpa [Phase.pending, Done.effect] using h⟩
      | save r =>
        simp only [Conn.run]
        refine ⟨?_, trivial, trivial, by simp⟩
        rw [connInv_open (by simp)]
        refine ⟨?_, by simpa [Phase.pending, Done.effect] using h⟩
        intro r' left l' he s hs
        injection he with _ he _
        rw [he]; exact hs
  | saving r left l =>
    rw [connInv_open (by simp)] at h
    obtain ⟨hss, h⟩ := h
    cases left with
    | nil =>
      simp only [Conn.run]
      refine ⟨?_, trivial, trivial, by simp⟩
      rw [connInv_open (by simp)]
      exact ⟨by simp, by simpa [Phase.pending, Done.effect] using h⟩
    | cons s left =>
      rcases hsv : s.save r w with ⟨_ | _ | _, w1⟩
      · simp only [Conn.run, hsv]
        refine ⟨?_, trivial, trivial, by simp⟩
        rw [connInv_open (by simp)]
        refine ⟨?_, by simpa [Phase.pending, Done.effect] using h⟩
        intro r' left' l' he s' hs
        injection he with _ he _
        exact hss r (s :: left) l rfl s' (by rw [he]; exact List.mem_cons_of_mem _ hs)
      · simp only [Conn.run, hsv]
        refine ⟨?_, trivial, trivial, by simp⟩
        rw [connInv_open (by simp)]
        exact ⟨by simp, by simpa [Phase.pending, Done.effect] using h⟩
      · simp only [Conn.run, hsv]
        refine ⟨?_, trivial, trivial, fun _ => .inr ⟨s, hss r (s :: left) l rfl s (by simp), r, w, by rw [hsv]⟩⟩
        rw [connInv_open (by simp)]
        exact ⟨hss, by simpa using h⟩

/-- invariant of the process -/
structure GateInv {W : Type} (ss : List (Saver W)) (envs : Nat → Env) (g : Gate W) : Prop where
  conns : ∀ i c, g.conns[i]? = some c → ConnInv ss (envs i) (g.did i) c
  log : ∀ x ∈ g.log, x.1 < g.conns.length
  crash : g.crashed = true → (∃ i c, g.conns[i]? = some c ∧ (serve (envs i) c.tail 0 {} c.received).2 = .crashed) ∨
    ∃ s ∈ ss, ∃ r w, (s.save r w).1 = .panic

theorem did_append {W : Type} (g : Gate W) (i j : Nat) (done : List Done) (conns : List (Conn W)) (w : W) (b : Bool) :
    ({ g with conns := conns, log := g.log ++ done.map (fun d => (i, d)), world := w, crashed := b } : Gate W).did j =
      g.did j ++ if i = j then done.map Done.effect else [] := by
  unfold Gate.did Gate.doneFor
  simp only [List.filter_append, List.map_append]
  congr 1
  split
  · rename_i h; subst h
    induction done with
    | nil => rfl
    | cons d done ih => simpa [List.filter_cons] using ih
  · rename_i h
    induction done with
    | nil => rfl
    | cons d done ih => simpa [List.filter_cons, h] using ih

theorem next_inv {W : Type} (ss : List (Saver W)) (envs : Nat → Env) (g : Gate W) (ev : Event) (h : GateInv ss envs g) :
    GateInv ss envs (g.next ss envs ev) := by
  unfold Gate.next
  split
  · exact h
  rename_i hc
  cases ev with
  | accept =>
    simp only
    split
    · exact ⟨h.conns, h.log, fun hh => absurd hh hc⟩
    · refine ⟨?_, ?_, fun hh => absurd hh hc⟩
      · intro i c hi
        simp only at hi
        by_cases hlt : i < g.conns.length
        · rw [List.getElem?_append_left hlt] at hi
          exact h.conns i c hi
        · rw [List.getElem?_append_right (by omega)] at hi
          have hi0 : i = g.conns.length := by
            by_contra hne
            rw [List.getElem?_eq_none (by simp; omega)] at hi
            cases hi
          subst hi0
          simp only [Nat.sub_self, List.getElem?_cons_zero, Option.some.injEq] at hi
          subst hi
          have hd : g.did g.conns.length = [] := by
            unfold Gate.did Gate.doneFor
            rw [List.filter_eq_nil_iff.mpr]
            · rfl
            · intro x hx
              have := h.log x hx
              simp; omega
          rw [connInv_open (by simp)]
          refine ⟨by simp, fun ext tail => ?_⟩
          show _ = (g.did g.conns.length ++ _ ++ _, _)
          rw [hd]
          simp [Phase.pending]
      · intro x hx
        have := h.log x hx
        simp; omega
  | stop => exact ⟨h.conns, h.log, fun hh => absurd hh hc⟩
  | deliver i b =>
    simp only
    split
    · exact h
    · rename_i c hi
      split
      · rename_i ho
        refine ⟨?_, by simpa using h.log, fun hh => absurd hh hc⟩
        intro j c' hj
        simp only [List.getElem?_set] at hj
        split at hj
        · rename_i hij; subst hij
          split at hj
          · simp only [Option.some.injEq] at hj
            subst hj
            have := h.conns i c hi
            have hne : ∀ e, c.phase ≠ .ended e := by
              intro e he; simp [Conn.open, he] at ho
            rw [connInv_open hne] at this
            apply (connInv_open (by exact hne)).mpr
            refine ⟨this.1, fun ext tail => ?_⟩
            have h2 := this.2 (b ++ ext) tail
            simp only [List.append_assoc] at h2 ⊢
            exact h2
          · cases hj
        · exact h.conns j c' hj
      · exact h
  | finish i t =>
    simp only
    split
    · exact h
    · rename_i c hi
      split
      · rename_i ho
        refine ⟨?_, by simpa using h.log, fun hh => absurd hh hc⟩
        intro j c' hj
        simp only [List.getElem?_set] at hj
        split at hj
        · rename_i hij; subst hij
          split at hj
          · simp only [Option.some.injEq] at hj
            subst hj
            have := h.conns i c hi
            have hne : ∀ e, c.phase ≠ .ended e := by
              intro e he; simp [Conn.open, he] at ho
            rw [connInv_open hne] at this
            apply (connInv_open (by exact hne)).mpr
            exact this
          · cases hj
        · exact h.conns j c' hj
      · exact h
  | step i =>
    simp only
    split
    · exact h
    · rename_i c hi
      obtain ⟨h1, h2, h3, h4⟩ := run_inv ss (envs i) (g.did i) c g.world (h.conns i c hi)
      have hlt : i < g.conns.length := by
        by_contra hn
        rw [List.getElem?_eq_none (by omega)] at hi; cases hi
      refine ⟨?_, ?_, ?_⟩
      · intro j c' hj
        rw [did_append]
        simp only [List.getElem?_set] at hj
        split at hj
        · rename_i hij; subst hij
          simp only [Option.some.injEq] at hj
          subst hj
          rw [if_pos rfl]
          exact h1
        · rename_i hij
          rw [if_neg hij, List.append_nil]
          exact h.conns j c' hj
      · intro x hx
        simp only [List.mem_append, List.mem_map] at hx
        rw [List.length_set]
        rcases hx with hx | ⟨d, -, rfl⟩
        · exact h.log x hx
        · exact hlt
      · intro hcr
        rcases h4 hcr with h4 | h4
        · refine .inl ⟨i, (c.run ss (envs i) g.world).1, ?_, ?_⟩
          · simp [List.getElem?_set, hlt]
          · rw [h2, h3]; exact h4
        · exact .inr h4

theorem run_gate_inv {W : Type} (ss : List (Saver W)) (envs : Nat → Env) (w : W) (evs : List Event) :
    GateInv ss envs (Gate.run ss envs w evs) := by
  have : ∀ (evs : List Event) (g : Gate W), GateInv ss envs g → GateInv ss envs (evs.foldl (Gate.next ss envs) g) := by
    intro evs
    induction evs with
    | nil => intro g h; exact h
    | cons ev evs ih => intro g h; exact ih _ (next_inv ss envs g ev h)
  exact this evs _ ⟨by simp, by simp, by simp⟩

end Egts
