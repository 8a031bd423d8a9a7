import Verif.Props.Gate
set_option autoImplicit false
/- C47 in terms of what the clients send: the history alone, not the state of the process, says what each connection gets. -/
namespace Egts
variable [P : Platform]

omit P in
theorem streamRecv_end {t : Tail} {s : Bytes} {e : End} (ext : Bytes) (h : streamRecv .silent s = .inl e) (he : e ≠ .waiting) :
    streamRecv t (s ++ ext) = .inl e := by
  unfold streamRecv at h
  split at h
  · exact absurd (Sum.inl.inj h).symm he
  · rename_i h10
    split at h
    · rename_i h1
      unfold streamRecv
      rw [if_neg (by simp; omega), if_pos]
      · exact h
      · rw [byteAt_append _ _ _ (by omega)]; exact h1
    · split at h
      · exact absurd (Sum.inl.inj h).symm he
      · cases h

/-- a handler that has returned, the peer having neither closed nor reset the connection, would have done the same whatever came after -/
theorem serve_end (env : Env) (t : Tail) (ext : Bytes) : ∀ (n k : Nat) (v : LoopVars) (s : Bytes) (l : List Effect) (e : End), s.length ≤ n →
    serve env .silent k v s = (l, e) → e ≠ .waiting → serve env t k v (s ++ ext) = (l, e) := by
  intro n
  induction n with
  | zero =>
    intro k v s l e hn h he
    rw [serve_unfold] at h
    have : s = [] := List.eq_nil_of_length_eq_zero (by omega)
    subst this
    simp [streamRecv, cutEnd] at h
    exact absurd h.2.symm he
  | succ n ih =>
    intro k v s l e hn h he
    rw [serve_unfold] at h ⊢
    cases hr : streamRecv .silent s with
    | inl e1 =>
      rw [hr] at h
      obtain ⟨rfl, rfl⟩ := Prod.mk.inj h
      rw [streamRecv_end ext hr he]
    | inr p =>
      obtain ⟨c, rest⟩ := p
      rw [hr] at h
      rw [streamRecv_mono ext hr]
      simp only at h ⊢
      cases hp : handlePacket (env.now k) (env.spare k) v.reset c with
      | panic => rw [hp] at h; exact h
      | diverge => rw [hp] at h; exact h
      | done l1 v1 =>
        rw [hp] at h
        simp only at h ⊢
        have hlt : rest.length < s.length := by
          unfold streamRecv at hr
          split at hr
          · cases hr
          · split at hr
            · cases hr
            · split at hr
              · cases hr
              · have := (Prod.mk.inj (Sum.inr.inj hr)).2
                rw [← this]
                simp
                omega
        obtain ⟨h1, h2⟩ := Prod.mk.inj h
        rw [ih (k + 1) v1 rest (serve env .silent (k + 1) v1 rest).1 (serve env .silent (k + 1) v1 rest).2 (by omega) rfl (by rw [h2]; exact he)]
        exact h

omit P in
theorem streamTo_snoc (i : Nat) (evs : List Event) (ev : Event) : streamTo i (evs ++ [ev]) =
    if (streamTo i evs).2 = .silent then ((streamTo i evs).1 ++ (streamTo i [ev]).1, (streamTo i [ev]).2) else streamTo i evs := by
  induction evs with
  | nil => simp [streamTo]
  | cons e evs ih =>
    cases e with
    | accept => exact ih
    | stop => exact ih
    | step j => exact ih
    | deliver j b =>
      simp only [List.cons_append, streamTo]
      split
      · rw [ih]
        by_cases h : (streamTo i evs).2 = .silent
        · simp [h]
        · simp [h]
      · exact ih
    | finish j t =>
      simp only [List.cons_append, streamTo]
      split
      · rename_i h; simp [h.2]
      · exact ih

/-- what connection `c` has received after `evs`, seen from the history -/
def StreamInv {W : Type} (i : Nat) (evs : List Event) (c : Conn W) : Prop :=
  (c.received = (streamTo i evs).1 ∧ c.tail = (streamTo i evs).2 ∧ ∀ e, c.phase = .ended e → e ≠ .waiting) ∨
  ∃ e, c.phase = .ended e ∧ e ≠ .waiting ∧ c.tail = .silent ∧ ∃ ext, (streamTo i evs).1 = c.received ++ ext

theorem run_keeps {W : Type} (ss : List (Saver W)) (env : Env) (c : Conn W) (w : W) :
    (c.run ss env w).1.received = c.received ∧ (c.run ss env w).1.tail = c.tail ∧
    ((∀ e, c.phase = .ended e → e ≠ .waiting) → ∀ e, (c.run ss env w).1.phase = .ended e → e ≠ .waiting) ∧
    (∀ e, c.phase = .ended e → (c.run ss env w).1 = c) := by
  obtain ⟨received, unread, tail, vars, count, phase⟩ := c
  cases phase with
  | ended e => simp [Conn.run]
  | idle =>
    simp only [Conn.run]
    cases hr : recvPacket tail [unread] with
    | stop e => cases e <;> simp
    | packet p rest =>
      simp only
      cases handlePacket (env.now count) (env.spare count) vars.reset p <;> simp
  | acting l =>
    cases l with
    | nil => simp [Conn.run]
    | cons a l => cases a <;> simp [Conn.run]
  | saving r left l =>
    cases left with
    | nil => simp [Conn.run]
    | cons s left =>
      simp only [Conn.run]
      rcases s.save r w with ⟨_ | _ | _, w1⟩ <;> simp

/-- an open connection takes everything -/
theorem StreamInv.opened {W : Type} {i : Nat} {evs : List Event} {c : Conn W} (h : StreamInv i evs c) (ho : c.open = true) (ev : Event) (c' : Conn W)
    (hp : c'.phase = c.phase) (hr : c'.received = c.received ++ (streamTo i [ev]).1) (ht : c'.tail = (streamTo i [ev]).2) :
    StreamInv i (evs ++ [ev]) c' := by
  have hs : c.tail = .silent ∧ ∀ e, c.phase ≠ .ended e := by
    unfold Conn.open at ho
    split at ho
    · cases ho
    · rename_i h1 h2; exact ⟨h1, fun e he => h2 e he⟩
    · cases ho
  rcases h with ⟨h1, h2, -⟩ | ⟨e, h1, -⟩
  · left
    rw [streamTo_snoc, if_pos (h2.symm.trans hs.1), hr, ht, h1]
    exact ⟨rfl, rfl, fun e he => absurd (hp ▸ he) (hs.2 e)⟩
  · exact absurd h1 (hs.2 e)

/-- a closed connection takes nothing -/
theorem StreamInv.closed {W : Type} {i : Nat} {evs : List Event} {c : Conn W} (h : StreamInv i evs c) (ho : c.open ≠ true) (ev : Event) :
    StreamInv i (evs ++ [ev]) c := by
  by_cases hs : (streamTo i evs).2 = .silent
  · right
    have he : ∃ e, c.phase = .ended e ∧ e ≠ .waiting ∧ c.tail = .silent ∧ ∃ ext, (streamTo i evs).1 = c.received ++ ext := by
      rcases h with ⟨h1, h2, h3⟩ | h
      · have ht : c.tail = .silent := h2.trans hs
        unfold Conn.open at ho
        rw [ht] at ho
        cases hp : c.phase with
        | ended e => exact ⟨e, rfl, h3 e hp, ht, [], by simp [h1]⟩
        | idle => rw [hp] at ho; exact absurd rfl ho
        | acting l => rw [hp] at ho; exact absurd rfl ho
        | saving r l t => rw [hp] at ho; exact absurd rfl ho
      · exact h
    obtain ⟨e, h1, h2, h3, ext, h4⟩ := he
    refine ⟨e, h1, h2, h3, ext ++ (streamTo i [ev]).1, ?_⟩
    rw [streamTo_snoc, if_pos hs, h4, List.append_assoc]
  · unfold StreamInv
    rw [streamTo_snoc, if_neg hs]
    exact h

theorem next_stream {W : Type} (ss : List (Saver W)) (envs : Nat → Env) (g : Gate W) (i : Nat) (evs : List Event) (ev : Event) (c : Conn W)
    (hi : g.conns[i]? = some c) (h : StreamInv i evs c) (hc : g.crashed = false) :
    ∃ c', (g.next ss envs ev).conns[i]? = some c' ∧ StreamInv i (evs ++ [ev]) c' := by
  have hlt : i < g.conns.length := by
    by_contra hn
    rw [List.getElem?_eq_none (by omega)] at hi; cases hi
  have other : streamTo i [ev] = ([], .silent) → StreamInv i (evs ++ [ev]) c := by
    intro he
    unfold StreamInv at h ⊢
    rw [streamTo_snoc, he]
    split
    · rename_i hs
      rw [hs] at h
      simpa using h
    · exact h
  unfold Gate.next
  rw [hc]
  simp only [Bool.false_eq_true, if_false]
  cases ev with
  | accept =>
    simp only
    split
    · exact ⟨c, hi, other rfl⟩
    · exact ⟨c, by simp [List.getElem?_append_left hlt, hi], other rfl⟩
  | stop => exact ⟨c, hi, other rfl⟩
  | deliver j b =>
    by_cases hj : j = i
    · subst hj
      simp only [hi]
      by_cases ho : c.open = true
      · rw [if_pos ho]
        refine ⟨_, List.getElem?_set_self hlt, h.opened ho _ _ rfl ?_ ?_⟩
        · simp [streamTo]
        · simp only [streamTo, if_true]
          unfold Conn.open at ho
          split at ho
          · cases ho
          · assumption
          · cases ho
      · rw [if_neg ho]
        exact ⟨c, hi, h.closed ho _⟩
    · have : streamTo i [.deliver j b] = ([], .silent) := by simp [streamTo, hj]
      simp only
      split
      · exact ⟨c, hi, other this⟩
      · split
        · exact ⟨c, by simp [List.getElem?_set_ne hj, hi], other this⟩
        · exact ⟨c, hi, other this⟩
  | finish j t =>
    by_cases hj : j = i
    · subst hj
      simp only [hi]
      by_cases ho : c.open = true
      · rw [if_pos ho]
        refine ⟨_, List.getElem?_set_self hlt, h.opened ho _ _ rfl ?_ ?_⟩
        · cases t <;> simp [streamTo]
        · cases t <;> simp [streamTo]
      · rw [if_neg ho]
        exact ⟨c, hi, h.closed ho _⟩
    · have : streamTo i [.finish j t] = ([], .silent) := by simp [streamTo, hj]
      simp only
      split
      · exact ⟨c, hi, other this⟩
      · split
        · exact ⟨c, by simp [List.getElem?_set_ne hj, hi], other this⟩
        · exact ⟨c, hi, other this⟩
  | step j =>
    simp only
    split
    · exact ⟨c, hi, other rfl⟩
    · rename_i c1 hc1
      by_cases hj : j = i
      · subst hj
        obtain rfl : c1 = c := Option.some.inj (hc1.symm.trans hi)
        obtain ⟨k1, k2, k3, k4⟩ := run_keeps ss (envs j) c1 g.world
        refine ⟨(c1.run ss (envs j) g.world).1, by simp [hlt], ?_⟩
        have h' := other rfl
        unfold StreamInv at h' ⊢
        rcases h' with ⟨e1, e2, e3⟩ | ⟨e, e1, e2⟩
        · left; rw [k1, k2]; exact ⟨e1, e2, k3 e3⟩
        · right; rw [k4 e e1]; exact ⟨e, e1, e2⟩
      · exact ⟨c, by simp [List.getElem?_set_ne hj, hi], other rfl⟩

theorem stays_crashed {W : Type} (ss : List (Saver W)) (envs : Nat → Env) (evs : List Event) (g : Gate W) (h : g.crashed = true) :
    evs.foldl (Gate.next ss envs) g = g := by
  induction evs with
  | nil => rfl
  | cons ev evs ih =>
    rw [List.foldl_cons]
    have : g.next ss envs ev = g := by unfold Gate.next; rw [if_pos h]
    rw [this, ih]

theorem all_streams {W : Type} (ss : List (Saver W)) (envs : Nat → Env) (i : Nat) (evs : List Event) : ∀ (past : List Event) (g : Gate W) (c : Conn W),
    g.conns[i]? = some c → StreamInv i past c → (evs.foldl (Gate.next ss envs) g).crashed = false →
    ∃ c', (evs.foldl (Gate.next ss envs) g).conns[i]? = some c' ∧ StreamInv i (past ++ evs) c' := by
  induction evs with
  | nil => intro past g c hi h _; exact ⟨c, hi, by simpa using h⟩
  | cons ev evs ih =>
    intro past g c hi h hc
    have hg : g.crashed = false := by
      cases hh : g.crashed with
      | false => rfl
      | true => rw [stays_crashed ss envs _ g hh] at hc; rw [hc] at hh; cases hh
    obtain ⟨c1, h1, h2⟩ := next_stream ss envs g i past ev c hi h hg
    obtain ⟨c2, h3, h4⟩ := ih (past ++ [ev]) _ c1 h1 h2 hc
    exact ⟨c2, h3, by simpa using h4⟩

/-- C47: take any history of the process: anything at all, then a connection accepted (the listener being open), then anything at all, with the process still alive at
the end. What has been sent to this client and stored for it is always a beginning of what a server that has only this client would have done with
the bytes this client has sent; and as soon as its handler has nothing left to do, it is exactly that, and the connection is in the same state. -/
theorem every_client_served {W : Type} (ss : List (Saver W)) (envs : Nat → Env) (w : W) (before after : List Event)
    (hopen : (Gate.run ss envs w before).stopped = false)
    (halive : (Gate.run ss envs w (before ++ .accept :: after)).crashed = false) (i : Nat) (hi : i = (Gate.run ss envs w before).conns.length) :
    ∃ c, (Gate.run ss envs w (before ++ .accept :: after)).conns[i]? = some c ∧
      (Gate.run ss envs w (before ++ .accept :: after)).did i <+:
        (handleConn (envs i) true (streamTo i after).2 [(streamTo i after).1]).1 ∧
      (Settled ss (envs i) c → ((Gate.run ss envs w (before ++ .accept :: after)).did i, c.state) =
        handleConn (envs i) true (streamTo i after).2 [(streamTo i after).1]) := by
  have hfold : Gate.run ss envs w (before ++ .accept :: after) =
      after.foldl (Gate.next ss envs) ((Gate.run ss envs w before).next ss envs .accept) := by simp [Gate.run]
  have hb : (Gate.run ss envs w before).crashed = false := by
    cases hh : (Gate.run ss envs w before).crashed with
    | false => rfl
    | true =>
      have h1 : Gate.run ss envs w (before ++ .accept :: after) = (Event.accept :: after).foldl (Gate.next ss envs) (Gate.run ss envs w before) := by
        simp [Gate.run]
      rw [h1, stays_crashed ss envs _ _ hh, hh] at halive
      cases halive
  have hacc : ((Gate.run ss envs w before).next ss envs .accept).conns[i]? = some {} := by
    unfold Gate.next
    rw [hb, hopen, hi]
    simp
  obtain ⟨c, h1, h2⟩ := all_streams ss envs i after [] _ _ hacc (.inl ⟨rfl, rfl, by simp⟩) (by rw [← hfold]; exact halive)
  rw [← hfold] at h1
  rw [List.nil_append] at h2
  have hsame : handleConn (envs i) true (streamTo i after).2 [(streamTo i after).1] = handleConn (envs i) true c.tail [c.received] := by
    rcases h2 with ⟨e1, e2, -⟩ | ⟨e, e1, e2, e3, ext, e4⟩
    · rw [e1, e2]
    · have hinv := (run_gate_inv ss envs w (before ++ .accept :: after)).conns i c h1
      unfold ConnInv at hinv
      rw [e1] at hinv
      simp only at hinv
      rw [handleConn_serve, handleConn_serve, conn_stream, conn_stream, hinv, e4]
      rw [e3] at hinv
      exact serve_end _ _ ext _ _ _ _ _ _ (Nat.le_refl _) hinv e2
  refine ⟨c, h1, ?_, ?_⟩
  · rw [hsame]; exact isolation_prefix ss envs w _ i c h1
  · intro hs; rw [hsame]; exact isolation ss envs w _ i c h1 hs

/-- non-trivial case (test): two clients, the first sends any packet in two pieces and closes, and in between anything happens that is not an event of its connection; once its
handler has nothing left to do, it has been served exactly as if it had been alone -/
example {W : Type} (ss : List (Saver W)) (envs : Nat → Env) (w : W) (x : Bytes) (evs1 evs2 : List Event)
    (hx : streamTo 0 ([.accept, .deliver 1 x, .deliver 0 (x.take 20)] ++ evs1 ++
      [.deliver 0 (x.drop 20), .finish 0 .eof] ++ evs2) = (x, .eof))
    (hl : (Gate.run ss envs w ([] ++ .accept :: ([.accept, .deliver 1 x, .deliver 0 (x.take 20)] ++ evs1 ++
      [.deliver 0 (x.drop 20), .finish 0 .eof] ++ evs2))).crashed = false) :
    ∃ c, (Gate.run ss envs w ([] ++ .accept :: ([.accept, .deliver 1 x, .deliver 0 (x.take 20)] ++ evs1 ++
      [.deliver 0 (x.drop 20), .finish 0 .eof] ++ evs2))).conns[0]? = some c ∧ (Settled ss (envs 0) c →
    (Gate.run ss envs w ([] ++ .accept :: ([.accept, .deliver 1 x, .deliver 0 (x.take 20)] ++ evs1 ++
      [.deliver 0 (x.drop 20), .finish 0 .eof] ++ evs2))).did 0 = (handleConn (envs 0) true .eof [x]).1) := by
  obtain ⟨c, h1, -, h2⟩ := every_client_served ss envs w [] _ rfl hl 0 rfl
  exact ⟨c, h1, fun hs => by have := congrArg Prod.fst (h2 hs); rw [hx] at this; exact this⟩

omit P in
/-- with nothing in between -/
example (x : Bytes) : streamTo 0 ([.accept, .deliver 1 x, .deliver 0 (x.take 20), .step 0, .step 1, .deliver 0 (x.drop 20), .finish 0 .eof,
    .deliver 0 [7]]) = (x, .eof) := by
  simp [streamTo]

end Egts
