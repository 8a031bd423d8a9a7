import Verif.Props.StorageCalls
set_option autoImplicit false
/- C75, C76: exactly which configured values reach PostgreSQL and RabbitMQ. -/
namespace Egts

namespace Pq

theorem fine_go_val (k : Bytes) : ∀ (v v0 s : Bytes), (∀ c ∈ v, isSpace c = false ∧ c ≠ 92) →
    go (.val k v0) (v ++ 32 :: s) = (go .skip s).map ((k, v0 ++ v) :: ·)
  | [], v0, s, _ => by simp [go, isSpace]
  | c :: v, v0, s, h => by
    have hc := h c (by simp)
    rw [List.cons_append]
    simp only [go, hc.1, hc.2, if_false, Bool.false_eq_true]
    rw [fine_go_val k v (v0 ++ [c]) s (fun d hd => h d (by simp [hd]))]
    simp

theorem fine_go_val_end (k : Bytes) : ∀ (v v0 : Bytes), (∀ c ∈ v, isSpace c = false ∧ c ≠ 92) →
    go (.val k v0) v = some [(k, v0 ++ v)]
  | [], v0, _ => by simp [go]
  | c :: v, v0, h => by
    have hc := h c (by simp)
    simp only [go, hc.1, hc.2, if_false, Bool.false_eq_true]
    rw [fine_go_val_end k v (v0 ++ [c]) (fun d hd => h d (by simp [hd]))]
    simp

theorem fine_go_val0 (k v s : Bytes) (h : Fine v) : go (.val0 k) (v ++ 32 :: s) = (go .skip s).map ((k, v) :: ·) := by
  cases v with
  | nil => exact absurd rfl h.1
  | cons c v =>
    have hc := h.2.2 c (by simp)
    have hq : c ≠ 39 := fun e => h.2.1 (by simp [e])
    rw [List.cons_append]
    simp only [go, hc.1, hc.2, hq, if_false, Bool.false_eq_true]
    rw [fine_go_val k v [c] s (fun d hd => h.2.2 d (by simp [hd]))]
    rfl

theorem fine_go_val0_end (k v : Bytes) (h : v = [] ∨ Fine v) : go (.val0 k) v = some [(k, v)] := by
  cases v with
  | nil => rfl
  | cons c v =>
    have h : Fine (c :: v) := h.resolve_left (by simp)
    have hc := h.2.2 c (by simp)
    have hq : c ≠ 39 := fun e => h.2.1 (by simp [e])
    simp only [go, hc.1, hc.2, hq, if_false, Bool.false_eq_true]
    rw [fine_go_val_end k v [c] (fun d hd => h.2.2 d (by simp [hd]))]
    rfl

/-- what a reader of a value has done when the settings are read: it took the prefix `c` of the text and added `r` to the
value. An ordinary letter `l` is never lost, and at least the end of the value is consumed in addition. -/
def Took (l : UInt8) (k u t : Bytes) (x : Bytes × Bytes) : Prop :=
  ∃ r c t', x = (k, u ++ r) ∧ t = c ++ t' ∧ c.count l = r.count l ∧ r.length ≤ c.length ∧ (t' = [] ∨ r.length + 1 ≤ c.length)

/-- an ordinary letter: not white space, quote or backslash -/
def Letter (l : UInt8) : Prop := isSpace l = false ∧ l ≠ 39 ∧ l ≠ 92

theorem Took.cons {l : UInt8} {k u t : Bytes} {x : Bytes × Bytes} (d : UInt8) (hd : d ≠ l) (h : Took l k u t x) :
    Took l k u (d :: t) x := by
  obtain ⟨r, c, t', h1, h2, h3, h4, h5⟩ := h
  refine ⟨r, d :: c, t', h1, by simp [h2], by simp [h3, hd], by simp; omega, ?_⟩
  rcases h5 with h5 | h5
  · exact .inl h5
  · right; simp; omega

theorem Took.push {l : UInt8} {k u t : Bytes} {x : Bytes × Bytes} (d : UInt8) (h : Took l k (u ++ [d]) t x) :
    Took l k u (d :: t) x := by
  obtain ⟨r, c, t', h1, h2, h3, h4, h5⟩ := h
  refine ⟨d :: r, d :: c, t', by simp [h1], by simp [h2], by simp [List.count_cons, h3], by simp; omega, ?_⟩
  rcases h5 with h5 | h5
  · exact .inl h5
  · right; simp; omega

theorem Took.stop {l : UInt8} {k u t : Bytes} (d : UInt8) (hd : d ≠ l) : Took l k u (d :: t) (k, u) :=
  ⟨[], [d], t, by simp, by simp, by simp [hd], by simp, by simp⟩

theorem space_ne {l d : UInt8} (hl : Letter l) (hd : isSpace d = true) : d ≠ l := by
  intro e; rw [e, hl.1] at hd; exact absurd hd (by decide)

mutual
theorem val_took (l : UInt8) (hl : Letter l) (k : Bytes) : ∀ (t u : Bytes) (x : Bytes × Bytes) (rest : List (Bytes × Bytes)),
    go (.val k u) t = some (x :: rest) → Took l k u t x
  | [], u, x, rest, h => by
    simp only [go, Option.some.injEq, List.cons.injEq] at h
    exact ⟨[], [], [], by simp [h.1], rfl, rfl, by simp, .inl rfl⟩
  | d :: t, u, x, rest, h => by
    simp only [go] at h
    split at h
    · rename_i hs
      cases hg : go .skip t with
      | none => rw [hg] at h; simp at h
      | some z =>
        rw [hg] at h
        simp only [Option.map_some, Option.some.injEq, List.cons.injEq] at h
        rw [← h.1]
        exact Took.stop d (space_ne hl hs)
    · split at h
      · rename_i hb
        exact Took.cons d (fun e => hl.2.2 (by rw [← e, hb])) (esc_took l hl k t u x rest h)
      · exact Took.push d (val_took l hl k t (u ++ [d]) x rest h)
theorem esc_took (l : UInt8) (hl : Letter l) (k : Bytes) : ∀ (t u : Bytes) (x : Bytes × Bytes) (rest : List (Bytes × Bytes)),
    go (.esc k u) t = some (x :: rest) → Took l k u t x
  | [], u, x, rest, h => by simp [go] at h
  | d :: t, u, x, rest, h => by
    simp only [go] at h
    exact Took.push d (val_took l hl k t (u ++ [d]) x rest h)
end

mutual
theorem quoted_took (l : UInt8) (hl : Letter l) (k : Bytes) : ∀ (t u : Bytes) (x : Bytes × Bytes) (rest : List (Bytes × Bytes)),
    go (.quoted k u) t = some (x :: rest) → Took l k u t x
  | [], u, x, rest, h => by simp [go] at h
  | d :: t, u, x, rest, h => by
    simp only [go] at h
    split at h
    · rename_i hs
      cases hg : go .skip t with
      | none => rw [hg] at h; simp at h
      | some z =>
        rw [hg] at h
        simp only [Option.map_some, Option.some.injEq, List.cons.injEq] at h
        rw [← h.1]
        exact Took.stop d (fun e => hl.2.1 (by rw [← e, hs]))
    · split at h
      · rename_i hb
        exact Took.cons d (fun e => hl.2.2 (by rw [← e, hb])) (qesc_took l hl k t u x rest h)
      · exact Took.push d (quoted_took l hl k t (u ++ [d]) x rest h)
theorem qesc_took (l : UInt8) (hl : Letter l) (k : Bytes) : ∀ (t u : Bytes) (x : Bytes × Bytes) (rest : List (Bytes × Bytes)),
    go (.qesc k u) t = some (x :: rest) → Took l k u t x
  | [], u, x, rest, h => by simp [go] at h
  | d :: t, u, x, rest, h => by
    simp only [go] at h
    exact Took.push d (quoted_took l hl k t (u ++ [d]) x rest h)
end

theorem val0_took (l : UInt8) (hl : Letter l) (k : Bytes) : ∀ (t : Bytes) (x : Bytes × Bytes) (rest : List (Bytes × Bytes)),
    go (.val0 k) t = some (x :: rest) → Took l k [] t x
  | [], x, rest, h => by
    simp only [go, Option.some.injEq, List.cons.injEq] at h
    exact ⟨[], [], [], by simp [h.1], rfl, rfl, by simp, .inl rfl⟩
  | d :: t, x, rest, h => by
    simp only [go] at h
    split at h
    · rename_i hs; exact Took.cons d (space_ne hl hs) (val0_took l hl k t x rest h)
    · split at h
      · rename_i hq; exact Took.cons d (fun e => hl.2.1 (by rw [← e, hq])) (quoted_took l hl k t [] x rest h)
      · split at h
        · rename_i hb; exact Took.cons d (fun e => hl.2.2 (by rw [← e, hb])) (esc_took l hl k t [] x rest h)
        · exact Took.push d (val_took l hl k t [d] x rest h)

/-- a value that lost its first character `d` (not a letter) cannot come back complete: the letter that follows it in the
text would have been taken too -/
theorem Took.short {l : UInt8} {k u : Bytes} {d : UInt8} {b s : Bytes} (hd : d ≠ l)
    (h : Took l k u (b ++ 32 :: l :: s) (k, u ++ d :: b)) : False := by
  obtain ⟨r, c, t', h1, h2, h3, h4, h5⟩ := h
  simp only [Prod.mk.injEq, List.append_cancel_left_eq, true_and] at h1
  subst h1
  have hc : ∃ c', c = b ++ 32 :: l :: c' := by
    rcases h5 with h5 | h5
    · subst h5; exact ⟨s, by simpa using h2.symm⟩
    · have hpre : (b ++ [32, l]) <+: c := by
        refine List.prefix_of_prefix_length_le (l₃ := c ++ t') ?_ (List.prefix_append _ _) (by simp at h5 ⊢; omega)
        rw [← h2]; exact ⟨s, by simp⟩
      obtain ⟨c', hc'⟩ := hpre
      exact ⟨c', by rw [← hc']; simp⟩
  obtain ⟨c', rfl⟩ := hc
  simp only [List.count_append, List.count_cons, beq_self_eq_true, if_true] at h3
  have : (d == l) = false := by simpa using hd
  rw [this] at h3
  simp only [Bool.false_eq_true, if_false] at h3
  omega

/-- … nor at the end of the text -/
theorem Took.short_end {l : UInt8} {k u : Bytes} {d : UInt8} {b : Bytes} (h : Took l k u b (k, u ++ d :: b)) : False := by
  obtain ⟨r, c, t', h1, h2, _, h4, _⟩ := h
  simp only [Prod.mk.injEq, List.append_cancel_left_eq, true_and] at h1
  subst h1
  have := congrArg List.length h2
  simp at this h4
  omega

theorem val_exact (l : UInt8) (hl : Letter l) (k s : Bytes) (rest : List (Bytes × Bytes)) : ∀ w u : Bytes,
    go (.val k u) (w ++ 32 :: l :: s) = some ((k, u ++ w) :: rest) → ∀ c ∈ w, isSpace c = false ∧ c ≠ 92
  | [], _, _ => by simp
  | d :: w, u, h => by
    have h0 := h
    rw [List.cons_append] at h
    simp only [go] at h
    split at h
    · rename_i hs
      cases hg : go .skip (w ++ 32 :: l :: s) with
      | none => rw [hg] at h; simp at h
      | some z =>
        rw [hg] at h
        simp at h
    · rename_i hs
      split at h
      · rename_i hb
        exact (Took.short (fun e => hl.2.2 (by rw [← e, hb])) (esc_took l hl k _ u _ rest h)).elim
      · rename_i hb
        have := val_exact l hl k s rest w (u ++ [d]) (by simpa using h)
        intro c hc
        rcases List.mem_cons.mp hc with e | e
        · rw [e]; exact ⟨by simpa using hs, hb⟩
        · exact this c e

theorem val_exact_end (k : Bytes) (rest : List (Bytes × Bytes)) : ∀ w u : Bytes,
    go (.val k u) w = some ((k, u ++ w) :: rest) → ∀ c ∈ w, isSpace c = false ∧ c ≠ 92
  | [], _, _ => by simp
  | d :: w, u, h => by
    simp only [go] at h
    split at h
    · rename_i hs
      cases hg : go .skip w with
      | none => rw [hg] at h; simp at h
      | some z =>
        rw [hg] at h
        simp at h
    · rename_i hs
      split at h
      · rename_i hb
        exact (Took.short_end (l := 97) (esc_took 97 (by unfold Letter; decide) k _ u _ rest h)).elim
      · rename_i hb
        have := val_exact_end k rest w (u ++ [d]) (by simpa using h)
        intro c hc
        rcases List.mem_cons.mp hc with e | e
        · rw [e]; exact ⟨by simpa using hs, hb⟩
        · exact this c e

/-- a value followed by another keyword is read as itself exactly if it is fine -/
theorem val0_exact (l : UInt8) (hl : Letter l) (k v s : Bytes) (rest : List (Bytes × Bytes))
    (h : go (.val0 k) (v ++ 32 :: l :: s) = some ((k, v) :: rest)) : Fine v := by
  cases v with
  | nil =>
    exfalso
    have h1 : isSpace 32 = true := by decide
    simp only [List.nil_append, go, h1, if_true, hl.1, hl.2.1, hl.2.2, Bool.false_eq_true, if_false] at h
    obtain ⟨r, c, t', e, _⟩ := val_took l hl k s [l] _ rest h
    simp at e
  | cons d b =>
    rw [List.cons_append] at h
    simp only [go] at h
    split at h
    · rename_i hs
      exact (Took.short (u := []) (space_ne hl hs) (val0_took l hl k _ _ rest h)).elim
    · rename_i hs
      split at h
      · rename_i hq
        exact (Took.short (u := []) (fun e => hl.2.1 (by rw [← e, hq])) (quoted_took l hl k _ [] _ rest h)).elim
      · rename_i hq
        split at h
        · rename_i hb
          exact (Took.short (u := []) (fun e => hl.2.2 (by rw [← e, hb])) (esc_took l hl k _ [] _ rest h)).elim
        · rename_i hb
          have := val_exact l hl k s rest b [d] (by simpa using h)
          refine ⟨by simp, by simpa using hq, ?_⟩
          intro c hc
          rcases List.mem_cons.mp hc with e | e
          · rw [e]; exact ⟨by simpa using hs, hb⟩
          · exact this c e

/-- the last value is read as itself exactly if it is empty or fine -/
theorem val0_exact_end (k v : Bytes) (rest : List (Bytes × Bytes))
    (h : go (.val0 k) v = some ((k, v) :: rest)) : v = [] ∨ Fine v := by
  have hl : Letter 97 := by unfold Letter; decide
  cases v with
  | nil => exact .inl rfl
  | cons d b =>
    right
    simp only [go] at h
    split at h
    · exact (Took.short_end (u := []) (val0_took 97 hl k _ _ rest h)).elim
    · rename_i hs
      split at h
      · exact (Took.short_end (u := []) (quoted_took 97 hl k _ [] _ rest h)).elim
      · rename_i hq
        split at h
        · exact (Took.short_end (u := []) (esc_took 97 hl k _ [] _ rest h)).elim
        · rename_i hb
          have := val_exact_end k rest b [d] (by simpa using h)
          refine ⟨by simp, by simpa using hq, ?_⟩
          intro c hc
          rcases List.mem_cons.mp hc with e | e
          · rw [e]; exact ⟨by simpa using hs, hb⟩
          · exact this c e

/-- one setting followed by another -/
theorem setting_iff (c : UInt8) (w v : Bytes) (l : UInt8) (t : Bytes) (rest : List (Bytes × Bytes))
    (hs : ∀ d ∈ c :: w, isSpace d = false ∧ d ≠ 61) (hl : Letter l) (ht : t.head? = some l) :
    go .skip (c :: w ++ 61 :: (v ++ 32 :: t)) = some ((c :: w, v) :: rest) ↔
      Fine v ∧ go .skip t = some rest := by
  obtain ⟨s, rfl⟩ : ∃ s, t = l :: s := by
    cases t with
    | nil => simp at ht
    | cons a s => exact ⟨s, by simpa using ht⟩
  rw [go_skip c w _ hs]
  constructor
  · intro h
    have hf := val0_exact l hl _ _ _ _ h
    refine ⟨hf, ?_⟩
    rw [fine_go_val0 _ _ _ hf] at h
    cases hg : go .skip (l :: s) with
    | none => rw [hg] at h; simp at h
    | some z => rw [hg] at h; simpa using h
  · rintro ⟨hf, hr⟩
    rw [fine_go_val0 _ _ _ hf, hr]; rfl

/-- the last setting -/
theorem setting_end_iff (c : UInt8) (w v : Bytes) (hs : ∀ d ∈ c :: w, isSpace d = false ∧ d ≠ 61) :
    go .skip (c :: w ++ 61 :: v) = some [(c :: w, v)] ↔ v = [] ∨ Fine v := by
  rw [go_skip c w _ hs]
  exact ⟨val0_exact_end _ _ _, fine_go_val0_end _ _⟩

end Pq

/-- C75, exactly: the connection text of postgresql is read as the six configured values, in their roles, if and only if
database, host, port, user and password are fine (not empty, no white space, no backslash, no quote at the beginning) and
the TLS mode is fine or empty. (Values in ASCII, for which the reader of the specification is the one of the library.) -/
theorem pg_settings_iff (p : Params) :
    Pq.parse (pgDsn p) = some [(asc "dbname", p.str "database"), (asc "host", p.str "host"), (asc "port", p.str "port"),
      (asc "user", p.str "user"), (asc "password", p.str "password"), (asc "sslmode", p.str "sslmode")] ↔
    Pq.Fine (p.str "database") ∧ Pq.Fine (p.str "host") ∧ Pq.Fine (p.str "port") ∧ Pq.Fine (p.str "user") ∧
      Pq.Fine (p.str "password") ∧ (p.str "sslmode" = [] ∨ Pq.Fine (p.str "sslmode")) := by
  rw [pgDsn_eq]
  show Pq.go .skip _ = _ ↔ _
  have L1 : Pq.Letter 104 := by unfold Pq.Letter; decide
  have L2 : Pq.Letter 112 := by unfold Pq.Letter; decide
  have L3 : Pq.Letter 117 := by unfold Pq.Letter; decide
  have L4 : Pq.Letter 115 := by unfold Pq.Letter; decide
  rw [show asc "dbname" = 100 :: [98, 110, 97, 109, 101] by decide, show asc "host" = 104 :: [111, 115, 116] by decide,
    show asc "port" = 112 :: [111, 114, 116] by decide, show asc "user" = 117 :: [115, 101, 114] by decide,
    show asc "password" = 112 :: [97, 115, 115, 119, 111, 114, 100] by decide,
    show asc "sslmode" = 115 :: [115, 108, 109, 111, 100, 101] by decide]
  rw [Pq.setting_iff _ _ _ _ _ _ (by decide) L1, Pq.setting_iff _ _ _ _ _ _ (by decide) L2,
    Pq.setting_iff _ _ _ _ _ _ (by decide) L3, Pq.setting_iff _ _ _ _ _ _ (by decide) L2,
    Pq.setting_iff _ _ _ _ _ _ (by decide) L4, Pq.setting_end_iff _ _ _ (by decide)]
  all_goals rfl

/-- both sides occur: the sample configuration, and the same with a quote inside the password; an empty password -/
example : (Pq.parse (pgDsn samplePg)).isSome = true ∧ Pq.Fine (asc "it's") ∧ ¬ Pq.Plain (asc "it's") ∧ ¬ Pq.Fine [] ∧
    ¬ Pq.Fine (asc "'x'") := by
  refine ⟨by rfl, ?_, ?_, ?_, ?_⟩
  · unfold Pq.Fine; decide
  · unfold Pq.Plain; decide
  · unfold Pq.Fine; decide
  · unfold Pq.Fine; decide

namespace Uri

theorem cutAt_spec (c : UInt8) : ∀ (s a b : Bytes), cut c s = some (a, b) → s = a ++ c :: b ∧ c ∉ a
  | [], a, b, h => by simp [cut] at h
  | x :: s, a, b, h => by
    simp only [cut] at h
    split at h
    · rename_i e
      simp only [Option.some.injEq, Prod.mk.injEq] at h
      obtain ⟨rfl, rfl⟩ := h
      simp [e]
    · rename_i hx
      cases hg : cut c s with
      | none => rw [hg] at h; simp at h
      | some z =>
        rw [hg] at h
        obtain ⟨a', b'⟩ := z
        simp only [Option.map_some, Option.some.injEq, Prod.mk.injEq] at h
        obtain ⟨rfl, rfl⟩ := h
        have := cutAt_spec c s a' b' hg
        refine ⟨by simp [this.1], ?_⟩
        intro m
        rcases List.mem_cons.mp m with e | e
        · exact hx e.symm
        · exact this.2 e

theorem cutLast_spec (c : UInt8) (s a b : Bytes) (h : cutLast c s = some (a, b)) : s = a ++ c :: b ∧ c ∉ b := by
  unfold cutLast at h
  cases hg : cut c s.reverse with
  | none => rw [hg] at h; simp at h
  | some z =>
    rw [hg] at h
    obtain ⟨x, y⟩ := z
    simp only [Option.map_some, Option.some.injEq, Prod.mk.injEq] at h
    obtain ⟨rfl, rfl⟩ := h
    have := cutAt_spec c _ _ _ hg
    refine ⟨?_, by simpa using this.2⟩
    have e := congrArg List.reverse this.1
    simpa using e

theorem unescape_len : ∀ (n : Nat) (v r : Bytes), v.length = n → unescape v = some r →
    (r.length = v.length ∧ 37 ∉ v) ∨ r.length + 2 ≤ v.length := by
  intro n
  induction n using Nat.strongRecOn with
  | ind n ih =>
    intro v r hn h
    match v with
    | [] => simp [unescape] at h; subst h; simp
    | c :: s =>
      by_cases hc : c = 37
      · subst hc
        match s with
        | [] => simp [unescape] at h
        | [_] => simp [unescape] at h
        | a :: b :: s =>
          simp only [unescape] at h
          split at h
          · cases hg : unescape s with
            | none => rw [hg] at h; simp at h
            | some z =>
              rw [hg] at h
              simp only [Option.map_some, Option.some.injEq] at h
              subst h
              have := ih s.length (by simp at hn; omega) s z rfl hg
              simp only [List.length_cons]
              omega
          · simp at h
      · rw [unescape] at h
        · cases hg : unescape s with
          | none => rw [hg] at h; simp at h
          | some z =>
            rw [hg] at h
            simp only [Option.map_some, Option.some.injEq] at h
            subst h
            have := ih s.length (by simp at hn; omega) s z rfl hg
            rcases this with ⟨e, m⟩ | e
            · left
              simp only [List.mem_cons, not_or, List.length_cons]
              exact ⟨by omega, fun e => hc e.symm, m⟩
            · right; simp only [List.length_cons]; omega
        · intro a b s e _; exact hc e
        · intro e; exact hc e

end Uri

/-- C76, exactly: for a host name as host, the URI that rabbitmq is given is read as the four configured values if and only
if user and password consist of characters that a user information may contain, without `%` (and the user without `:`), and
the port consists of digits. -/
theorem amqp_settings_iff (p : Params) (hh : Uri.HostName (p.str "host")) (s : Bytes) (hs : amqpUrl p = asc "amqp://" ++ s) :
    Uri.parse s = some ⟨p.str "user", some (p.str "password"), p.str "host", p.str "port"⟩ ↔
      (∀ c ∈ p.str "user", Uri.userinfoChar c = true ∧ c ≠ 37 ∧ c ≠ 58) ∧
      (∀ c ∈ p.str "password", Uri.userinfoChar c = true ∧ c ≠ 37) ∧ (∀ c ∈ p.str "port", Uri.isDigit c = true) := by
  have hs' : s = p.str "user" ++ 58 :: (p.str "password") ++ 64 :: (p.str "host" ++ 58 :: p.str "port") ++ [47] := by
    have : asc "amqp://" ++ s = asc "amqp://" ++
        (p.str "user" ++ 58 :: (p.str "password") ++ 64 :: (p.str "host" ++ 58 :: p.str "port") ++ [47]) := by
      rw [← hs, amqpUrl]
      simp [asc, List.append_assoc]
    exact List.append_cancel_left this
  clear hs
  generalize p.str "user" = u at *
  generalize p.str "password" = w at *
  generalize p.str "host" = h at *
  generalize p.str "port" = q at *
  have hh' := fun c m => hostName_char c (hh c m)
  constructor
  · intro hp
    have hlen : s.length = u.length + w.length + h.length + q.length + 4 := by rw [hs']; simp; omega
    have hale : (Uri.authorityText s).length + 1 ≤ s.length := by
      unfold Uri.authorityText
      rw [hs']
      have h1 : ∀ (x : Bytes) (f : UInt8 → Bool), f 47 = false → ((x ++ [47]).takeWhile f).length ≤ x.length := by
        intro x f hf
        induction x with
        | nil => simp [hf]
        | cons a x ih =>
          rw [List.cons_append, List.takeWhile_cons]
          split
          · simpa using ih
          · simp
      have := h1 (u ++ 58 :: w ++ 64 :: (h ++ 58 :: q)) (fun c => !(c = 47 || c = 63 || c = 35)) (by decide)
      simp only [List.length_append, List.length_cons, List.length_nil] at this ⊢
      omega
    have hapre : Uri.authorityText s <+: s := List.takeWhile_prefix _
    unfold Uri.parse at hp
    split at hp
    · cases hp
    · generalize ha : Uri.authorityText s = a at *
      simp only at hp
      split at hp
      · rename_i hc
        cases hg : Uri.hostPort a with
        | none => rw [hg] at hp; simp at hp
        | some z => rw [hg] at hp; simp at hp
      · rename_i info hpt hc
        have c1 := Uri.cutLast_spec _ _ _ _ hc
        split at hp
        · cases hp
        · rename_i hinfo
          have hinfo : ∀ c ∈ info, Uri.userinfoChar c = true := by simpa using hinfo
          split at hp
          · cases hp
          · rename_i h0 q0 hhp
            split at hp
            · cases hg : Uri.unescape info with
              | none => rw [hg] at hp; simp at hp
              | some z => rw [hg] at hp; simp at hp
            · rename_i u0 w0 hcut
              have c2 := Uri.cutAt_spec _ _ _ _ hcut
              split at hp
              · rename_i u1 w1 hu1 hw1
                simp only [Option.some.injEq, Uri.Authority.mk.injEq] at hp
                obtain ⟨rfl, rfl, rfl, rfl⟩ := hp
                have lu := Uri.unescape_len _ _ _ rfl hu1
                have lw := Uri.unescape_len _ _ _ rfl hw1
                have la := congrArg List.length c1.1
                rw [c2.1] at la
                unfold Uri.hostPort at hhp
                split at hhp
                · simp only [Option.some.injEq, Prod.mk.injEq] at hhp
                  obtain ⟨rfl, rfl⟩ := hhp
                  exfalso
                  rename_i hcl
                  have la' : a.length = u0.length + w0.length + hpt.length + 2 := by simp at la; omega
                  have hle : a.length + 2 = s.length := by simp at hlen; omega
                  have hcol : s = (u1 ++ 58 :: w1 ++ 64 :: hpt) ++ 58 :: [47] := by rw [hs']; simp
                  have hae : a = u1 ++ 58 :: w1 ++ 64 :: hpt := by
                    have hb : (u1 ++ 58 :: w1 ++ 64 :: hpt) <+: s := ⟨_, hcol.symm⟩
                    exact (List.prefix_of_prefix_length_le hapre hb (by simp at hlen ⊢; omega)).eq_of_length
                      (by simp at hlen ⊢; omega)
                  have hall : ∀ c ∈ a, (!(c = 47 || c = 63 || c = 35) : Bool) = true := by
                    intro c hc; rw [← ha] at hc; exact List.all_eq_true.mp (List.all_takeWhile) c hc
                  have : a = a ++ [58] := by
                    conv => lhs; rw [← ha]
                    unfold Uri.authorityText
                    rw [hcol, ← hae, List.takeWhile_append_of_pos hall]
                    rfl
                  have := congrArg List.length this
                  simp at this
                · rename_i h2 q2 hcl
                  have c3 := Uri.cutLast_spec _ _ _ _ hcl
                  split at hhp
                  · rename_i hdig
                    simp only [Option.some.injEq, Prod.mk.injEq] at hhp
                    obtain ⟨rfl, rfl⟩ := hhp
                    rw [c3.1] at la
                    simp only [List.length_append, List.length_cons] at la
                    have n1 : 37 ∉ u0 := by
                      rcases lu with ⟨_, m⟩ | e
                      · exact m
                      · omega
                    have n2 : 37 ∉ w0 := by
                      rcases lw with ⟨_, m⟩ | e
                      · exact m
                      · omega
                    rw [Uri.unescape_id _ n1] at hu1
                    rw [Uri.unescape_id _ n2] at hw1
                    cases hu1; cases hw1
                    rw [c2.1] at hinfo
                    refine ⟨fun c hc => ⟨hinfo c (by simp [hc]), ?_, ?_⟩, fun c hc => ⟨hinfo c (by simp [hc]), ?_⟩, ?_⟩
                    · rintro rfl; exact n1 hc
                    · rintro rfl; exact c2.2 hc
                    · rintro rfl; exact n2 hc
                    · exact List.all_eq_true.mp hdig
                  · cases hhp
              · cases hp
  · rintro ⟨hu, hw, hq⟩
    have info_char : ∀ c : UInt8, Uri.userinfoChar c = true → c ≠ 47 ∧ c ≠ 63 ∧ c ≠ 35 ∧ (c ≤ 32 || c = 127) = false :=
      byte_forall _ (by decide +kernel)
    have hu' := fun c m => info_char c (hu c m).1
    have hw' := fun c m => info_char c (hw c m).1
    have hp' := fun c m => port_char c (hq c m)
    rw [hs']
    have ha : Uri.authorityText (u ++ 58 :: w ++ 64 :: (h ++ 58 :: q) ++ [47]) = u ++ 58 :: w ++ 64 :: (h ++ 58 :: q) := by
      unfold Uri.authorityText
      rw [List.takeWhile_append_of_pos]
      · simp
      · intro c hc
        simp only [List.mem_append, List.mem_cons] at hc
        rcases hc with (h1 | h1 | h1) | h1 | h1 | h1 | h1
        · simp [hu' c h1]
        · subst h1; rfl
        · simp [hw' c h1]
        · subst h1; rfl
        · simp [hh' c h1]
        · subst h1; rfl
        · simp [hp' c h1]
    have hsp : (u ++ 58 :: w ++ 64 :: (h ++ 58 :: q) ++ [47]).any (fun c => c ≤ 32 || c = 127) = false := by
      rw [List.any_eq_false]
      intro c hc
      simp only [List.mem_append, List.mem_cons, List.not_mem_nil, or_false] at hc
      rcases hc with ((h1 | h1 | h1) | h1 | h1 | h1 | h1) | h1
      · simpa using (hu' c h1).2.2.2
      · subst h1; simp
      · simpa using (hw' c h1).2.2.2
      · subst h1; simp
      · simpa using (hh' c h1).2.2.2.2.2
      · subst h1; simp
      · simpa using (hp' c h1).2.2.2.2.2
      · subst h1; simp
    unfold Uri.parse
    rw [hsp]
    simp only [Bool.false_eq_true, if_false, ha]
    rw [Uri.cutLast_last 64 (u ++ 58 :: w) (h ++ 58 :: q)]
    · have hi : (u ++ 58 :: w).all Uri.userinfoChar = true := by
        rw [List.all_eq_true]
        intro c hc
        simp only [List.mem_append, List.mem_cons] at hc
        rcases hc with h1 | h1 | h1
        · exact (hu c h1).1
        · subst h1; rfl
        · exact (hw c h1).1
      have hpo : Uri.hostPort (h ++ 58 :: q) = some (h, q) := by
        unfold Uri.hostPort
        rw [Uri.cutLast_last 58 h q (fun m => (hp' 58 m).1 rfl)]
        simp only
        rw [if_pos (List.all_eq_true.mpr hq)]
      simp only [hi, Bool.not_true, Bool.false_eq_true, if_false, hpo]
      rw [Uri.cut_first 58 w u (fun m => (hu 58 m).2.2 rfl)]
      simp only [Uri.unescape_id u (fun m => (hu 37 m).2.1 rfl), Uri.unescape_id w (fun m => (hw 37 m).2 rfl)]
    · intro m
      simp only [List.mem_append, List.mem_cons] at m
      rcases m with h1 | h1 | h1
      · exact (hh' 64 h1).2.1 rfl
      · exact absurd h1 (by decide)
      · exact (hp' 64 h1).2.1 rfl

/-- the hypothesis is met by the sample configuration, and passwords with `@` and `:` are among those that arrive -/
example : Uri.HostName (sampleAmqp.str "host") ∧ (∀ c ∈ asc "p@ss:word", Uri.userinfoChar c = true ∧ c ≠ 37) ∧
    ¬ (∀ c ∈ asc "a/b", Uri.userinfoChar c = true ∧ c ≠ 37) := by
  refine ⟨sampleAmqp_plain.2.2.1, by decide, by decide⟩

end Egts
