import Verif.Spec.Agree
import Verif.Props.History
set_option autoImplicit false
/- C129: all storages hold the same records. -/
namespace Egts

/-! ### merging -/

theorem MergeOf.congr {f f' : Nat → List NavRecord} {m : List NavRecord} (h : MergeOf f m) (e : ∀ i, f i = f' i) : MergeOf f' m := by
  obtain ⟨t, h1, h2⟩ := h
  exact ⟨t, h1, fun i => by rw [h2, e]⟩

theorem MergeOf.add {f f' : Nat → List NavRecord} {m : List NavRecord} (h : MergeOf f m) (i : Nat) (r : NavRecord) (hi : f' i = f i ++ [r])
    (ho : ∀ j, j ≠ i → f' j = f j) : MergeOf f' (m ++ [r]) := by
  obtain ⟨t, h1, h2⟩ := h
  refine ⟨t ++ [(i, r)], by simp [h1], fun j => ?_⟩
  by_cases hj : j = i
  · subst hj; simp [List.filter_append, h2, hi]
  · have : ¬ i = j := fun e => hj e.symm
    simp [List.filter_append, h2, ho j hj, this]

theorem count_tagged [DecidableEq NavRecord] (t : List (Nat × NavRecord)) (i : Nat) (r : NavRecord) :
    t.count (i, r) = ((t.filter (·.1 == i)).map (·.2)).count r := by
  induction t with
  | nil => rfl
  | cons x t ih =>
    obtain ⟨j, q⟩ := x
    by_cases hj : j = i
    · subst hj
      simp [List.count_cons, ih]
    · have : ¬ (j, q) = (i, r) := fun e => hj (congrArg Prod.fst e)
      simp [hj, ih, this]

theorem MergeOf.perm {f f' : Nat → List NavRecord} {m m' : List NavRecord} (h : MergeOf f m) (h' : MergeOf f' m') (e : ∀ i, (f i).Perm (f' i)) : m.Perm m' := by
  classical
  obtain ⟨t, rfl, h2⟩ := h
  obtain ⟨t', rfl, h2'⟩ := h'
  refine List.Perm.map _ (List.perm_iff_count.mpr fun x => ?_)
  obtain ⟨i, r⟩ := x
  rw [count_tagged, count_tagged, h2, h2']
  exact (e i).count_eq r

theorem MergeOf.subperm {f f' : Nat → List NavRecord} {m m' : List NavRecord} (h : MergeOf f m) (h' : MergeOf f' m') (e : ∀ i, (f i).Sublist (f' i)) :
    m.Subperm m' := by
  classical
  obtain ⟨t, rfl, h2⟩ := h
  obtain ⟨t', rfl, h2'⟩ := h'
  have hsub : t.Subperm t' := List.subperm_ext_iff.mpr fun x _ => ?_
  · obtain ⟨l, h1, h3⟩ := hsub
    exact ⟨l.map (·.2), h1.map _, h3.map _⟩
  obtain ⟨i, r⟩ := x
  rw [count_tagged, count_tagged, h2, h2']
  exact (e i).count_le r

/-! ### the invariant -/
section
variable [P : Platform]

/-- the phase of handler `i` -/
def Gate.phaseOf {W : Type} (g : Gate W) (i : Nat) : Phase W :=
  match g.conns[i]? with
  | some c => c.phase
  | none => .idle

/-- the record that is being saved, as far as storage `k` of `n` already has it -/
def pend {W : Type} (n k : Nat) : Phase W → List NavRecord
  | .saving r left _ => if k + left.length < n then [r] else []
  | _ => []

def givenOf (l : List Done) : List NavRecord := savesOf (l.map Done.effect)

def savedOf (l : List Done) : List NavRecord := l.filterMap fun
  | .saved r => some r
  | _ => none

structure BookInv (ans : Nat → Book → NavRecord → Ret) (n : Nat) (A : Nat → Nat → List NavRecord) (g : Gate Book) : Prop where
  merge : ∀ k, k < n → MergeOf (fun i => A k i ++ pend n k (g.phaseOf i)) (held k g.world)
  lower : ∀ i k, k < n → (savedOf (g.doneFor i)).Sublist (A k i)
  upper : ∀ i k, k < n → (A k i).Sublist (givenOf (g.doneFor i))
  chain : ∀ i k, k + 1 < n → (A (k + 1) i).Sublist (A k i)
  left : ∀ i r lft l, g.phaseOf i = .saving r lft l → lft.length ≤ n ∧ lft = (bookSavers ans n).drop (n - lft.length)

theorem doneFor_add {W : Type} (g : Gate W) (i j : Nat) (done : List Done) (conns : List (Conn W)) (w : W) (b : Bool) :
    ({ g with conns := conns, log := g.log ++ done.map (fun d => (i, d)), world := w, crashed := b } : Gate W).doneFor j =
      g.doneFor j ++ if i = j then done else [] := by
  unfold Gate.doneFor
  simp only [List.filter_append, List.map_append]
  congr 1
  split
  · rename_i h; subst h
    induction done with
    | nil => rfl
    | cons d done ih => simpa [List.filter_cons] using ih
  · rename_i h
    induction done with
    | nil => rfl
    | cons d done ih => simpa [List.filter_cons, h] using ih

theorem phaseOf_set {W : Type} (g : Gate W) (i j : Nat) (c c' : Conn W) (h : g.conns[i]? = some c) (log : List (Nat × Done)) (w : W) (b : Bool) :
    ({ g with conns := g.conns.set i c', log := log, world := w, crashed := b } : Gate W).phaseOf j = if i = j then c'.phase else g.phaseOf j := by
  have hlt : i < g.conns.length := (List.getElem?_eq_some_iff.mp h).1
  unfold Gate.phaseOf
  simp only
  by_cases hj : i = j
  · subst hj; rw [List.getElem?_set_self hlt]; simp
  · rw [List.getElem?_set_ne hj]; simp [hj]

/-- nothing that matters changes -/
theorem BookInv.same {ans : Nat → Book → NavRecord → Ret} {n : Nat} {A : Nat → Nat → List NavRecord} {g g' : Gate Book} (h : BookInv ans n A g)
    (hw : g'.world = g.world) (hl : ∀ i, givenOf (g'.doneFor i) = givenOf (g.doneFor i)) (hs : ∀ i, savedOf (g'.doneFor i) = savedOf (g.doneFor i))
    (hp : ∀ i k, k < n → pend n k (g'.phaseOf i) = pend n k (g.phaseOf i))
    (hleft : ∀ i r lft l, g'.phaseOf i = .saving r lft l → lft.length ≤ n ∧ lft = (bookSavers ans n).drop (n - lft.length)) : BookInv ans n A g' where
  merge k hk := by rw [hw]; exact (h.merge k hk).congr fun i => by simp [hp i k hk]
  lower i k hk := by rw [hs]; exact h.lower i k hk
  upper i k hk := by rw [hl]; exact h.upper i k hk
  chain := h.chain
  left := hleft

omit P in
theorem bookSavers_length (ans : Nat → Book → NavRecord → Ret) (n : Nat) : (bookSavers ans n).length = n := by simp [bookSavers]

omit P in
theorem book_drop {ans : Nat → Book → NavRecord → Ret} {n : Nat} {s : Saver Book} {lft : List (Saver Book)} (hl : (s :: lft).length ≤ n)
    (h : s :: lft = (bookSavers ans n).drop (n - (s :: lft).length)) :
    s = bookSaver ans (n - (s :: lft).length) ∧ lft.length ≤ n ∧ lft = (bookSavers ans n).drop (n - lft.length) := by
  have hlt : n - (s :: lft).length < (bookSavers ans n).length := by rw [bookSavers_length]; simp only [List.length_cons] at hl ⊢; omega
  have hlt' : n - (s :: lft).length + 1 = n - lft.length := by simp only [List.length_cons] at hl ⊢; omega
  rw [List.drop_eq_getElem_cons hlt, hlt'] at h
  obtain ⟨h1, h2⟩ := List.cons.inj h
  refine ⟨?_, by simp only [List.length_cons] at hl; omega, h2⟩
  refine h1.trans ?_
  simp [bookSavers]

omit P in
theorem held_add (k j : Nat) (w : Book) (r : NavRecord) : held k (w ++ [(j, r)]) = held k w ++ if j = k then [r] else [] := by
  unfold held
  by_cases h : j = k <;> simp [List.filter_append, h]

theorem agree_next (ans : Nat → Book → NavRecord → Ret) (n : Nat) (envs : Nat → Env) (g : Gate Book) (ev : Event) (A : Nat → Nat → List NavRecord)
    (h : BookInv ans n A g) : ∃ A', BookInv ans n A' (g.next (bookSavers ans n) envs ev) := by
  unfold Gate.next
  split
  · exact ⟨A, h⟩
  cases ev with
  | accept =>
    simp only
    split
    · exact ⟨A, h.same rfl (fun _ => rfl) (fun _ => rfl) (fun _ _ _ => rfl) h.left⟩
    · have hp : ∀ i, ({ g with conns := g.conns ++ [{}] } : Gate Book).phaseOf i = g.phaseOf i := by
        intro i
        unfold Gate.phaseOf
        simp only
        by_cases hi : i < g.conns.length
        · rw [List.getElem?_append_left hi]
        · rw [List.getElem?_append_right (by omega), List.getElem?_eq_none (by omega : g.conns.length ≤ i)]
          cases hd : i - g.conns.length with
          | zero => rfl
          | succ m => simp
      exact ⟨A, h.same rfl (fun _ => rfl) (fun _ => rfl) (fun i _ _ => by rw [hp]) (fun i => by rw [hp]; exact h.left i)⟩
  | stop => exact ⟨A, h.same rfl (fun _ => rfl) (fun _ => rfl) (fun _ _ _ => rfl) h.left⟩
  | deliver i b =>
    simp only
    split
    · exact ⟨A, h⟩
    · rename_i c hi
      split
      · have hp : ∀ j, ({ g with conns := g.conns.set i { c with received := c.received ++ b, unread := c.unread ++ b } } : Gate Book).phaseOf j = g.phaseOf j := by
          intro j
          have := phaseOf_set g i j c { c with received := c.received ++ b, unread := c.unread ++ b } hi g.log g.world g.crashed
          refine this.trans ?_
          split
          · rename_i e; subst e; simp [Gate.phaseOf, hi]
          · rfl
        exact ⟨A, h.same rfl (fun _ => rfl) (fun _ => rfl) (fun i _ _ => by rw [hp]) (fun i => by rw [hp]; exact h.left i)⟩
      · exact ⟨A, h⟩
  | finish i t =>
    simp only
    split
    · exact ⟨A, h⟩
    · rename_i c hi
      split
      · have hp : ∀ j, ({ g with conns := g.conns.set i { c with tail := t } } : Gate Book).phaseOf j = g.phaseOf j := by
          intro j
          have := phaseOf_set g i j c { c with tail := t } hi g.log g.world g.crashed
          refine this.trans ?_
          split
          · rename_i e; subst e; simp [Gate.phaseOf, hi]
          · rfl
        exact ⟨A, h.same rfl (fun _ => rfl) (fun _ => rfl) (fun i _ _ => by rw [hp]) (fun i => by rw [hp]; exact h.left i)⟩
      · exact ⟨A, h⟩
  | step i =>
    simp only
    split
    · exact ⟨A, h⟩
    · rename_i c hi
      have hph : g.phaseOf i = c.phase := by simp [Gate.phaseOf, hi]
      -- a step that neither saves nor is inside a save before and after
      have quiet : ∀ (c' : Conn Book) (done : List Done) (b : Bool), givenOf done = [] → savedOf done = [] → (∀ k, k < n → pend n k c'.phase = pend n k c.phase) →
          (∀ r lft l, c'.phase = .saving r lft l → lft.length ≤ n ∧ lft = (bookSavers ans n).drop (n - lft.length)) →
          BookInv ans n A { g with conns := g.conns.set i c', log := g.log ++ done.map (fun d => (i, d)), world := g.world, crashed := b } := by
        intro c' done b h1 h2 h3 h4
        refine h.same rfl (fun j => ?_) (fun j => ?_) (fun j k hk => ?_) (fun j => ?_)
        · rw [doneFor_add]; split
          · simp only [givenOf, savesOf, List.map_append, List.filterMap_append] at h1 ⊢; rw [h1, List.append_nil]
          · rw [List.append_nil]
        · rw [doneFor_add]; split
          · simp only [savedOf, List.filterMap_append] at h2 ⊢; rw [h2, List.append_nil]
          · rw [List.append_nil]
        · rw [phaseOf_set g i j c c' hi]; split
          · rename_i e; subst e; rw [h3 k hk, hph]
          · rfl
        · rw [phaseOf_set g i j c c' hi]; split
          · exact h4
          · exact h.left j
      obtain ⟨received, unread, tail, vars, count, phase⟩ := c
      simp only at hph quiet
      cases phase with
      | ended e => exact ⟨A, quiet _ [] false rfl rfl (fun _ _ => rfl) (by rintro _ _ _ ⟨⟩)⟩
      | idle =>
        simp only [Conn.run]
        cases recvPacket tail [unread] with
        | stop e => cases e <;> exact ⟨A, quiet _ [] false rfl rfl (fun _ _ => rfl) (by rintro _ _ _ ⟨⟩)⟩
        | packet p rest =>
          simp only
          cases handlePacket ((envs i).now count) ((envs i).spare count) vars.reset p <;> exact ⟨A, quiet _ [] _ rfl rfl (fun _ _ => rfl) (by rintro _ _ _ ⟨⟩)⟩
      | acting l =>
        rcases l with _ | ⟨b | r, l⟩
        · exact ⟨A, quiet _ [] false rfl rfl (fun _ _ => rfl) (by rintro _ _ _ ⟨⟩)⟩
        · exact ⟨A, quiet _ [.wrote b] false rfl rfl (fun _ _ => rfl) (by rintro _ _ _ ⟨⟩)⟩
        · refine ⟨A, quiet _ [] false rfl rfl (fun k _ => ?_) ?_⟩
          · show pend n k (.saving r (bookSavers ans n) l) = []
            simp [pend, bookSavers_length]
          · rintro r' lft l' e
            injection e with _ e _
            subst e
            rw [bookSavers_length]; simp
      | saving r lft l =>
        obtain ⟨hl, hlft⟩ := h.left i r lft l hph
        cases lft with
        | nil =>
          simp only [Conn.run]
          refine ⟨fun k j => A k j ++ if i = j then [r] else [], ?_, ?_, ?_, ?_, ?_⟩
          · intro k hk
            refine (h.merge k hk).congr fun j => ?_
            rw [phaseOf_set g i j _ _ hi]
            by_cases hj : i = j
            · subst hj; simp [pend, hph, hk]
            · simp [hj]
          · intro j k hk
            rw [doneFor_add]
            by_cases hj : i = j
            · subst hj
              simp only [if_true, savedOf, List.filterMap_append]
              exact (h.lower i k hk).append (by simp)
            · simp [hj]; exact h.lower j k hk
          · intro j k hk
            rw [doneFor_add]
            by_cases hj : i = j
            · subst hj
              simp only [if_true, givenOf, savesOf, List.map_append, List.filterMap_append]
              exact (h.upper i k hk).append (by simp [Done.effect])
            · simp [hj]; exact h.upper j k hk
          · intro j k hk
            exact (h.chain j k hk).append (List.Sublist.refl _)
          · intro j r' lft' l'
            rw [phaseOf_set g i j _ _ hi]
            by_cases hj : i = j
            · simp [hj]
            · simp only [hj, if_false]; exact h.left j r' lft' l'
        | cons s lft =>
          obtain ⟨hs, hl', hlft'⟩ := book_drop hl hlft
          simp only [List.length_cons] at hl hs
          simp only [Conn.run]
          obtain ⟨j, hj⟩ : ∃ j, n - (lft.length + 1) = j := ⟨_, rfl⟩
          rw [hj] at hs
          subst hs
          have hjn : j + lft.length + 1 = n := by omega
          simp only [bookSaver]
          -- what the storages before `j` have
          have hpold : ∀ k, pend n k (Phase.saving (W := Book) r (bookSaver ans j :: lft) l) = if k < j then [r] else [] := by
            intro k
            simp only [pend, List.length_cons]
            congr 1
            simp only [eq_iff_iff]; omega
          have hpnew : ∀ k, pend n k (Phase.saving (W := Book) r lft l) = if k < j + 1 then [r] else [] := by
            intro k
            simp only [pend]
            congr 1
            simp only [eq_iff_iff]; omega
          cases ha : ans j g.world r with
          | ok =>
            simp only [if_true]
            refine ⟨A, ?_, ?_, ?_, h.chain, ?_⟩
            · intro k hk
              simp only [held_add]
              by_cases hkj : k = j
              · subst hkj
                simp only [if_true]
                refine (h.merge k hk).add i r ?_ ?_
                · rw [phaseOf_set g i i _ _ hi, hph]; simp only [if_true, hpold, hpnew]; simp
                · intro j' hj'
                  rw [phaseOf_set g i j' _ _ hi, if_neg (Ne.symm hj')]
              · rw [if_neg (Ne.symm hkj), List.append_nil]
                refine (h.merge k hk).congr fun j' => ?_
                rw [phaseOf_set g i j' _ _ hi]
                split
                · rename_i e; subst e
                  rw [hph, hpold, hpnew]
                  have : k < j ↔ k < j + 1 := by omega
                  simp only [this]
                · rfl
            · intro j' k hk; rw [doneFor_add]; simpa using h.lower j' k hk
            · intro j' k hk; rw [doneFor_add]; simpa using h.upper j' k hk
            · intro j' r' lft' l'
              rw [phaseOf_set g i j' _ _ hi]
              split
              · intro e; cases e; exact ⟨hl', hlft'⟩
              · exact h.left j' r' lft' l'
          | err e =>
            simp only [reduceCtorEq, if_false]
            refine ⟨fun k j' => A k j' ++ if i = j' then (if k < j then [r] else []) else [], ?_, ?_, ?_, ?_, ?_⟩
            · intro k hk
              refine (h.merge k hk).congr fun j' => ?_
              rw [phaseOf_set g i j' _ _ hi]
              by_cases hj' : i = j'
              · subst hj'; rw [hph, hpold]; simp [pend]
              · simp [hj']
            · intro j' k hk
              rw [doneFor_add]
              by_cases hj' : i = j'
              · subst hj'
                simp only [if_true, savedOf, List.filterMap_append]
                exact (h.lower i k hk).append (by simp)
              · simp only [hj', if_false, List.append_nil]; exact h.lower j' k hk
            · intro j' k hk
              rw [doneFor_add]
              by_cases hj' : i = j'
              · subst hj'
                simp only [if_true, givenOf, savesOf, List.map_append, List.filterMap_append]
                refine (h.upper i k hk).append ?_
                split <;> simp [Done.effect]
              · simp only [hj', if_false, List.append_nil]; exact h.upper j' k hk
            · intro j' k hk
              refine (h.chain j' k hk).append ?_
              split
              · split
                · rw [if_pos (by omega)]
                · simp
              · exact List.Sublist.refl _
            · intro j' r' lft' l'
              rw [phaseOf_set g i j' _ _ hi]
              split
              · rintro ⟨⟩
              · exact h.left j' r' lft' l'
          | panic =>
            simp only [reduceCtorEq, if_false]
            refine ⟨A, quiet _ [] true rfl rfl (fun k hk => rfl) ?_⟩
            rintro r' lft' l' ⟨⟩
            exact ⟨by simpa using hl, hlft⟩

theorem agree_run (ans : Nat → Book → NavRecord → Ret) (n : Nat) (envs : Nat → Env) (evs : List Event) :
    ∃ A, BookInv ans n A (Gate.run (bookSavers ans n) envs [] evs) := by
  have all : ∀ (evs : List Event) (g : Gate Book), (∃ A, BookInv ans n A g) → ∃ A, BookInv ans n A (evs.foldl (Gate.next (bookSavers ans n) envs) g) := by
    intro evs
    induction evs with
    | nil => intro g h; exact h
    | cons ev evs ih =>
      rintro g ⟨A, h⟩
      exact ih _ (agree_next ans n envs g ev A h)
  refine all evs _ ⟨fun _ _ => [], fun k _ => ⟨[], rfl, fun i => by simp [pend, Gate.phaseOf]⟩, ?_, ?_, ?_, ?_⟩
  · intro i k _; simp [savedOf, Gate.doneFor]
  · intro i k _; simp
  · intro i k _; simp
  · intro i r lft l h; simp [Gate.phaseOf] at h

/-! ### C129 -/

/-- C129: any number of storages that answer anything, any number of connections, any interleaving, any moment (`F k i`: what storage `k` has from connection `i`).
A storage holds nothing but the merged lists of the connections, each in its own order; from every connection it has at least the records that were reported as
saved and at most those that were given to `Save`; and a storage that comes later in the configuration has nothing that those before it do not have. -/
theorem storages_hold (ans : Nat → Book → NavRecord → Ret) (n : Nat) (envs : Nat → Env) (evs : List Event) :
    let g := Gate.run (bookSavers ans n) envs [] evs
    ∃ F : Nat → Nat → List NavRecord, (∀ k, k < n → MergeOf (F k) (held k g.world)) ∧
      (∀ k i, k < n → (g.savedFor i).Sublist (F k i) ∧ (F k i).Sublist (g.givenFor i)) ∧
      ∀ k i, k + 1 < n → (F (k + 1) i).Sublist (F k i) := by
  intro g
  obtain ⟨A, h⟩ := agree_run ans n envs evs
  refine ⟨fun k i => A k i ++ pend n k (g.phaseOf i), h.merge, fun k i hk => ⟨?_, ?_⟩, fun k i hk => ?_⟩
  · exact (h.lower i k hk).trans (List.sublist_append_left _ _)
  · unfold Gate.givenFor
    refine (h.upper i k hk).append ?_
    show (pend n k (g.phaseOf i)).Sublist _
    unfold Gate.phaseOf
    cases g.conns[i]? with
    | none => simp [pend]
    | some c =>
      simp only
      cases c.phase <;> simp only [pend, List.Sublist.refl]
      split <;> simp
  · refine (h.chain i k hk).append ?_
    cases g.phaseOf i <;> simp only [pend, List.Sublist.refl]
    split
    · rw [if_pos (by omega)]
    · simp

/-- C129: at any moment a storage that comes later in the configuration holds no record (counted with repetitions) that an earlier one does not hold. -/
theorem later_in_earlier (ans : Nat → Book → NavRecord → Ret) (n : Nat) (envs : Nat → Env) (evs : List Event) (k k' : Nat) (hk : k ≤ k') (hn : k' < n) :
    (held k' (Gate.run (bookSavers ans n) envs [] evs).world).Subperm (held k (Gate.run (bookSavers ans n) envs [] evs).world) := by
  obtain ⟨F, h1, -, h3⟩ := storages_hold ans n envs evs
  induction k', hk using Nat.le_induction with
  | base => exact List.Subperm.refl _
  | succ m hm ih => exact (MergeOf.subperm (h1 (m + 1) hn) (h1 m (by omega)) (fun i => h3 m i hn)).trans (ih (by omega))

/-- C129: a storage that refuses everything keeps all records from the storages behind it. -/
theorem refusal_starves (ans : Nat → Book → NavRecord → Ret) (n j : Nat) (hno : ∀ w r, ans j w r ≠ .ok) (envs : Nat → Env) (evs : List Event) (k : Nat)
    (hk : j ≤ k) (hn : k < n) : held k (Gate.run (bookSavers ans n) envs [] evs).world = [] := by
  have hj : held j (Gate.run (bookSavers ans n) envs [] evs).world = [] := by
    refine lives_keep (bookSavers ans n) (fun w => held j w = []) ?_ [] [⟨envs, evs⟩] rfl
    intro t ht r w hw
    obtain ⟨m, -, rfl⟩ := List.mem_map.mp ht
    simp only [bookSaver]
    split
    · rename_i hr
      rw [held_add, hw]
      by_cases e : m = j
      · subst e; exact absurd hr (hno w r)
      · simp [e]
    · exact hw
  exact List.subperm_nil.mp (hj ▸ later_in_earlier ans n envs evs j k hk hn)

theorem settled_not_saving (ans : Nat → Book → NavRecord → Ret) (n : Nat) (env : Env) (c : Conn Book) (h : Settled (bookSavers ans n) env c) (r : NavRecord)
    (lft : List (Saver Book)) (l : List Effect) : c.phase ≠ .saving r lft l := by
  intro e
  rcases settled_cases h [] with ⟨x, hx⟩ | ⟨hx, -⟩ <;> rw [hx] at e <;> cases e

omit P in
theorem saved_given {l : List Done} (h : ∀ r, .saveFailed r ∉ l) : savedOf l = givenOf l := by
  induction l with
  | nil => rfl
  | cons d l ih =>
    have ih := ih fun r hr => h r (List.mem_cons_of_mem _ hr)
    simp only [savedOf, givenOf, savesOf, List.map_cons] at ih ⊢
    cases d with
    | wrote b => simpa [Done.effect] using ih
    | saved r => simpa [Done.effect] using ih
    | saveFailed r => exact absurd (List.mem_cons_self) (h r)

/-- C129: no storage refuses, and no handler has anything left to do: every storage holds exactly the records due for all the connections, those of one
connection in their order. -/
theorem storages_same_partial (ans : Nat → Book → NavRecord → Ret) (hok : ∀ k w r, ans k w r = .ok) (n : Nat) (envs : Nat → Env) (evs : List Event)
    (hrest : (Gate.run (bookSavers ans n) envs [] evs).AtRest (bookSavers ans n) envs) (k : Nat) (hk : k < n) :
    MergeOf ((Gate.run (bookSavers ans n) envs [] evs).dueFor envs) (held k (Gate.run (bookSavers ans n) envs [] evs).world) := by
  obtain ⟨A, h⟩ := agree_run ans n envs evs
  have hfail := none_refused (bookSavers ans n) envs [] evs (by
    intro s hs r w
    obtain ⟨j, -, rfl⟩ := List.mem_map.mp hs
    exact hok j w r)
  have hinv := run_gate_inv (bookSavers ans n) envs [] evs
  have hiso := isolation (bookSavers ans n) envs [] evs
  generalize Gate.run (bookSavers ans n) envs [] evs = g at *
  refine (h.merge k hk).congr fun i => ?_
  have heq : savedOf (g.doneFor i) = givenOf (g.doneFor i) := saved_given fun r hr => hfail _ _ (doneFor_mem hr)
  have hA : A k i = givenOf (g.doneFor i) := ((h.upper i k hk).antisymm (heq ▸ h.lower i k hk))
  rw [hA]
  unfold Gate.dueFor Gate.phaseOf
  cases hc : g.conns[i]? with
  | none =>
    have : g.doneFor i = [] := by
      unfold Gate.doneFor
      rw [List.map_eq_nil_iff, List.filter_eq_nil_iff]
      intro x hx e
      have := hinv.log x hx
      simp only [beq_iff_eq] at e
      rw [List.getElem?_eq_none_iff] at hc
      omega
    simp [this, givenOf, savesOf, pend]
  | some c =>
    simp only
    have hs := hrest.2 i c hc
    have hp : pend n k c.phase = [] := by
      cases hph : c.phase with
      | saving r lft l => exact absurd hph (settled_not_saving ans n _ c hs r lft l)
      | _ => rfl
    rw [hp, List.append_nil, ← congrArg Prod.fst (hiso i c hc hs)]
    rfl

/-- C129: no storage refuses, and no handler has anything left to do: all storages hold the same records, each the same number of times. -/
theorem storages_perm_partial (ans : Nat → Book → NavRecord → Ret) (hok : ∀ k w r, ans k w r = .ok) (n : Nat) (envs : Nat → Env) (evs : List Event)
    (hrest : (Gate.run (bookSavers ans n) envs [] evs).AtRest (bookSavers ans n) envs) (k k' : Nat) (hk : k < n) (hk' : k' < n) :
    (held k (Gate.run (bookSavers ans n) envs [] evs).world).Perm (held k' (Gate.run (bookSavers ans n) envs [] evs).world) :=
  (storages_same_partial ans hok n envs evs hrest k hk).perm (storages_same_partial ans hok n envs evs hrest k' hk') fun _ => List.Perm.refl _

/-! ### the order may differ -/

/-- the state of a process with two connections -/
structure Two (g : Gate Book) (c0 c1 : Conn Book) (w : Book) : Prop where
  alive : g.crashed = false
  conns : g.conns = [c0, c1]
  world : g.world = w

theorem Two.step0 {ss : List (Saver Book)} {envs : Nat → Env} {g : Gate Book} {c0 c1 c' : Conn Book} {w w' : Book} {d : List Done} (h : Two g c0 c1 w)
    (hr : c0.run ss (envs 0) w = (c', d, w', false)) : Two (g.next ss envs (.step 0)) c' c1 w' := by
  rw [step_eq ss envs g 0 c0 h.alive (by rw [h.conns]; rfl), h.world, hr]
  exact ⟨rfl, by simp [h.conns], rfl⟩

theorem Two.step1 {ss : List (Saver Book)} {envs : Nat → Env} {g : Gate Book} {c0 c1 c' : Conn Book} {w w' : Book} {d : List Done} (h : Two g c0 c1 w)
    (hr : c1.run ss (envs 1) w = (c', d, w', false)) : Two (g.next ss envs (.step 1)) c0 c' w' := by
  rw [step_eq ss envs g 1 c1 h.alive (by rw [h.conns]; rfl), h.world, hr]
  exact ⟨rfl, by simp [h.conns], rfl⟩

/-- what the server saves for the packet `fixPacket pid 1` -/
def fixSaved (env : Env) (pid : UInt8) : NavRecord := exportOf (env.now 0) (UInt16.ofNat pid.toNat) [exFixRecord 49]

theorem fix_read (ss : List (Saver Book)) (env : Env) (pid : UInt8) (w : Book) : ∃ v,
    ({ received := fixPacket pid 1, unread := fixPacket pid 1 } : Conn Book).run ss env w =
      ({ received := fixPacket pid 1, unread := [], vars := v, count := 1,
         phase := .acting [.save (fixSaved env pid), .write (ackBytes (UInt16.ofNat pid.toNat) [exFixRecord 49])] }, [], w, false) := by
  have hdp := fixPacket_data (P := P) pid 1 49 (.inr ⟨rfl, rfl⟩)
  have htk : Taken (fixPacket pid 1) := framed_taken (data_packet_framed _ _ _ hdp)
  have hr := react_data (env.now 0) (env.spare 0) _ _ _ hdp (exFix_noResponses 49)
  have he := react_eq (env.now 0) (env.spare 0) (fixPacket pid 1) (taken_ten htk)
  rw [hr] at he
  have hrecv : ∃ rest, recvPacket .silent [fixPacket pid 1] = .packet (fixPacket pid 1) rest ∧ rest.flatten = [] := by
    have h1 := recv_taken .silent (fixPacket pid 1) [] htk
    rcases recv_eq .silent [fixPacket pid 1] with ⟨e, -, h2⟩ | ⟨c, rest, h2, h3⟩
    · rw [conn_stream] at h2; rw [List.append_nil, h2] at h1; cases h1
    · rw [conn_stream] at h3; rw [List.append_nil, h3] at h1
      injection h1 with h1
      injection h1 with h1 h4
      subst h1
      exact ⟨rest, h2, h4⟩
  obtain ⟨rest, h1, h2⟩ := hrecv
  simp only [Conn.run, h1]
  cases hh : handlePacket (env.now 0) (env.spare 0) ({} : LoopVars).reset (fixPacket pid 1) with
  | panic => rw [hh] at he; simp [Handled.seen] at he
  | diverge => rw [hh] at he; simp [Handled.seen] at he
  | done l v =>
    rw [hh] at he
    simp only [Handled.seen] at he
    injection he with he
    exact ⟨v, by rw [h2, he]; rfl⟩

theorem fix_settled (ss : List (Saver Book)) (env : Env) (b : Bytes) (v : LoopVars) :
    Settled ss env ({ received := b, unread := [], vars := v, count := 1 } : Conn Book) := fun _ => rfl

/-- two devices connect and send a packet each; both handlers read, the first is first at storage 0 and the second is first at storage 1; then both finish -/
def crossing : List Event :=
  [.accept, .accept, .deliver 0 (fixPacket 9 1), .deliver 1 (fixPacket 10 1), .step 0, .step 0, .step 1, .step 1,
   .step 0, .step 1, .step 1, .step 0, .step 0, .step 0, .step 0, .step 1, .step 1, .step 1]

local notation "SS" => [bookSaver (fun _ _ _ => Ret.ok) 0, bookSaver (fun _ _ _ => Ret.ok) 1]

/-- C129 is false of the code as far as the order is concerned: two storages that accept everything, two devices that send one record each; when all is done, the
storages hold the records in different orders. -/
theorem order_differs (envs : Nat → Env) : ∃ a b : NavRecord, a ≠ b ∧
    (Gate.run (bookSavers (fun _ _ _ => .ok) 2) envs [] crossing).AtRest (bookSavers (fun _ _ _ => .ok) 2) envs ∧
    held 0 (Gate.run (bookSavers (fun _ _ _ => .ok) 2) envs [] crossing).world = [a, b] ∧
    held 1 (Gate.run (bookSavers (fun _ _ _ => .ok) 2) envs [] crossing).world = [b, a] := by
  have hne : fixSaved (envs 0) 9 ≠ fixSaved (envs 1) 10 := by
    intro h
    have h2 : (9 : UInt32) = 10 := congrArg NavRecord.PacketID h
    revert h2
    decide
  refine ⟨fixSaved (envs 0) 9, fixSaved (envs 1) 10, hne, ?_⟩
  have hss' : bookSavers (fun _ _ _ => Ret.ok) 2 = [bookSaver (fun _ _ _ => Ret.ok) 0, bookSaver (fun _ _ _ => Ret.ok) 1] := rfl
  rw [hss']
  obtain ⟨ss, hss⟩ : ∃ ss, [bookSaver (fun _ _ _ => Ret.ok) 0, bookSaver (fun _ _ _ => Ret.ok) 1] = ss := ⟨_, rfl⟩
  rw [hss]
  obtain ⟨v0, r0⟩ := fix_read ss (envs 0) 9 []
  obtain ⟨v1, r1⟩ := fix_read ss (envs 1) 10 []
  generalize fixSaved (envs 0) 9 = a at *
  generalize fixSaved (envs 1) 10 = b at *
  generalize ackBytes (UInt16.ofNat (9 : UInt8).toNat) [exFixRecord 49] = x at *
  generalize ackBytes (UInt16.ofNat (10 : UInt8).toNat) [exFixRecord 49] = y at *
  have s0 : Two (Gate.run ss envs [] [.accept, .accept, .deliver 0 (fixPacket 9 1), .deliver 1 (fixPacket 10 1)])
      { received := fixPacket 9 1, unread := fixPacket 9 1 } { received := fixPacket 10 1, unread := fixPacket 10 1 } [] := ⟨rfl, rfl, rfl⟩
  have s1 := s0.step0 r0
  have s2 := s1.step0 (ss := ss) (envs := envs) rfl
  have s3 := s2.step1 (ss := ss) (envs := envs) r1
  have s4 := s3.step1 (ss := ss) (envs := envs) rfl
  subst hss
  have s5 := s4.step0 (ss := SS) (envs := envs) rfl
  have s6 := s5.step1 (ss := SS) (envs := envs) rfl
  have s7 := s6.step1 (ss := SS) (envs := envs) rfl
  have s8 := s7.step0 (ss := SS) (envs := envs) rfl
  have s9 := s8.step0 (ss := SS) (envs := envs) rfl
  have s10 := s9.step0 (ss := SS) (envs := envs) rfl
  have s11 := s10.step0 (ss := SS) (envs := envs) rfl
  have s12 := s11.step1 (ss := SS) (envs := envs) rfl
  have s13 := s12.step1 (ss := SS) (envs := envs) rfl
  have s14 := s13.step1 (ss := SS) (envs := envs) rfl
  have sf : Two (Gate.run [bookSaver (fun _ _ _ => Ret.ok) 0, bookSaver (fun _ _ _ => Ret.ok) 1] envs [] crossing) _ _ _ := s14
  refine ⟨⟨sf.alive, ?_⟩, ?_, ?_⟩
  · intro i c hi
    rw [sf.conns] at hi
    match i, hi with
    | 0, hi => obtain rfl := Option.some.inj hi; exact fix_settled _ _ _ _
    | 1, hi => obtain rfl := Option.some.inj hi; exact fix_settled _ _ _ _
  · rw [sf.world]; rfl
  · rw [sf.world]; rfl

/-- storage 0 accepts everything, the others nothing (test) -/
def firstOnly : Nat → Book → NavRecord → Ret := fun k _ _ => if k = 0 then .ok else .err .marshal

/-- C129 is false of the code if a storage refuses: the device has sent its record, everything is done, the first storage has the record and the second does not. -/
theorem refusal_differs (envs : Nat → Env) : ∃ (evs : List Event) (a : NavRecord),
    (Gate.run (bookSavers firstOnly 2) envs [] evs).AtRest (bookSavers firstOnly 2) envs ∧
    held 0 (Gate.run (bookSavers firstOnly 2) envs [] evs).world = [a] ∧
    held 1 (Gate.run (bookSavers firstOnly 2) envs [] evs).world = [] := by
  refine ⟨[.accept, .accept, .deliver 0 (fixPacket 9 1), .step 0, .step 0, .step 0, .step 0, .step 0, .step 0], fixSaved (envs 0) 9, ?_⟩
  have hss' : bookSavers firstOnly 2 = [bookSaver firstOnly 0, bookSaver firstOnly 1] := rfl
  rw [hss']
  obtain ⟨v0, r0⟩ := fix_read [bookSaver firstOnly 0, bookSaver firstOnly 1] (envs 0) 9 []
  generalize fixSaved (envs 0) 9 = a at *
  generalize ackBytes (UInt16.ofNat (9 : UInt8).toNat) [exFixRecord 49] = x at *
  have s0 : Two (Gate.run [bookSaver firstOnly 0, bookSaver firstOnly 1] envs [] [.accept, .accept, .deliver 0 (fixPacket 9 1)])
      { received := fixPacket 9 1, unread := fixPacket 9 1 } {} [] := ⟨rfl, rfl, rfl⟩
  have s1 := s0.step0 r0
  have s2 := s1.step0 (ss := [bookSaver firstOnly 0, bookSaver firstOnly 1]) (envs := envs) rfl
  have s3 := s2.step0 (ss := [bookSaver firstOnly 0, bookSaver firstOnly 1]) (envs := envs) rfl
  have s4 := s3.step0 (ss := [bookSaver firstOnly 0, bookSaver firstOnly 1]) (envs := envs) rfl
  have s5 := s4.step0 (ss := [bookSaver firstOnly 0, bookSaver firstOnly 1]) (envs := envs) rfl
  have s6 := s5.step0 (ss := [bookSaver firstOnly 0, bookSaver firstOnly 1]) (envs := envs) rfl
  have sf : Two (Gate.run [bookSaver firstOnly 0, bookSaver firstOnly 1] envs []
    [.accept, .accept, .deliver 0 (fixPacket 9 1), .step 0, .step 0, .step 0, .step 0, .step 0, .step 0]) _ _ _ := s6
  refine ⟨⟨sf.alive, ?_⟩, ?_, ?_⟩
  · intro i c hi
    rw [sf.conns] at hi
    match i, hi with
    | 0, hi => obtain rfl := Option.some.inj hi; exact fix_settled _ _ _ _
    | 1, hi => obtain rfl := Option.some.inj hi; exact fun _ => rfl
  · rw [sf.world]; rfl
  · rw [sf.world]; rfl

/-- a storage that refuses everything, in front of two others (test of the hypothesis) -/
example (w : Book) (r : NavRecord) : (fun k (_ : Book) (_ : NavRecord) => if k = 0 then Ret.err .marshal else .ok) 0 w r ≠ .ok := by simp
end
end Egts
