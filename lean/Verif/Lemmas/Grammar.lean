import Verif.Spec.ProtoGrammar
import Verif.Lemmas.Protobuf
import Verif.Props.StorageWire
set_option autoImplicit false
/- The model of the protobuf library reads the grammar of Spec/ProtoGrammar. -/
namespace Egts.PB
open Grammar

theorem getVarintAux_iff (k : Nat) : ∀ (b : Bytes) (n : Nat) (r : Bytes),
    getVarintAux (k + 1) b = some (n, r) ↔ ∃ x, Digits x n ∧ x.length ≤ k + 1 ∧ n < 2 * 128 ^ k ∧ b = x ++ r := by
  induction k with
  | zero =>
    intro b n r
    cases b with
    | nil =>
      simp only [getVarintAux, reduceCtorEq, false_iff]
      rintro ⟨x, hx, _, _, e⟩
      cases hx <;> cases e
    | cons c s =>
      by_cases hc : c < 128
      · have hc' : c.toNat < 128 := hc
        by_cases h1 : 1 < c
        · have h1' : 1 < c.toNat := h1
          simp only [getVarintAux, hc, h1, and_self, if_true, reduceCtorEq, false_iff]
          rintro ⟨x, hx, hl, hn, e⟩
          cases hx with
          | last c' h => cases e; omega
          | more c' x n h hx => cases e; omega
        · have h1' : ¬ 1 < c.toNat := h1
          simp only [getVarintAux, hc, h1, and_false, if_true, if_false, Option.some.injEq, Prod.mk.injEq]
          constructor
          · rintro ⟨rfl, rfl⟩
            exact ⟨[c], .last c hc', by simp, by omega, rfl⟩
          · rintro ⟨x, hx, hl, hn, e⟩
            cases hx with
            | last c' h => cases e; exact ⟨rfl, rfl⟩
            | more c' x n h hx => cases e; omega
      · have hc' : ¬ c.toNat < 128 := hc
        simp only [getVarintAux, hc, if_false, reduceCtorEq, false_iff]
        rintro ⟨x, hx, hl, hn, e⟩
        cases hx with
        | last c' h => cases e; omega
        | more c' x n h hx =>
          cases hx <;> simp at hl
  | succ k ih =>
    intro b n r
    cases b with
    | nil =>
      simp only [getVarintAux, reduceCtorEq, false_iff]
      rintro ⟨x, hx, _, _, e⟩
      cases hx <;> cases e
    | cons c s =>
      have hp : 1 ≤ 128 ^ k := Nat.one_le_pow _ _ (by omega)
      have hp' : 128 ^ (k + 1) = 128 * 128 ^ k := by rw [Nat.pow_succ, Nat.mul_comm]
      rw [getVarintAux]
      by_cases hc : c < 128
      · have hc' : c.toNat < 128 := hc
        simp only [hc, if_true, Nat.succ_ne_zero, false_and, if_false, Option.some.injEq, Prod.mk.injEq]
        constructor
        · rintro ⟨rfl, rfl⟩
          exact ⟨[c], .last c hc', by simp, by omega, rfl⟩
        · rintro ⟨x, hx, hl, hn, e⟩
          cases hx with
          | last c' h => cases e; exact ⟨rfl, rfl⟩
          | more c' x n h hx => cases e; omega
      · have hc' : ¬ c.toNat < 128 := hc
        simp only [hc, if_false]
        constructor
        · intro h
          cases hg : getVarintAux (k + 1) s with
          | none => rw [hg] at h; cases h
          | some p =>
            obtain ⟨n', r'⟩ := p
            rw [hg] at h
            simp only [Option.some.injEq, Prod.mk.injEq] at h
            obtain ⟨rfl, rfl⟩ := h
            obtain ⟨x, hx, hl, hn, rfl⟩ := (ih s n' r').mp hg
            refine ⟨c :: x, ?_, by simp; omega, ?_, rfl⟩
            · have := Digits.more c x n' (by omega) hx
              rwa [show c.toNat - 128 + 128 * n' = n' * 128 + (c.toNat - 128) by omega] at this
            · have := c.toNat_lt
              omega
        · rintro ⟨x, hx, hl, hn, e⟩
          cases hx with
          | last c' h => cases e; omega
          | more c' x n' h hx =>
            cases e
            have : getVarintAux (k + 1) (x ++ r) = some (n', r) := (ih _ _ _).mpr ⟨x, hx, by simp at hl; omega, by omega, rfl⟩
            show (match getVarintAux (k + 1) (x ++ r) with
              | none => none
              | some (n, r) => some (n * 128 + (c.toNat - 128), r)) = _
            rw [this]
            simp only [Option.some.injEq, Prod.mk.injEq, and_true]
            omega

theorem getVarint_iff (b : Bytes) (n : Nat) (r : Bytes) : getVarint b = some (n, r) ↔ ∃ x, Varint x n ∧ b = x ++ r := by
  unfold getVarint Varint
  rw [getVarintAux_iff 9]
  constructor
  · rintro ⟨x, h1, h2, h3, h4⟩; exact ⟨x, ⟨h1, h2, by omega⟩, h4⟩
  · rintro ⟨x, ⟨h1, h2, h3⟩, h4⟩; exact ⟨x, h1, h2, by omega, h4⟩

theorem varint_read {x : Bytes} {n : Nat} (h : Varint x n) (r : Bytes) : getVarint (x ++ r) = some (n, r) := (getVarint_iff _ _ _).mpr ⟨x, h, rfl⟩

theorem digits_ne {x : Bytes} {n : Nat} (h : Digits x n) : 1 ≤ x.length := by cases h <;> simp

theorem getTag_iff (b : Bytes) (num wt : Nat) (r : Bytes) : getTag b = some (num, wt, r) ↔ ∃ x, Tag x num wt ∧ b = x ++ r := by
  unfold getTag Tag
  constructor
  · intro h
    cases hg : getVarint b with
    | none => rw [hg] at h; cases h
    | some p =>
      obtain ⟨t, r'⟩ := p
      rw [hg] at h
      simp only at h
      split at h
      · rename_i hc
        simp only [Option.some.injEq, Prod.mk.injEq] at h
        obtain ⟨rfl, rfl, rfl⟩ := h
        obtain ⟨x, hx, rfl⟩ := (getVarint_iff _ _ _).mp hg
        refine ⟨x, ⟨?_, by omega, by omega, by omega⟩, rfl⟩
        rwa [show 8 * (t / 8) + t % 8 = t by omega]
      · cases h
  · rintro ⟨x, ⟨h1, h2, h3, h4⟩, rfl⟩
    rw [varint_read h1]
    simp only
    rw [if_pos (by omega), show (8 * num + wt) / 8 = num by omega, show (8 * num + wt) % 8 = wt by omega]

theorem tag_read {x : Bytes} {num wt : Nat} (h : Tag x num wt) (r : Bytes) : getTag (x ++ r) = some (num, wt, r) := (getTag_iff _ _ _ _).mpr ⟨x, h, rfl⟩

theorem getGroupTag_iff (b : Bytes) (num wt : Nat) (r : Bytes) : getGroupTag b = some (num, wt, r) ↔ ∃ x, GroupTag x num wt ∧ b = x ++ r := by
  unfold getGroupTag GroupTag
  constructor
  · intro h
    cases hg : getVarint b with
    | none => rw [hg] at h; cases h
    | some p =>
      obtain ⟨t, r'⟩ := p
      rw [hg] at h
      simp only at h
      split at h
      · rename_i hc
        simp only [Option.some.injEq, Prod.mk.injEq] at h
        obtain ⟨rfl, rfl, rfl⟩ := h
        obtain ⟨x, hx, rfl⟩ := (getVarint_iff _ _ _).mp hg
        refine ⟨x, ⟨?_, by omega, by omega, by omega⟩, rfl⟩
        rwa [show 8 * (t / 8) + t % 8 = t by omega]
      · cases h
  · rintro ⟨x, ⟨h1, h2, h3, h4⟩, rfl⟩
    rw [varint_read h1]
    simp only
    rw [if_pos (by omega), show (8 * num + wt) / 8 = num by omega, show (8 * num + wt) % 8 = wt by omega]

theorem gtag_read {x : Bytes} {num wt : Nat} (h : GroupTag x num wt) (r : Bytes) : getGroupTag (x ++ r) = some (num, wt, r) := (getGroupTag_iff _ _ _ _).mpr ⟨x, h, rfl⟩

theorem gtag_ne {x : Bytes} {num wt : Nat} (h : Tag x num wt) : 1 ≤ x.length := digits_ne h.1.1
theorem ggtag_ne {x : Bytes} {num wt : Nat} (h : GroupTag x num wt) : 1 ≤ x.length := digits_ne h.1.1

theorem getBytes_iff (b x r : Bytes) : getBytes b = some (x, r) ↔ ∃ l, Varint l x.length ∧ b = l ++ x ++ r := by
  unfold getBytes
  constructor
  · intro h
    cases hg : getVarint b with
    | none => rw [hg] at h; cases h
    | some p =>
      obtain ⟨n, r'⟩ := p
      rw [hg] at h
      simp only at h
      split at h
      · rename_i hc
        simp only [Option.some.injEq, Prod.mk.injEq] at h
        obtain ⟨rfl, rfl⟩ := h
        obtain ⟨l, hl, rfl⟩ := (getVarint_iff _ _ _).mp hg
        refine ⟨l, ?_, by simp⟩
        rwa [List.length_take_of_le hc]
      · cases h
  · rintro ⟨l, h1, rfl⟩
    rw [List.append_assoc, varint_read h1]
    simp

theorem plain_skip {wt : Nat} {x : Bytes} {raw : Grammar.Raw} (h : Plain wt x raw) (f num : Nat) (r : Bytes) : skip (f + 1) num wt (x ++ r) = some r := by
  cases h with
  | varint x n h => simp [skip, varint_read h]
  | fixed64 x h =>
    have : (x ++ r).drop 8 = r := by rw [← h]; simp
    simp [skip, this, h]
  | bytes l b h =>
    have : getBytes (l ++ b ++ r) = some (b, r) := (getBytes_iff _ _ _).mpr ⟨l, h, rfl⟩
    simp only [skip, this, Option.map_some]
    simp
  | fixed32 a b c d => simp [skip]

theorem group_skip {num : Nat} {x : Bytes} (h : GroupText num x) : ∀ f r, 2 * x.length ≤ f → skipGroup f num (x ++ r) = some r := by
  induction h with
  | stop num t h =>
    intro f r hf
    have := ggtag_ne h
    obtain ⟨f, rfl⟩ : ∃ g, f = g + 1 := ⟨f - 1, by omega⟩
    simp only [skipGroup, gtag_read h, if_true]
  | plain num n wt t x rest raw ht hx hr ih =>
    intro f r hf
    have := ggtag_ne ht
    simp only [List.length_append] at hf
    obtain ⟨f, rfl⟩ : ∃ g, f = g + 2 := ⟨f - 2, by omega⟩
    have h4 : wt ≠ 4 := by cases hx <;> omega
    rw [List.append_assoc, List.append_assoc]
    simp only [skipGroup, gtag_read ht, h4, if_false, plain_skip hx]
    refine ih (f + 1) _ ?_; omega
  | group num n t x rest ht hx hr ihx ih =>
    intro f r hf
    have := ggtag_ne ht
    simp only [List.length_append] at hf
    obtain ⟨f, rfl⟩ : ∃ g, f = g + 2 := ⟨f - 2, by omega⟩
    rw [List.append_assoc, List.append_assoc]
    simp only [skipGroup, gtag_read ht, skip]
    simp only [show (3 : Nat) ≠ 4 by omega, show (3 : Nat) ≠ 0 by omega, show (3 : Nat) ≠ 1 by omega, show (3 : Nat) ≠ 2 by omega,
      show (3 : Nat) ≠ 5 by omega, if_false, if_true]
    rw [ihx f _ (by omega)]
    refine ih (f + 1) _ ?_; omega

theorem item_skip {i : Item} (h : i.Ok) (f : Nat) (r : Bytes) (hf : 2 * i.text.length + 1 ≤ f) : skip f i.num i.wt (i.text ++ r) = some r := by
  obtain ⟨f, rfl⟩ : ∃ g, f = g + 1 := ⟨f - 1, by omega⟩
  rcases h with h | ⟨h, _, hg⟩
  · exact plain_skip h f _ r
  · rw [h]
    simp only [skip, show (3 : Nat) ≠ 0 by omega, show (3 : Nat) ≠ 1 by omega, show (3 : Nat) ≠ 2 by omega,
      show (3 : Nat) ≠ 5 by omega, if_false, if_true]
    exact group_skip hg _ _ (by omega)

theorem plain_wt {wt : Nat} {x : Bytes} {raw : Grammar.Raw} (h : Plain wt x raw) : wt ≠ 4 ∧ wt < 8 := by cases h <;> omega

theorem item_wt {i : Item} (h : i.Ok) : i.wt ≠ 4 ∧ i.wt < 8 := by
  rcases h with h | ⟨h, _⟩
  · exact plain_wt h
  · omega

/-- a number that is read -/
theorem varint_item {b : Bytes} {n : Nat} {r : Bytes} (h : getVarint b = some (n, r)) (num : Nat) :
    ∃ i : Item, i.Ok ∧ i.num = num ∧ i.wt = 0 ∧ i.raw = .varint n ∧ b = i.text ++ r := by
  obtain ⟨x, hx, rfl⟩ := (getVarint_iff _ _ _).mp h
  exact ⟨⟨num, 0, x, .varint n⟩, .inl (.varint x n hx), rfl, rfl, rfl, rfl⟩

theorem bytes_item {b x : Bytes} {r : Bytes} (h : getBytes b = some (x, r)) (num : Nat) :
    ∃ i : Item, i.Ok ∧ i.num = num ∧ i.wt = 2 ∧ i.raw = .bytes x ∧ b = i.text ++ r := by
  obtain ⟨l, hl, rfl⟩ := (getBytes_iff _ _ _).mp h
  exact ⟨⟨num, 2, l ++ x, .bytes x⟩, .inl (.bytes l x hl), rfl, rfl, rfl, rfl⟩

theorem fixed32_item {b : Bytes} {n : UInt32} {r : Bytes} (h : getFixed32 b = some (n, r)) (num : Nat) :
    ∃ (i : Item) (k : Nat), i.Ok ∧ i.num = num ∧ i.wt = 5 ∧ i.raw = .fixed32 k ∧ n = UInt32.ofNat k ∧ b = i.text ++ r := by
  match b, h with
  | a :: b :: c :: d :: s, h =>
    simp only [getFixed32, Option.some.injEq, Prod.mk.injEq] at h
    obtain ⟨rfl, rfl⟩ := h
    exact ⟨⟨num, 5, [a, b, c, d], _⟩, _, .inl (.fixed32 a b c d), rfl, rfl, rfl, rfl, rfl⟩

theorem skip_item (f : Nat) : (∀ (num wt : Nat) (b r : Bytes), skip f num wt b = some r → ∃ i : Item, i.Ok ∧ i.num = num ∧ i.wt = wt ∧ b = i.text ++ r) ∧
    ∀ (num : Nat) (b r : Bytes), skipGroup f num b = some r → ∃ x, GroupText num x ∧ b = x ++ r := by
  induction f with
  | zero =>
    constructor
    · intro num wt b r h
      simp [skip] at h
    · intro num b r h
      simp [skipGroup] at h
  | succ f ih =>
    constructor
    · intro num wt b r h
      rw [skip] at h
      split at h
      · next hw =>
        simp only [Option.map_eq_some_iff, Prod.exists] at h
        obtain ⟨n, r', h, rfl⟩ := h
        obtain ⟨i, h1, h2, h3, _, h5⟩ := varint_item h num
        exact ⟨i, h1, h2, by omega, h5⟩
      split at h
      · next hw =>
        split at h
        · next hl =>
          cases h
          exact ⟨⟨num, 1, b.take 8, .fixed64⟩, .inl (.fixed64 _ (List.length_take_of_le hl)), rfl, by simp [hw], by simp⟩
        · cases h
      split at h
      · next hw =>
        simp only [Option.map_eq_some_iff, Prod.exists] at h
        obtain ⟨n, r', h, rfl⟩ := h
        obtain ⟨i, h1, h2, h3, _, h5⟩ := bytes_item h num
        exact ⟨i, h1, h2, by omega, h5⟩
      split at h
      · next hw =>
        match b, h with
        | a :: b :: c :: d :: s, h =>
          simp only [List.length_cons, List.drop_succ_cons, List.drop_zero] at h
          rw [if_pos (by omega)] at h
          cases h
          exact ⟨⟨num, 5, [a, b, c, d], _⟩, .inl (.fixed32 a b c d), rfl, by simp [hw], rfl⟩
        | [], h => simp at h
        | [_], h => simp at h
        | [_, _], h => simp at h
        | [_, _, _], h => simp at h
      split at h
      · next hw =>
        obtain ⟨x, hx, rfl⟩ := ih.2 _ _ _ h
        exact ⟨⟨num, 3, x, .group⟩, .inr ⟨rfl, rfl, hx⟩, rfl, by simp [hw], rfl⟩
      · cases h
    · intro num b r h
      rw [skipGroup] at h
      cases hg : getGroupTag b with
      | none => rw [hg] at h; cases h
      | some p =>
        obtain ⟨n, wt, s⟩ := p
        rw [hg] at h
        obtain ⟨t, ht, rfl⟩ := (getGroupTag_iff _ _ _ _).mp hg
        simp only at h
        split at h
        · next hw =>
          split at h
          · next hn => cases h; subst hn; subst hw; exact ⟨t, .stop _ _ ht, rfl⟩
          · cases h
        · next hw =>
          cases hs : skip f n wt s with
          | none => rw [hs] at h; cases h
          | some s' =>
            rw [hs] at h
            obtain ⟨i, h1, rfl, rfl, rfl⟩ := ih.1 _ _ _ _ hs
            obtain ⟨x, hx, rfl⟩ := ih.2 _ _ _ h
            refine ⟨t ++ (i.text ++ x), ?_, by simp⟩
            rcases h1 with h1 | ⟨h1, _, h2⟩
            · exact .plain _ _ _ _ _ _ _ ht h1 hx
            · rw [h1] at ht
              exact .group _ _ _ _ _ ht h2 hx

/-! ### the loop over the fields -/

/-- what is done with a field -/
inductive Act (S : Type) where
  | unknown
  | bad
  | set (g : S → S)

def Act.app {S : Type} : Act S → S → S
  | .set g, s => g s
  | _, s => s

def Act.handle {S : Type} : Act S → S → Bytes → Handled S
  | .unknown, _, _ => .unknown
  | .bad, _, _ => .fail
  | .set g, s, r => .ok (g s) r

def Act.isUnknown {S : Type} : Act S → Bool
  | .unknown => true
  | _ => false

theorem key_tag {t : Bytes} {num wt : Nat} (h : Tag t num wt) : tag num wt = Proto.key num wt := by
  unfold tag Proto.key
  have := h.1.2.2
  rw [Nat.mul_comm num 8]
  exact varint_eq _ (by omega)

theorem loop_iff {S : Type} (known : Nat → Nat → Bytes → S → Handled S) (act : Item → Act S) (Inv : S → Prop)
    (hset : ∀ (i : Item) s r, i.Ok → Inv s → known i.num i.wt (i.text ++ r) s = (act i).handle s r)
    (hinv : ∀ (i : Item) s g, i.Ok → act i = .set g → Inv s → Inv (g s))
    (hno : ∀ num wt b s s' r, Inv s → known num wt b s = .ok s' r → ∃ i : Item, i.Ok ∧ i.num = num ∧ i.wt = wt ∧ b = i.text ++ r) :
    ∀ (f : Nat) (b : Bytes) (s : S) (u : Bytes) (s' : S) (u' : Bytes), Inv s → b.length ≤ f →
      (loop known f b s u = some (s', u') ↔ ∃ l, Message b l ∧ (∀ i ∈ l, act i ≠ .bad) ∧ s' = l.foldl (fun s i => (act i).app s) s ∧
        u' = u ++ (l.filter fun i => (act i).isUnknown).flatMap Item.kept) := by
  intro f
  induction f with
  | zero =>
    intro b s u s' u' _ hb
    obtain rfl : b = [] := List.eq_nil_of_length_eq_zero (by omega)
    simp only [loop, Option.some.injEq, Prod.mk.injEq]
    constructor
    · rintro ⟨rfl, rfl⟩
      exact ⟨[], .nil, by simp, rfl, by simp⟩
    · rintro ⟨l, hm, _, h1, h2⟩
      generalize he : ([] : Bytes) = e at hm
      cases hm with
      | nil => simp_all
      | cons t rest i l ht hi hr =>
        have := gtag_ne ht
        have := congrArg List.length he
        simp at this
        omega
  | succ f ih =>
    intro b s u s' u' hs hb
    cases b with
    | nil =>
      simp only [loop, Option.some.injEq, Prod.mk.injEq]
      constructor
      · rintro ⟨rfl, rfl⟩
        exact ⟨[], .nil, by simp, rfl, by simp⟩
      · rintro ⟨l, hm, _, h1, h2⟩
        generalize he : ([] : Bytes) = e at hm
        cases hm with
        | nil => simp_all
        | cons t rest i l ht hi hr =>
          have := gtag_ne ht
          have := congrArg List.length he
          simp at this
          omega
    | cons c b0 =>
      rw [loop]
      generalize hb' : c :: b0 = b at *
      constructor
      · intro h
        cases hg : getTag b with
        | none => rw [hg] at h; cases h
        | some p =>
          obtain ⟨num, wt, r⟩ := p
          rw [hg] at h
          obtain ⟨t, ht, rfl⟩ := (getTag_iff _ _ _ _).mp hg
          have htl := gtag_ne ht
          simp only [List.length_append] at hb
          simp only at h
          split at h
          · cases h
          next hw =>
          cases hk : known num wt r s with
          | fail => rw [hk] at h; cases h
          | ok s1 r1 =>
            rw [hk] at h
            simp only at h
            obtain ⟨i, hi, rfl, rfl, rfl⟩ := hno _ _ _ _ _ _ hs hk
            rw [hset i s r1 hi hs] at hk
            cases ha : act i with
            | unknown => rw [ha] at hk; cases hk
            | bad => rw [ha] at hk; cases hk
            | set g =>
              rw [ha] at hk
              simp only [Act.handle, Handled.ok.injEq, and_true] at hk
              subst hk
              simp only [List.length_append] at hb
              obtain ⟨l, hm, hbad, h1, h2⟩ := (ih _ _ _ _ _ (hinv i s g hi ha hs) (by omega)).mp h
              refine ⟨i :: l, .cons _ _ _ _ ht hi hm, ?_, ?_, ?_⟩
              · intro j hj
                rcases List.mem_cons.mp hj with rfl | hj
                · rw [ha]; exact fun h => by cases h
                · exact hbad j hj
              · rw [List.foldl_cons, ha]; exact h1
              · rw [List.filter_cons, ha]; exact h2
          | unknown =>
            rw [hk] at h
            simp only at h
            cases hsk : skip (2 * r.length + 2) num wt r with
            | none => rw [hsk] at h; cases h
            | some r1 =>
              rw [hsk] at h
              simp only at h
              obtain ⟨i, hi, rfl, rfl, rfl⟩ := (skip_item _).1 _ _ _ _ hsk
              rw [hset i s r1 hi hs] at hk
              cases ha : act i with
              | set g => rw [ha] at hk; cases hk
              | bad => rw [ha] at hk; cases hk
              | unknown =>
                simp only [List.length_append] at hb
                rw [List.length_append, Nat.add_sub_cancel, List.take_left, key_tag ht] at h
                obtain ⟨l, hm, hbad, h1, h2⟩ := (ih _ _ _ _ _ hs (by omega)).mp h
                refine ⟨i :: l, .cons _ _ _ _ ht hi hm, ?_, ?_, ?_⟩
                · intro j hj
                  rcases List.mem_cons.mp hj with rfl | hj
                  · rw [ha]; exact fun h => by cases h
                  · exact hbad j hj
                · rw [List.foldl_cons, ha]; exact h1
                · rw [List.filter_cons, ha, h2]
                  simp [Act.isUnknown, Item.kept]
      · rintro ⟨l, hm, hbad, h1, h2⟩
        cases hm with
        | nil => cases hb'
        | cons t rest i l ht hi hr =>
          have htl := gtag_ne ht
          simp only [List.length_append] at hb
          rw [tag_read ht]
          simp only [(item_wt hi).1, if_false]
          rw [hset i s rest hi hs]
          cases ha : act i with
          | bad => exact absurd ha (hbad i (by simp))
          | set g =>
            simp only [Act.handle]
            rw [ih _ _ _ _ _ (hinv i s g hi ha hs) (by omega)]
            refine ⟨l, hr, fun j hj => hbad j (by simp [hj]), ?_, ?_⟩
            · rw [List.foldl_cons, ha] at h1; exact h1
            · rw [List.filter_cons, ha] at h2; exact h2
          | unknown =>
            simp only [Act.handle]
            rw [item_skip hi _ _ (by simp only [List.length_append]; omega)]
            simp only
            rw [ih _ _ _ _ _ hs (by omega), List.length_append, Nat.add_sub_cancel, List.take_left, key_tag ht]
            refine ⟨l, hr, fun j hj => hbad j (by simp [hj]), ?_, ?_⟩
            · rw [List.foldl_cons, ha] at h1; exact h1
            · rw [List.filter_cons, ha] at h2
              rw [h2]
              simp [Act.isUnknown, Item.kept]

/-! ### scalars -/

theorem ofNat_mod (n : Nat) : UInt32.ofNat (n % 2 ^ 32) = UInt32.ofNat n := by
  apply UInt32.toNat_inj.mp
  simp

theorem unzigzag_eq (n : Nat) : unzigzag n = Int32.ofInt (if n % 2 = 0 then ((n % 2 ^ 32) / 2 : Nat) else -((n % 2 ^ 32 + 1) / 2 : Nat)) := by
  unfold unzigzag
  by_cases h : n % 2 = 0
  · rw [if_pos h, if_pos (by omega)]
    rfl
  · rw [if_neg h, if_neg (by omega)]
    congr 1
    omega

theorem toInt32_ofNat (n : Nat) : (UInt32.ofNat n).toInt32 = Int32.ofInt n := by
  apply Int32.toBitVec_inj.mp
  apply BitVec.eq_of_toNat_eq
  simp [UInt32.toInt32, Int32.ofInt, UInt32.ofNat]

/-- a value of a type is read from a field with the wire type of that type, and only from such -/
theorem item_getVal {i : Item} (h : i.Ok) (t : Ty) (r : Bytes) :
    (i.wt = t.wire → ∃ v, scalar t i.raw = some v ∧ getVal t (i.text ++ r) = some (v, r)) ∧ (i.wt ≠ t.wire → scalar t i.raw = none) := by
  obtain ⟨num, wt, x, raw⟩ := i
  rcases h with h | ⟨h1, h2, _⟩
  · simp only at h ⊢
    cases h with
    | varint x n h =>
      cases t <;> simp only [Ty.wire, getVal, varint_read h, scalar, ofNat_mod, unzigzag_eq] <;> simp
      rfl
    | fixed64 x h => cases t <;> simp [Ty.wire, scalar]
    | bytes l b h =>
      have : getBytes (l ++ (b ++ r)) = some (b, r) := (getBytes_iff _ _ _).mpr ⟨l, h, by simp⟩
      cases t <;> simp [Ty.wire, scalar, getVal, this]
    | fixed32 a b c d =>
      cases t <;> simp only [Ty.wire, scalar, getVal, getFixed32, toInt32_ofNat, List.cons_append, List.nil_append, Option.map_some] <;> simp
  · simp only at h1 h2 ⊢
    subst h1 h2
    cases t <;> simp [Ty.wire, scalar]

theorem getVal_item {t : Ty} {b : Bytes} {v : Val} {r : Bytes} (h : getVal t b = some (v, r)) (num : Nat) :
    ∃ i : Item, i.Ok ∧ i.num = num ∧ i.wt = t.wire ∧ b = i.text ++ r := by
  cases t <;> simp only [getVal, Option.map_eq_some_iff, Prod.exists, Prod.mk.injEq] at h <;> obtain ⟨n, r', h, _, rfl⟩ := h
  case bytes => obtain ⟨i, h1, h2, h3, _, h4⟩ := bytes_item h num; exact ⟨i, h1, h2, h3, h4⟩
  case fixed32 => obtain ⟨i, _, h1, h2, h3, _, _, h4⟩ := fixed32_item h num; exact ⟨i, h1, h2, h3, h4⟩
  case sfixed32 => obtain ⟨i, _, h1, h2, h3, _, _, h4⟩ := fixed32_item h num; exact ⟨i, h1, h2, h3, h4⟩
  case float => obtain ⟨i, _, h1, h2, h3, _, _, h4⟩ := fixed32_item h num; exact ⟨i, h1, h2, h3, h4⟩
  all_goals (obtain ⟨i, h1, h2, h3, _, h4⟩ := varint_item h num; exact ⟨i, h1, h2, h3, h4⟩)

/-! ### inner messages -/

def applySub (sch : SubSchema) (i : Item) (vals : List (Option Val)) : List (Option Val) := List.zipWith (fun p o => i.value p.1 p.2 <|> o) sch vals

def actSub (sch : SubSchema) (i : Item) : Act (List (Option Val)) :=
  if sch.all fun p => (i.value p.1 p.2).isNone then .unknown else .set (applySub sch i)

theorem applySub_id (i : Item) : ∀ (sch : SubSchema) (vals : List (Option Val)), sch.length = vals.length → (∀ p ∈ sch, i.value p.1 p.2 = none) →
    applySub sch i vals = vals
  | [], [], _, _ => rfl
  | p :: sch, v :: vals, hl, h => by
    have ih := applySub_id i sch vals (by simpa using hl) fun p hp => h p (by simp [hp])
    unfold applySub at ih ⊢
    rw [List.zipWith_cons_cons, ih, h p (by simp)]
    rfl

theorem value_other {i : Item} {num : Nat} (t : Ty) (h : i.num ≠ num) : i.value num t = none := by
  unfold Item.value; rw [if_neg h]

theorem value_here {i : Item} (t : Ty) : i.value i.num t = scalar t i.raw := by
  unfold Item.value; rw [if_pos rfl]

theorem setSub_item {i : Item} (h : i.Ok) (r : Bytes) : ∀ (sch : SubSchema) (vals : List (Option Val)), (sch.map (·.1)).Nodup → sch.length = vals.length →
    setSub i.num i.wt (i.text ++ r) sch vals = (actSub sch i).handle vals r
  | [], [], _, _ => rfl
  | (n, t) :: sch, v :: vals, hn, hl => by
    simp only [List.map_cons, List.nodup_cons] at hn
    have hl' : sch.length = vals.length := by simpa using hl
    rw [setSub]
    by_cases e : n = i.num
    · subst e
      rw [if_pos rfl]
      have hnone : ∀ p ∈ sch, i.value p.1 p.2 = none := by
        intro p hp
        refine value_other _ fun he => hn.1 ?_
        rw [he]
        exact List.mem_map_of_mem hp
      obtain ⟨h1, h2⟩ := item_getVal h t r
      by_cases hw : i.wt = t.wire
      · obtain ⟨x, hx, hg⟩ := h1 hw
        rw [if_pos hw, hg]
        have ha : actSub ((i.num, t) :: sch) i = .set (applySub ((i.num, t) :: sch) i) := by
          unfold actSub
          rw [List.all_cons, value_here, hx]
          rfl
        rw [ha, Act.handle]
        have := applySub_id i sch vals hl' hnone
        unfold applySub at this ⊢
        rw [List.zipWith_cons_cons, this, value_here, hx]
        rfl
      · rw [if_neg hw]
        have ha : actSub ((i.num, t) :: sch) i = .unknown := by
          unfold actSub
          rw [if_pos]
          rw [List.all_eq_true]
          intro p hp
          rcases List.mem_cons.mp hp with rfl | hp
          · rw [value_here, h2 hw]; rfl
          · rw [hnone p hp]; rfl
        rw [ha, Act.handle]
    · rw [if_neg e, setSub_item h r sch vals hn.2 hl']
      have hv : i.value n t = none := value_other _ fun he => e he.symm
      unfold actSub
      rw [List.all_cons, hv]
      simp only [Option.isNone_none, Bool.true_and]
      split
      · rfl
      · simp only [Act.handle, Handled.map]
        unfold applySub
        rw [List.zipWith_cons_cons, hv]
        rfl

theorem setSub_ok_item (num wt : Nat) (b : Bytes) : ∀ (sch : SubSchema) (vals vals' : List (Option Val)) (r : Bytes),
    setSub num wt b sch vals = .ok vals' r → ∃ i : Item, i.Ok ∧ i.num = num ∧ i.wt = wt ∧ b = i.text ++ r
  | [], _, _, _, h => by simp [setSub] at h
  | _ :: _, [], _, _, h => by simp [setSub] at h
  | (n, t) :: sch, v :: vals, vals', r, h => by
    rw [setSub] at h
    split at h
    · split at h
      · rename_i hw
        cases hg : getVal t b with
        | none => rw [hg] at h; cases h
        | some p =>
          obtain ⟨x, r'⟩ := p
          rw [hg] at h
          simp only [Handled.ok.injEq] at h
          obtain ⟨-, rfl⟩ := h
          obtain ⟨i, h1, h2, h3, h4⟩ := getVal_item hg num
          exact ⟨i, h1, h2, by omega, h4⟩
      · cases h
    · cases hs : setSub num wt b sch vals with
      | fail => rw [hs] at h; cases h
      | unknown => rw [hs] at h; cases h
      | ok v2 r2 =>
        rw [hs] at h
        simp only [Handled.map, Handled.ok.injEq] at h
        obtain ⟨-, rfl⟩ := h
        exact setSub_ok_item num wt b sch vals _ _ hs

theorem lastValue_cons (n : Nat) (t : Ty) (i : Item) (l : List Item) : lastValue n t (i :: l) = (lastValue n t l <|> i.value n t) := by
  unfold lastValue
  cases h : i.value n t with
  | none =>
    rw [List.filterMap_cons_none h]
    cases (List.filterMap (Item.value n t) l).getLast? <;> rfl
  | some v =>
    rw [List.filterMap_cons_some h, List.getLast?_cons]
    cases (List.filterMap (Item.value n t) l).getLast? <;> rfl

theorem actSub_app (sch : SubSchema) (i : Item) (vals : List (Option Val)) (hl : sch.length = vals.length) : (actSub sch i).app vals = applySub sch i vals := by
  unfold actSub
  split
  · rename_i h
    rw [applySub_id i sch vals hl]
    · rfl
    · intro p hp
      have := List.all_eq_true.mp h p hp
      simpa using this
  · rfl

theorem foldSub (sch : SubSchema) : ∀ (l : List Item) (vals : List (Option Val)), sch.length = vals.length →
    l.foldl (fun s i => (actSub sch i).app s) vals = List.zipWith (fun p o => lastValue p.1 p.2 l <|> o) sch vals
  | [], vals, hl => by
    rw [List.foldl_nil]
    have := applySub_id ⟨0, 0, [], .group⟩ sch vals hl (fun p _ => by unfold Item.value; split <;> cases p.2 <;> rfl)
    unfold applySub at this
    refine this.symm.trans ?_
    congr 1
    funext p o
    have : lastValue p.1 p.2 [] = none := rfl
    rw [this]
    unfold Item.value
    split <;> cases p.2 <;> rfl
  | i :: l, vals, hl => by
    have hl2 : sch.length = (applySub sch i vals).length := by unfold applySub; simp [hl]
    rw [List.foldl_cons, actSub_app sch i vals hl, foldSub sch l _ hl2]
    unfold applySub
    clear hl2
    induction sch generalizing vals with
    | nil => rfl
    | cons p sch ih =>
      cases vals with
      | nil => rfl
      | cons v vals =>
        simp only [List.zipWith_cons_cons]
        rw [ih vals (by simpa using hl), lastValue_cons]
        congr 1
        cases lastValue p.1 p.2 l <;> rfl

/-- the model of the library reads exactly the messages of the grammar, as what they say -/
theorem getSub_iff (sch : SubSchema) (hn : (sch.map (·.1)).Nodup) (b : Bytes) (s : Sub) : getSub sch b = some s ↔
    ∃ l, Message b l ∧ s.vals = sch.map (fun p => lastValue p.1 p.2 l) ∧
      s.unknown = (l.filter fun i => sch.all fun p => (i.value p.1 p.2).isNone).flatMap Item.kept := by
  unfold getSub
  obtain ⟨vals, u⟩ := s
  have key := loop_iff (fun num wt b s => setSub num wt b sch s) (actSub sch) (fun v => sch.length = v.length)
    (fun i s r hi hs => setSub_item hi r sch s hn hs)
    (fun i s g _ ha hs => by
      unfold actSub at ha
      split at ha
      · cases ha
      · cases ha; unfold applySub; simp [hs])
    (fun num wt b s s' r _ h => setSub_ok_item num wt b sch s s' r h)
    b.length b (sch.map fun _ => none) [] vals u (by simp) (Nat.le_refl _)
  have hz : ∀ l : List Item, List.zipWith (fun p o => lastValue p.1 p.2 l <|> o) sch (sch.map fun _ => (none : Option Val)) =
      sch.map fun p => lastValue p.1 p.2 l := by
    intro l
    clear hn key
    induction sch with
    | nil => rfl
    | cons p sch ih =>
      simp only [List.map_cons, List.zipWith_cons_cons, ih]
      congr 1
      cases lastValue p.1 p.2 l <;> rfl
  simp only [Option.map_eq_some_iff, Prod.exists, Sub.mk.injEq]
  have hu : ∀ i : Item, (actSub sch i).isUnknown = sch.all fun p => (i.value p.1 p.2).isNone := by
    intro i
    unfold actSub
    split
    · rename_i h; rw [h]; rfl
    · rename_i h; simp only [Bool.not_eq_true] at h; rw [h]; rfl
  constructor
  · rintro ⟨v, w, h, rfl, rfl⟩
    obtain ⟨l, hm, _, h1, h2⟩ := key.mp h
    refine ⟨l, hm, ?_, ?_⟩
    · rw [h1, foldSub sch l _ (by simp), hz]
    · rw [h2, List.nil_append]
      congr 1
      exact List.filter_congr fun i _ => hu i
  · rintro ⟨l, hm, h1, h2⟩
    refine ⟨vals, u, key.mpr ⟨l, hm, ?_, ?_, ?_⟩, rfl, rfl⟩
    · intro i _ h
      unfold actSub at h
      split at h <;> cases h
    · rw [foldSub sch l _ (by simp), hz]; exact h1
    · rw [List.nil_append]
      refine h2.trans ?_
      congr 1
      exact (List.filter_congr fun i _ => hu i).symm

/-! ### the outer message -/

theorem packed_iff (f : Nat) : ∀ (b : Bytes) (l : List Int32), b.length ≤ f → (getPacked f b = some l ↔ Packed b l) := by
  induction f with
  | zero =>
    intro b l hb
    obtain rfl : b = [] := List.eq_nil_of_length_eq_zero (by omega)
    simp only [getPacked, Option.some.injEq]
    constructor
    · rintro rfl; exact .nil
    · intro h
      generalize he : ([] : Bytes) = e at h
      cases h with
      | nil => rfl
      | cons x rest n l hx hr =>
        have := digits_ne hx.1
        have := congrArg List.length he
        simp at this
        omega
  | succ f ih =>
    intro b l hb
    cases b with
    | nil =>
      simp only [getPacked, Option.some.injEq]
      constructor
      · rintro rfl; exact .nil
      · intro h
        generalize he : ([] : Bytes) = e at h
        cases h with
        | nil => rfl
        | cons x rest n l hx hr =>
          have := digits_ne hx.1
          have := congrArg List.length he
          simp at this
          omega
    | cons c b0 =>
      rw [getPacked]
      generalize hb' : c :: b0 = b at *
      constructor
      · intro h
        cases hg : getVarint b with
        | none => rw [hg] at h; cases h
        | some p =>
          obtain ⟨n, r⟩ := p
          rw [hg] at h
          simp only [Option.map_eq_some_iff] at h
          obtain ⟨l', h, rfl⟩ := h
          obtain ⟨x, hx, rfl⟩ := (getVarint_iff _ _ _).mp hg
          have := digits_ne hx.1
          simp only [List.length_append] at hb
          exact .cons _ _ _ _ hx ((ih _ _ (by omega)).mp h)
      · intro h
        cases h with
        | nil => cases hb'
        | cons x rest n l hx hr =>
          have := digits_ne hx.1
          simp only [List.length_append] at hb
          rw [varint_read hx]
          simp only [(ih _ _ (by omega)).mpr hr]
          rfl

def addEnums (l : List Int32) : Slot → Slot
  | .enums l0 => .enums (l0 ++ l)
  | v => v

def addMsg (m : Sub) : Slot → Slot
  | .msgs l0 => .msgs (l0 ++ [m])
  | v => v

/-- content with reasons -/
def readReasons : Grammar.Raw → Option (List Int32)
  | .varint n => some [Int32.ofNat n]
  | .bytes b => getPacked b.length b
  | _ => none

def reasonAt (n : Nat) (i : Item) : Option Grammar.Raw :=
  if i.num = n then match i.raw with
    | .varint n => some (.varint n)
    | .bytes b => some (.bytes b)
    | _ => none
  else none

def slotAct (n : Nat) (k : Field) (i : Item) : Act Slot :=
  match k with
  | .one t => match i.value n t with
    | some v => .set fun _ => .one (some v)
    | none => .unknown
  | .enums => match reasonAt n i with
    | none => .unknown
    | some raw => match readReasons raw with
      | none => .bad
      | some l => .set (addEnums l)
  | .msgs sch => match i.inner n with
    | none => .unknown
    | some b => match getSub sch b with
      | none => .bad
      | some m => .set (addMsg m)

def Shape : Field → Slot → Prop
  | .one _, .one _ => True
  | .enums, .enums _ => True
  | .msgs _, .msgs _ => True
  | _, _ => False

theorem slotAct_other {n : Nat} {k : Field} {i : Item} (h : i.num ≠ n) : slotAct n k i = .unknown := by
  unfold slotAct
  cases k with
  | one t => simp only [value_other t h]
  | enums => simp only [reasonAt, if_neg h]
  | msgs sch => simp only [Item.inner, if_neg h]

theorem slotAct_shape {n : Nat} {k : Field} {i : Item} {v : Slot} (h : Shape k v) : Shape k ((slotAct n k i).app v) := by
  unfold slotAct
  cases k with
  | one t =>
    simp only
    cases i.value n t with
    | none => exact h
    | some v => exact trivial
  | enums =>
    simp only
    cases reasonAt n i with
    | none => exact h
    | some raw =>
      simp only
      cases readReasons raw with
      | none => exact h
      | some l => cases v <;> first | exact h.elim | exact trivial
  | msgs sch =>
    simp only
    cases i.inner n with
    | none => exact h
    | some b =>
      simp only
      cases getSub sch b with
      | none => exact h
      | some m => cases v <;> first | exact h.elim | exact trivial

theorem setSlot_item {i : Item} (h : i.Ok) (r : Bytes) (k : Field) (v : Slot) (hv : Shape k v) :
    setSlot i.wt (i.text ++ r) k v = (slotAct i.num k i).handle v r := by
  cases k with
  | one t =>
    cases v with
    | enums => exact hv.elim
    | msgs => exact hv.elim
    | one o =>
      obtain ⟨h1, h2⟩ := item_getVal h t r
      simp only [setSlot, slotAct, value_here]
      by_cases hw : i.wt = t.wire
      · obtain ⟨x, hx, hg⟩ := h1 hw
        rw [if_pos hw, hg, hx]
        rfl
      · rw [if_neg hw, h2 hw]
        rfl
  | enums =>
    cases v with
    | one => exact hv.elim
    | msgs => exact hv.elim
    | enums l =>
      obtain ⟨num, wt, x, raw⟩ := i
      simp only [setSlot, slotAct, reasonAt, if_true]
      rcases h with h | ⟨h1, h2, _⟩
      · simp only at h
        cases h with
        | varint x n h => simp [varint_read h, readReasons, Act.handle, addEnums]
        | fixed64 x h => simp [Act.handle]
        | bytes s b h =>
          have : getBytes (s ++ b ++ r) = some (b, r) := (getBytes_iff _ _ _).mpr ⟨s, h, rfl⟩
          simp only [this, readReasons]
          cases getPacked b.length b <;> simp [Act.handle, addEnums]
        | fixed32 a b c d => simp [Act.handle]
      · simp only at h1 h2
        subst h1 h2
        simp [Act.handle]
  | msgs sch =>
    cases v with
    | one => exact hv.elim
    | enums => exact hv.elim
    | msgs l =>
      obtain ⟨num, wt, x, raw⟩ := i
      simp only [setSlot, slotAct, Item.inner, if_true]
      rcases h with h | ⟨h1, h2, _⟩
      · simp only at h
        cases h with
        | varint x n h => simp [Act.handle]
        | fixed64 x h => simp [Act.handle]
        | bytes s b h =>
          have : getBytes (s ++ b ++ r) = some (b, r) := (getBytes_iff _ _ _).mpr ⟨s, h, rfl⟩
          simp only [this]
          cases getSub sch b <;> simp [Act.handle, addMsg]
        | fixed32 a b c d => simp [Act.handle]
      · simp only at h1 h2
        subst h1 h2
        simp [Act.handle]

theorem setSlot_ok_item (num wt : Nat) (b : Bytes) (k : Field) (v v' : Slot) (r : Bytes) (h : setSlot wt b k v = .ok v' r) :
    ∃ i : Item, i.Ok ∧ i.num = num ∧ i.wt = wt ∧ b = i.text ++ r := by
  unfold setSlot at h
  split at h
  · rename_i t _
    split at h
    · rename_i hw
      cases hg : getVal t b with
      | none => rw [hg] at h; cases h
      | some p =>
        obtain ⟨x, r'⟩ := p
        rw [hg] at h
        simp only [Handled.ok.injEq] at h
        obtain ⟨-, rfl⟩ := h
        obtain ⟨i, h1, h2, h3, h4⟩ := getVal_item hg num
        exact ⟨i, h1, h2, by omega, h4⟩
    · cases h
  · split at h
    · rename_i hw
      cases hg : getVarint b with
      | none => rw [hg] at h; cases h
      | some p =>
        obtain ⟨x, r'⟩ := p
        rw [hg] at h
        simp only [Handled.ok.injEq] at h
        obtain ⟨-, rfl⟩ := h
        obtain ⟨i, h1, h2, h3, _, h4⟩ := varint_item hg num
        exact ⟨i, h1, h2, by omega, h4⟩
    · split at h
      · rename_i hw
        cases hg : getBytes b with
        | none => rw [hg] at h; cases h
        | some p =>
          obtain ⟨x, r'⟩ := p
          rw [hg] at h
          simp only at h
          cases hp : getPacked x.length x with
          | none => rw [hp] at h; cases h
          | some l =>
            rw [hp] at h
            simp only [Handled.ok.injEq] at h
            obtain ⟨-, rfl⟩ := h
            obtain ⟨i, h1, h2, h3, _, h4⟩ := bytes_item hg num
            exact ⟨i, h1, h2, by omega, h4⟩
      · cases h
  · split at h
    · rename_i sch _ hw
      cases hg : getBytes b with
      | none => rw [hg] at h; cases h
      | some p =>
        obtain ⟨x, r'⟩ := p
        rw [hg] at h
        simp only at h
        cases hp : getSub sch x with
        | none => rw [hp] at h; cases h
        | some l =>
          rw [hp] at h
          simp only [Handled.ok.injEq] at h
          obtain ⟨-, rfl⟩ := h
          obtain ⟨i, h1, h2, h3, _, h4⟩ := bytes_item hg num
          exact ⟨i, h1, h2, by omega, h4⟩
    · cases h
  · cases h

def applyMsg (sch : Schema) (i : Item) (vals : List Slot) : List Slot := List.zipWith (fun p v => (slotAct p.1 p.2 i).app v) sch vals

def Act.isBad {S : Type} : Act S → Bool
  | .bad => true
  | _ => false

def actMsg (sch : Schema) (i : Item) : Act (List Slot) :=
  if sch.any fun p => (slotAct p.1 p.2 i).isBad then .bad
  else if sch.all fun p => (slotAct p.1 p.2 i).isUnknown then .unknown
  else .set (applyMsg sch i)

theorem applyMsg_id (i : Item) : ∀ (sch : Schema) (vals : List Slot), sch.length = vals.length → (∀ p ∈ sch, slotAct p.1 p.2 i = .unknown) →
    applyMsg sch i vals = vals
  | [], [], _, _ => rfl
  | p :: sch, v :: vals, hl, h => by
    have ih := applyMsg_id i sch vals (by simpa using hl) fun p hp => h p (by simp [hp])
    unfold applyMsg at ih ⊢
    rw [List.zipWith_cons_cons, ih, h p (by simp)]
    rfl

theorem setField_item {i : Item} (h : i.Ok) (r : Bytes) : ∀ (sch : Schema) (vals : List Slot), (sch.map (·.1)).Nodup →
    List.Forall₂ (fun p v => Shape p.2 v) sch vals → setField i.num i.wt (i.text ++ r) sch vals = (actMsg sch i).handle vals r
  | [], [], _, _ => rfl
  | (n, k) :: sch, v :: vals, hn, hs => by
    simp only [List.map_cons, List.nodup_cons] at hn
    cases hs with
    | cons hv hs =>
    have hl' := hs.length_eq
    rw [setField]
    by_cases e : n = i.num
    · subst e
      rw [if_pos rfl, setSlot_item h r k v hv]
      have hnone : ∀ p ∈ sch, slotAct p.1 p.2 i = .unknown := by
        intro p hp
        refine slotAct_other fun he => hn.1 ?_
        rw [he]
        exact List.mem_map_of_mem hp
      have hany : (sch.any fun p => (slotAct p.1 p.2 i).isBad) = false := by
        rw [List.any_eq_false]
        intro p hp
        rw [hnone p hp]
        exact Bool.false_ne_true
      have hall : (sch.all fun p => (slotAct p.1 p.2 i).isUnknown) = true := by
        rw [List.all_eq_true]
        intro p hp
        rw [hnone p hp]
        rfl
      have happ : applyMsg ((i.num, k) :: sch) i (v :: vals) = (slotAct i.num k i).app v :: vals := by
        have := applyMsg_id i sch vals hl' hnone
        unfold applyMsg at this ⊢
        rw [List.zipWith_cons_cons, this]
      unfold actMsg
      rw [List.any_cons, List.all_cons, hany, hall]
      cases ha : slotAct i.num k i with
      | unknown => simp [Act.isBad, Act.isUnknown, Act.handle, Handled.map]
      | bad => simp [Act.isBad, Act.handle, Handled.map]
      | set g =>
        simp only [Act.isBad, Act.isUnknown, Bool.or_false, Bool.false_eq_true, if_false, Bool.and_true, Act.handle, Handled.map]
        rw [happ, ha]
        rfl
    · rw [if_neg e, setField_item h r sch vals hn.2 hs]
      have hv : slotAct n k i = .unknown := slotAct_other fun he => e he.symm
      unfold actMsg
      rw [List.any_cons, List.all_cons, hv]
      rw [show (Act.unknown : Act Slot).isBad = false from rfl, show (Act.unknown : Act Slot).isUnknown = true from rfl, Bool.false_or, Bool.true_and]
      split
      · rfl
      · split
        · rfl
        · simp only [Act.handle, Handled.map]
          unfold applyMsg
          rw [List.zipWith_cons_cons, hv]
          rfl

theorem setField_ok_item (num wt : Nat) (b : Bytes) : ∀ (sch : Schema) (vals vals' : List Slot) (r : Bytes),
    setField num wt b sch vals = .ok vals' r → ∃ i : Item, i.Ok ∧ i.num = num ∧ i.wt = wt ∧ b = i.text ++ r
  | [], _, _, _, h => by simp [setField] at h
  | _ :: _, [], _, _, h => by simp [setField] at h
  | (n, k) :: sch, v :: vals, vals', r, h => by
    rw [setField] at h
    split at h
    · cases hs : setSlot wt b k v with
      | fail => rw [hs] at h; cases h
      | unknown => rw [hs] at h; cases h
      | ok v2 r2 =>
        rw [hs] at h
        simp only [Handled.map, Handled.ok.injEq] at h
        obtain ⟨-, rfl⟩ := h
        exact setSlot_ok_item num wt b k v _ _ hs
    · cases hs : setField num wt b sch vals with
      | fail => rw [hs] at h; cases h
      | unknown => rw [hs] at h; cases h
      | ok v2 r2 =>
        rw [hs] at h
        simp only [Handled.map, Handled.ok.injEq] at h
        obtain ⟨-, rfl⟩ := h
        exact setField_ok_item num wt b sch vals _ _ hs

theorem actMsg_app (sch : Schema) (i : Item) (vals : List Slot) (hl : sch.length = vals.length) (hb : actMsg sch i ≠ .bad) :
    (actMsg sch i).app vals = applyMsg sch i vals := by
  unfold actMsg at hb ⊢
  split
  · rename_i h; rw [if_pos h] at hb; exact absurd rfl hb
  · split
    · rename_i h
      rw [applyMsg_id i sch vals hl]
      · rfl
      · intro p hp
        have := List.all_eq_true.mp h p hp
        cases ha : slotAct p.1 p.2 i <;> rw [ha] at this <;> first | rfl | cases this
    · rfl

/-- the slot after the fields `l` -/
def slotAfter (n : Nat) (k : Field) (l : List Item) (v : Slot) : Slot := l.foldl (fun v i => (slotAct n k i).app v) v

theorem foldMsg (sch : Schema) : ∀ (l : List Item) (vals : List Slot), sch.length = vals.length → (∀ i ∈ l, actMsg sch i ≠ .bad) →
    l.foldl (fun s i => (actMsg sch i).app s) vals = List.zipWith (fun p v => slotAfter p.1 p.2 l v) sch vals
  | [], vals, hl, _ => by
    rw [List.foldl_nil]
    induction sch generalizing vals with
    | nil => cases vals <;> first | rfl | cases hl
    | cons p sch ih =>
      cases vals with
      | nil => cases hl
      | cons v vals =>
        rw [List.zipWith_cons_cons, ← ih vals (by simpa using hl) (by simp)]
        rfl
  | i :: l, vals, hl, hb => by
    have hl2 : sch.length = (applyMsg sch i vals).length := by unfold applyMsg; simp [hl]
    rw [List.foldl_cons, actMsg_app sch i vals hl (hb i (by simp)), foldMsg sch l _ hl2 fun j hj => hb j (by simp [hj])]
    unfold applyMsg
    clear hl2 hb
    induction sch generalizing vals with
    | nil => rfl
    | cons p sch ih =>
      cases vals with
      | nil => rfl
      | cons v vals =>
        simp only [List.zipWith_cons_cons]
        rw [ih vals (by simpa using hl)]
        rfl

theorem empty_shape (k : Field) : Shape k k.empty := by cases k <;> trivial

theorem applyMsg_shape {i : Item} {sch : Schema} {vals : List Slot} (h : List.Forall₂ (fun p v => Shape p.2 v) sch vals) :
    List.Forall₂ (fun p v => Shape p.2 v) sch (applyMsg sch i vals) := by
  unfold applyMsg
  induction h with
  | nil => exact .nil
  | cons h _ ih => exact .cons (slotAct_shape h) ih

theorem getMsg_iff (sch : Schema) (hn : (sch.map (·.1)).Nodup) (b : Bytes) (vals : List Slot) (u : Bytes) : getMsg sch b = some (vals, u) ↔
    ∃ l, Message b l ∧ (∀ i ∈ l, ∀ p ∈ sch, slotAct p.1 p.2 i ≠ .bad) ∧ vals = sch.map (fun p => slotAfter p.1 p.2 l p.2.empty) ∧
      u = (l.filter fun i => sch.all fun p => (slotAct p.1 p.2 i).isUnknown).flatMap Item.kept := by
  unfold getMsg
  have key := loop_iff (fun num wt b s => setField num wt b sch s) (actMsg sch) (fun v => List.Forall₂ (fun p v => Shape p.2 v) sch v)
    (fun i s r hi hs => setField_item hi r sch s hn hs)
    (fun i s g _ ha hs => by
      unfold actMsg at ha
      split at ha
      · cases ha
      · split at ha
        · cases ha
        · cases ha
          exact applyMsg_shape hs)
    (fun num wt b s s' r _ h => setField_ok_item num wt b sch s s' r h)
    b.length b (sch.map (·.2.empty)) [] vals u (by
      clear hn
      induction sch with
      | nil => exact .nil
      | cons p sch ih => exact .cons (empty_shape _) ih) (Nat.le_refl _)
  have hz : ∀ l : List Item, List.zipWith (fun p v => slotAfter p.1 p.2 l v) sch (sch.map (·.2.empty)) =
      sch.map fun p => slotAfter p.1 p.2 l p.2.empty := by
    intro l
    clear hn key
    induction sch with
    | nil => rfl
    | cons p sch ih => simp only [List.map_cons, List.zipWith_cons_cons, ih]
  have hbad : ∀ i : Item, actMsg sch i ≠ .bad ↔ ∀ p ∈ sch, slotAct p.1 p.2 i ≠ .bad := by
    intro i
    unfold actMsg
    have e : ∀ p : Nat × Field, (slotAct p.1 p.2 i).isBad = true ↔ slotAct p.1 p.2 i = .bad := by
      intro p
      cases slotAct p.1 p.2 i <;> simp [Act.isBad]
    constructor
    · intro h p hp hb
      refine h ?_
      rw [if_pos]
      exact List.any_eq_true.mpr ⟨p, hp, (e p).mpr hb⟩
    · intro h
      rw [if_neg]
      · split <;> exact fun h => by cases h
      · intro hh
        obtain ⟨p, hp, hb⟩ := List.any_eq_true.mp hh
        exact h p hp ((e p).mp hb)
  have hu : ∀ i : Item, actMsg sch i ≠ .bad → (actMsg sch i).isUnknown = sch.all fun p => (slotAct p.1 p.2 i).isUnknown := by
    intro i hb
    unfold actMsg at hb ⊢
    split
    · rename_i h; rw [if_pos h] at hb; exact absurd rfl hb
    · split
      · rename_i h; rw [h]; rfl
      · rename_i h; simp only [Bool.not_eq_true] at h; rw [h]; rfl
  rw [key]
  constructor
  · rintro ⟨l, hm, hb, h1, h2⟩
    refine ⟨l, hm, fun i hi => (hbad i).mp (hb i hi), ?_, ?_⟩
    · rw [h1, foldMsg sch l _ (by simp) hb, hz]
    · rw [h2, List.nil_append]
      congr 1
      exact List.filter_congr fun i hi => hu i (hb i hi)
  · rintro ⟨l, hm, hb, h1, h2⟩
    have hb' : ∀ i ∈ l, actMsg sch i ≠ .bad := fun i hi => (hbad i).mpr (hb i hi)
    refine ⟨l, hm, hb', ?_, ?_⟩
    · rw [foldMsg sch l _ (by simp) hb', hz]; exact h1
    · rw [List.nil_append, h2]
      congr 1
      exact (List.filter_congr fun i hi => hu i (hb' i hi)).symm

/-! ### the slots -/

theorem slotAfter_one (n : Nat) (t : Ty) : ∀ (l : List Item) (o : Option Val), slotAfter n (.one t) l (.one o) = .one (lastValue n t l <|> o)
  | [], o => rfl
  | i :: l, o => by
    have : slotAfter n (.one t) (i :: l) (.one o) = slotAfter n (.one t) l (.one (i.value n t <|> o)) := by
      unfold slotAfter
      rw [List.foldl_cons]
      congr 1
      unfold slotAct
      simp only
      cases i.value n t <;> rfl
    rw [this, slotAfter_one n t l, lastValue_cons]
    congr 1
    cases lastValue n t l <;> rfl

theorem slotAfter_enums (n : Nat) : ∀ (l : List Item) (l0 : List Int32),
    slotAfter n .enums l (.enums l0) = .enums (l0 ++ ((l.filterMap (reasonAt n)).filterMap readReasons).flatten)
  | [], l0 => by simp [slotAfter]
  | i :: l, l0 => by
    have e : slotAfter n .enums (i :: l) (.enums l0) = slotAfter n .enums l ((slotAct n .enums i).app (.enums l0)) := rfl
    rw [e]
    unfold slotAct
    simp only
    cases hr : reasonAt n i with
    | none => rw [List.filterMap_cons_none hr]; exact slotAfter_enums n l l0
    | some raw =>
      rw [List.filterMap_cons_some hr]
      simp only
      cases hp : readReasons raw with
      | none => rw [List.filterMap_cons_none hp]; exact slotAfter_enums n l l0
      | some l1 =>
        rw [List.filterMap_cons_some hp]
        simp only [Act.app, addEnums]
        rw [slotAfter_enums n l, List.flatten_cons, List.append_assoc]

theorem slotAfter_msgs (n : Nat) (sch : SubSchema) : ∀ (l : List Item) (l0 : List Sub),
    slotAfter n (.msgs sch) l (.msgs l0) = .msgs (l0 ++ (l.filterMap (Item.inner n)).filterMap (getSub sch))
  | [], l0 => by simp [slotAfter]
  | i :: l, l0 => by
    have e : slotAfter n (.msgs sch) (i :: l) (.msgs l0) = slotAfter n (.msgs sch) l ((slotAct n (.msgs sch) i).app (.msgs l0)) := rfl
    rw [e]
    unfold slotAct
    simp only
    cases hr : i.inner n with
    | none => rw [List.filterMap_cons_none hr]; exact slotAfter_msgs n sch l l0
    | some b =>
      rw [List.filterMap_cons_some hr]
      simp only
      cases hp : getSub sch b with
      | none => rw [List.filterMap_cons_none hp]; exact slotAfter_msgs n sch l l0
      | some m =>
        rw [List.filterMap_cons_some hp]
        simp only [Act.app, addMsg]
        rw [slotAfter_msgs n sch l, List.append_assoc]
        rfl

end Egts.PB
