import Verif.Go.Protobuf
import Mathlib.Tactic.IntervalCases
import Mathlib.Tactic.Linarith
import Mathlib.Data.List.Forall2
set_option autoImplicit false
/- Lemmas about the protobuf wire format. -/
namespace Egts.PB

theorem getVarint_put (k : Nat) : ∀ (n : Nat) (rest : Bytes), n < 2 * 128 ^ k →
    getVarintAux (k + 1) (putVarint (k + 1) n ++ rest) = some (n, rest) := by
  induction k with
  | zero =>
    intro n rest h
    have h : n < 2 := by simpa using h
    interval_cases n <;> simp [putVarint, getVarintAux]
  | succ k ih =>
    intro n rest h
    rw [putVarint]
    split
    · rename_i hn
      have h1 : (UInt8.ofNat n).toNat = n := by simp; omega
      have h2 : UInt8.ofNat n < 128 := by rw [UInt8.lt_iff_toNat_lt, h1]; exact hn
      simp [getVarintAux, h2, h1]
    · rename_i hn
      have h1 : (UInt8.ofNat (n % 128 + 128)).toNat = n % 128 + 128 := by simp; omega
      have h2 : ¬ UInt8.ofNat (n % 128 + 128) < 128 := by rw [UInt8.lt_iff_toNat_lt, h1]; simp
      have h3 : n / 128 < 2 * 128 ^ k := by
        rw [Nat.div_lt_iff_lt_mul (by decide)]; rw [pow_succ] at h; omega
      rw [List.cons_append, getVarintAux, if_neg h2, ih _ rest h3]
      have h4 : n / 128 * 128 + (n % 128 + 128 - 128) = n := by omega
      simp only [h1, h4]

theorem getVarint_varint (n : Nat) (rest : Bytes) (h : n < 18446744073709551616) :
    getVarint (varint n ++ rest) = some (n, rest) := getVarint_put 9 n rest (by norm_num; exact h)

theorem varint_ne (n : Nat) : 1 ≤ (varint n).length := by
  unfold varint putVarint
  split <;> simp

theorem getTag_tag (num wt : Nat) (rest : Bytes) (h1 : 1 ≤ num) (h2 : num < 536870912) (h3 : wt < 8) :
    getTag (tag num wt ++ rest) = some (num, wt, rest) := by
  unfold getTag tag
  rw [getVarint_varint _ _ (by omega)]
  have e1 : (num * 8 + wt) / 8 = num := by omega
  have e2 : (num * 8 + wt) % 8 = wt := by omega
  simp only [e1, e2]
  rw [if_pos ⟨h1, h2⟩]

theorem tag_ne (num wt : Nat) : 1 ≤ (tag num wt).length := varint_ne _

theorem getFixed32_put (n : UInt32) (rest : Bytes) : getFixed32 (putFixed32 n ++ rest) = some (n, rest) := by
  simp only [putFixed32, List.cons_append, List.nil_append, getFixed32, Option.some.injEq, Prod.mk.injEq, and_true]
  have := n.toNat_lt
  apply UInt32.toNat_inj.mp
  simp
  omega

theorem getBytes_put (b rest : Bytes) (h : b.length < 18446744073709551616) : getBytes (putBytes b ++ rest) = some (b, rest) := by
  unfold getBytes putBytes
  rw [List.append_assoc, getVarint_varint _ _ h]
  simp

theorem unzigzag_zigzag (n : Int32) : unzigzag (zigzag n) = n := by
  have h1 := n.le_toInt
  have h2 := n.toInt_lt
  norm_num at h1 h2
  unfold zigzag unzigzag
  split
  · simp only
    have e : ((2 * n.toInt).toNat % 4294967296) = (2 * n.toInt).toNat := by omega
    rw [e, if_pos (by omega)]
    have : (((2 * n.toInt).toNat / 2 : Nat) : Int) = n.toInt := by omega
    rw [this]; simp
  · simp only
    have e : ((-2 * n.toInt - 1).toNat % 4294967296) = (-2 * n.toInt - 1).toNat := by omega
    rw [e, if_neg (by omega)]
    have : -(((-2 * n.toInt - 1).toNat / 2 : Nat) : Int) - 1 = n.toInt := by omega
    rw [this]; simp

theorem zigzag_lt (n : Int32) : zigzag n < 18446744073709551616 := by
  have h1 := n.le_toInt
  have h2 := n.toInt_lt
  norm_num at h1 h2
  unfold zigzag
  split <;> omega

theorem enum_trunc (n : Int32) : Int32.ofNat (n.toInt % 18446744073709551616).toNat = n := by
  have h1 := n.le_toInt
  have h2 := n.toInt_lt
  norm_num at h1 h2
  rw [← Int32.toInt_inj]
  rw [Int32.toInt_ofNat']
  rw [Int.toNat_of_nonneg (by omega)]
  rw [show Int32.size = 4294967296 from rfl, Int.bmod_def]
  split <;> omega

/-- what has been written for a value is read as that value -/
theorem getVal_put (t : Ty) (v : Val) (rest : Bytes) (h : v.has t) (hl : ∀ x, v = .s x → x.length < 18446744073709551616) :
    getVal t (putVal t v ++ rest) = some (v, rest) := by
  cases t <;> cases v <;> simp only [Val.has] at h
  case uint32.u n =>
    have := n.toNat_lt
    simp [getVal, putVal, getVarint_varint n.toNat rest (by omega)]
  case sint32.i n => simp [getVal, putVal, getVarint_varint _ rest (zigzag_lt n), unzigzag_zigzag]
  case bool.b x =>
    simp only [getVal, putVal]
    rw [getVarint_varint _ rest (by cases x <;> simp)]
    cases x <;> simp
  case enum.i n =>
    simp only [getVal, putVal]
    rw [getVarint_varint _ rest (by have := Int.emod_lt_of_pos n.toInt (b := 18446744073709551616) (by norm_num); omega)]
    simp [enum_trunc]
  case fixed32.u n => simp [getVal, putVal, getFixed32_put]
  case sfixed32.i n => simp [getVal, putVal, getFixed32_put]
  case float.u n => simp [getVal, putVal, getFixed32_put]
  case bytes.s x => simp [getVal, putVal, getBytes_put x rest (hl x rfl)]

theorem getVarintAux_split (k : Nat) : ∀ (b : Bytes) (n : Nat) (r : Bytes), getVarintAux k b = some (n, r) →
    ∃ v, b = v ++ r ∧ 1 ≤ v.length ∧ ∀ rest, getVarintAux k (v ++ rest) = some (n, rest) := by
  induction k with
  | zero => intro b n r h; simp [getVarintAux] at h
  | succ k ih =>
    intro b n r h
    cases b with
    | nil => simp [getVarintAux] at h
    | cons c s =>
      rw [getVarintAux] at h
      by_cases hc : c < 128
      · rw [if_pos hc] at h
        by_cases hk : k = 0 ∧ 1 < c
        · rw [if_pos hk] at h; simp at h
        · rw [if_neg hk] at h
          simp only [Option.some.injEq, Prod.mk.injEq] at h
          refine ⟨[c], by simp [h.2], by simp, fun rest => ?_⟩
          rw [List.cons_append, getVarintAux, if_pos hc, if_neg hk, h.1]; rfl
      · rw [if_neg hc] at h
        cases h2 : getVarintAux k s with
        | none => simp [h2] at h
        | some x =>
          obtain ⟨n', r'⟩ := x
          simp only [h2, Option.some.injEq, Prod.mk.injEq] at h
          obtain ⟨v, hv, _, hr⟩ := ih s n' r' h2
          refine ⟨c :: v, by simp [hv, h.2], by simp, fun rest => ?_⟩
          rw [List.cons_append, getVarintAux, if_neg hc, hr rest]
          simp [h.1]

theorem getVarint_split {b : Bytes} {n : Nat} {r : Bytes} (h : getVarint b = some (n, r)) :
    ∃ v, b = v ++ r ∧ 1 ≤ v.length ∧ ∀ rest, getVarint (v ++ rest) = some (n, rest) := getVarintAux_split 10 b n r h

theorem getTag_split {b : Bytes} {n wt : Nat} {r : Bytes} (h : getTag b = some (n, wt, r)) :
    ∃ v, b = v ++ r ∧ 1 ≤ v.length ∧ (∀ rest, getTag (v ++ rest) = some (n, wt, rest)) ∧ 1 ≤ n ∧ n < 536870912 ∧ wt < 8 := by
  unfold getTag at h
  cases h1 : getVarint b with
  | none => simp [h1] at h
  | some x =>
    obtain ⟨t, r'⟩ := x
    simp only [h1] at h
    by_cases hb : 1 ≤ t / 8 ∧ t / 8 < 536870912
    · rw [if_pos hb] at h
      simp only [Option.some.injEq, Prod.mk.injEq] at h
      obtain ⟨v, hv, hl, hr⟩ := getVarint_split h1
      obtain ⟨rfl, rfl, rfl⟩ := h
      refine ⟨v, hv, hl, fun rest => ?_, hb.1, hb.2, by omega⟩
      simp [getTag, hr rest, hb]
    · rw [if_neg hb] at h; simp at h

theorem getGroupTag_split {b : Bytes} {n wt : Nat} {r : Bytes} (h : getGroupTag b = some (n, wt, r)) :
    ∃ v, b = v ++ r ∧ 1 ≤ v.length ∧ (∀ rest, getGroupTag (v ++ rest) = some (n, wt, rest)) ∧ 1 ≤ n ∧ n < 2147483648 ∧ wt < 8 := by
  unfold getGroupTag at h
  cases h1 : getVarint b with
  | none => simp [h1] at h
  | some x =>
    obtain ⟨t, r'⟩ := x
    simp only [h1] at h
    by_cases hb : 1 ≤ t / 8 ∧ t / 8 < 2147483648
    · rw [if_pos hb] at h
      simp only [Option.some.injEq, Prod.mk.injEq] at h
      obtain ⟨v, hv, hl, hr⟩ := getVarint_split h1
      obtain ⟨rfl, rfl, rfl⟩ := h
      refine ⟨v, hv, hl, fun rest => ?_, hb.1, hb.2, by omega⟩
      simp [getGroupTag, hr rest, hb]
    · rw [if_neg hb] at h; simp at h

theorem getBytes_split {b x r : Bytes} (h : getBytes b = some (x, r)) :
    ∃ v, b = v ++ r ∧ 1 ≤ v.length ∧ ∀ rest, getBytes (v ++ rest) = some (x, rest) := by
  unfold getBytes at h
  cases h1 : getVarint b with
  | none => simp [h1] at h
  | some y =>
    obtain ⟨n, r'⟩ := y
    simp only [h1] at h
    by_cases hn : n ≤ r'.length
    · rw [if_pos hn] at h
      simp only [Option.some.injEq, Prod.mk.injEq] at h
      obtain ⟨v, hv, hl, hr⟩ := getVarint_split h1
      refine ⟨v ++ r'.take n, ?_, by simp; omega, fun rest => ?_⟩
      · rw [List.append_assoc, ← h.2, List.take_append_drop, hv]
      · unfold getBytes
        rw [List.append_assoc, hr]
        have h3 : (r'.take n).length = n := by simp; omega
        simp only
        rw [if_pos (by simp; omega), List.take_append_of_le_length (by omega), List.take_of_length_le (by omega),
          List.drop_append_of_le_length (by omega), List.drop_of_length_le (by omega), h.1]
        rfl
    · rw [if_neg hn] at h; simp at h

theorem skip_split (f : Nat) : (∀ (num wt : Nat) (b r : Bytes), skip f num wt b = some r →
      ∃ v, b = v ++ r ∧ ∀ F rest, 2 * v.length + 2 ≤ F → skip F num wt (v ++ rest) = some rest) ∧
    (∀ (num : Nat) (b r : Bytes), skipGroup f num b = some r →
      ∃ v, b = v ++ r ∧ ∀ F rest, 2 * v.length + 1 ≤ F → skipGroup F num (v ++ rest) = some rest) := by
  induction f with
  | zero => constructor <;> (intros; simp_all [skip, skipGroup])
  | succ f ih =>
    constructor
    · intro num wt b r h
      rw [skip] at h
      by_cases h0 : wt = 0
      · subst h0
        simp only [if_true, Option.map_eq_some_iff] at h
        obtain ⟨⟨n, r'⟩, h1, rfl⟩ := h
        obtain ⟨v, hv, _, hr⟩ := getVarint_split h1
        refine ⟨v, hv, fun F rest hF => ?_⟩
        obtain ⟨F, rfl⟩ : ∃ k, F = k + 1 := ⟨F - 1, by omega⟩
        simp [skip, hr rest]
      · by_cases h1 : wt = 1
        · subst h1
          by_cases hl : 8 ≤ b.length
          · simp [hl] at h
            refine ⟨b.take 8, by rw [← h]; simp, fun F rest hF => ?_⟩
            obtain ⟨F, rfl⟩ : ∃ k, F = k + 1 := ⟨F - 1, by omega⟩
            have h3 : (b.take 8).length = 8 := by simp; omega
            simp only [skip]
            rw [if_neg (by decide), if_pos trivial, if_pos (by simp; omega), List.drop_append_of_le_length (by omega),
              List.drop_of_length_le (by omega)]
            rfl
          · simp [hl] at h
        · by_cases h2 : wt = 2
          · subst h2
            simp [Option.map_eq_some_iff] at h
            obtain ⟨x, h1⟩ := h
            obtain ⟨v, hv, _, hr⟩ := getBytes_split h1
            refine ⟨v, hv, fun F rest hF => ?_⟩
            obtain ⟨F, rfl⟩ : ∃ k, F = k + 1 := ⟨F - 1, by omega⟩
            simp [skip, hr rest]
          · by_cases h5 : wt = 5
            · subst h5
              by_cases hl : 4 ≤ b.length
              · simp [hl] at h
                refine ⟨b.take 4, by rw [← h]; simp, fun F rest hF => ?_⟩
                obtain ⟨F, rfl⟩ : ∃ k, F = k + 1 := ⟨F - 1, by omega⟩
                have h3 : (b.take 4).length = 4 := by simp; omega
                simp only [skip]
                rw [if_neg (by decide), if_neg (by decide), if_neg (by decide), if_pos trivial, if_pos (by simp; omega),
                  List.drop_append_of_le_length (by omega), List.drop_of_length_le (by omega)]
                rfl
              · simp [hl] at h
            · by_cases h3 : wt = 3
              · subst h3
                simp at h
                obtain ⟨v, hv, hr⟩ := ih.2 num b r h
                refine ⟨v, hv, fun F rest hF => ?_⟩
                obtain ⟨F, rfl⟩ : ∃ k, F = k + 1 := ⟨F - 1, by omega⟩
                simp [skip, hr F rest (by omega)]
              · simp [h0, h1, h2, h5, h3] at h
    · intro num b r h
      rw [skipGroup] at h
      cases ht : getGroupTag b with
      | none => simp [ht] at h
      | some x =>
        obtain ⟨n, wt, r1⟩ := x
        simp only [ht] at h
        obtain ⟨t, hb, htl, htr, _, _, _⟩ := getGroupTag_split ht
        by_cases h4 : wt = 4
        · rw [if_pos h4] at h
          by_cases hn : n = num
          · rw [if_pos hn] at h
            simp only [Option.some.injEq] at h
            subst h
            refine ⟨t, hb, fun F rest hF => ?_⟩
            obtain ⟨F, rfl⟩ : ∃ k, F = k + 1 := ⟨F - 1, by omega⟩
            simp [skipGroup, htr rest, h4, hn]
          · rw [if_neg hn] at h; simp at h
        · rw [if_neg h4] at h
          cases hs : skip f n wt r1 with
          | none => simp [hs] at h
          | some r2 =>
            simp only [hs] at h
            obtain ⟨v1, hv1, hr1⟩ := ih.1 n wt r1 r2 hs
            obtain ⟨v2, hv2, hr2⟩ := ih.2 num r2 r h
            refine ⟨t ++ v1 ++ v2, by rw [hb, hv1, hv2]; simp, fun F rest hF => ?_⟩
            simp only [List.length_append] at hF
            obtain ⟨F, rfl⟩ : ∃ k, F = k + 1 := ⟨F - 1, by omega⟩
            rw [skipGroup, List.append_assoc, List.append_assoc, htr]
            simp only [if_neg h4]
            rw [hr1 F _ (by omega)]
            exact hr2 F rest (by omega)

/-- `v` is the value of a field that can be skipped -/
def Raw (num wt : Nat) (v : Bytes) : Prop := ∀ F rest, 2 * v.length + 2 ≤ F → skip F num wt (v ++ rest) = some rest

/-- a sequence of fields, with tags of minimal length, that are unknown according to `unk` -/
inductive Unk (unk : Nat → Nat → Prop) : Bytes → Prop
  | nil : Unk unk []
  | snoc {u v : Bytes} {num wt : Nat} (h : Unk unk u) (h1 : 1 ≤ num) (h2 : num < 536870912) (h3 : wt < 8) (h4 : wt ≠ 4)
      (hk : unk num wt) (hr : Raw num wt v) : Unk unk (u ++ (tag num wt ++ v))

variable {S : Type}

theorem loop_known (known : Nat → Nat → Bytes → S → Handled S) (f num wt : Nat) (v rest : Bytes) (s s' : S) (u : Bytes)
    (h1 : 1 ≤ num) (h2 : num < 536870912) (h3 : wt < 8) (h4 : wt ≠ 4) (hk : known num wt (v ++ rest) s = .ok s' rest) :
    loop known (f + 1) (tag num wt ++ v ++ rest) s u = loop known f rest s' u := by
  have ht := getTag_tag num wt (v ++ rest) h1 h2 h3
  rw [List.append_assoc]
  have hne := tag_ne num wt
  cases hb : tag num wt ++ (v ++ rest) with
  | nil => exfalso; rw [List.append_eq_nil_iff] at hb; rw [hb.1] at hne; simp at hne
  | cons c l =>
    rw [hb] at ht
    simp only [loop, ht, if_neg h4, hk]

theorem loop_unk (known : Nat → Nat → Bytes → S → Handled S) (unk : Nat → Nat → Prop) (s : S)
    (hu : ∀ num wt, unk num wt → ∀ r, known num wt r s = .unknown) {u : Bytes} (h : Unk unk u) :
    ∀ (f : Nat) (rest u0 : Bytes), (u ++ rest).length ≤ f →
      ∃ f', rest.length ≤ f' ∧ loop known f (u ++ rest) s u0 = loop known f' rest s (u0 ++ u) := by
  induction h with
  | nil => intro f rest u0 hf; exact ⟨f, by simpa using hf, by simp⟩
  | @snoc u v num wt _ h1 h2 h3 h4 hk hr ih =>
    intro f rest u0 hf
    have hne := tag_ne num wt
    obtain ⟨f1, hf1, he⟩ := ih f (tag num wt ++ v ++ rest) u0 (by simpa [List.append_assoc] using hf)
    simp only [List.length_append] at hf1
    obtain ⟨f1, rfl⟩ : ∃ k, f1 = k + 1 := ⟨f1 - 1, by omega⟩
    refine ⟨f1, by omega, ?_⟩
    rw [List.append_assoc, he]
    have ht := getTag_tag num wt (v ++ rest) h1 h2 h3
    rw [List.append_assoc]
    cases hb : tag num wt ++ (v ++ rest) with
    | nil => exfalso; rw [List.append_eq_nil_iff] at hb; rw [hb.1] at hne; simp at hne
    | cons c l =>
      rw [hb] at ht
      simp only [loop, ht, if_neg h4, hu num wt hk, hr _ rest (show 2 * v.length + 2 ≤ 2 * (v ++ rest).length + 2 by simp)]
      have : (v ++ rest).take ((v ++ rest).length - rest.length) = v := by simp
      rw [this, List.append_assoc]

/-- what the loop keeps is a sequence of unknown fields; an invariant of the state is preserved -/
theorem loop_inv (known : Nat → Nat → Bytes → S → Handled S) (unk : Nat → Nat → Prop) (I : S → Prop)
    (hu : ∀ num wt r s, I s → known num wt r s = .unknown → unk num wt)
    (hi : ∀ num wt r s s' r', I s → known num wt r s = .ok s' r' → I s') :
    ∀ (f : Nat) (b : Bytes) (s : S) (u : Bytes) (s' : S) (u' : Bytes), I s → Unk unk u → loop known f b s u = some (s', u') →
      I s' ∧ Unk unk u' := by
  intro f
  induction f with
  | zero =>
    intro b s u s' u' hI hU h
    cases b with
    | nil => simp only [loop, Option.some.injEq, Prod.mk.injEq] at h; exact ⟨h.1 ▸ hI, h.2 ▸ hU⟩
    | cons c b => simp [loop] at h
  | succ f ih =>
    intro b s u s' u' hI hU h
    cases b with
    | nil => simp only [loop, Option.some.injEq, Prod.mk.injEq] at h; exact ⟨h.1 ▸ hI, h.2 ▸ hU⟩
    | cons c b =>
      simp only [loop] at h
      cases ht : getTag (c :: b) with
      | none => simp [ht] at h
      | some x =>
        obtain ⟨num, wt, r⟩ := x
        simp only [ht] at h
        obtain ⟨_, _, _, _, hn1, hn2, hw⟩ := getTag_split ht
        by_cases h4 : wt = 4
        · simp [h4] at h
        · rw [if_neg h4] at h
          cases hk : known num wt r s with
          | ok s1 r1 =>
            simp only [hk] at h
            exact ih r1 s1 u s' u' (hi _ _ _ _ _ _ hI hk) hU h
          | fail => simp [hk] at h
          | unknown =>
            simp only [hk] at h
            cases hs : skip (2 * r.length + 2) num wt r with
            | none => simp [hs] at h
            | some r1 =>
              simp only [hs] at h
              obtain ⟨v, hv, hraw⟩ := (skip_split _).1 num wt r r1 hs
              have htake : r.take (r.length - r1.length) = v := by rw [hv]; simp
              rw [htake] at h
              exact ih r1 s _ s' u' hI (.snoc hU hn1 hn2 hw h4 (hu _ _ _ _ hI hk) hraw) h

/-- field numbers are different and in range -/
def SchOk {α : Type} (sch : List (Nat × α)) : Prop := (sch.map (·.1)).Nodup ∧ ∀ p ∈ sch, 1 ≤ p.1 ∧ p.1 < 536870912

/-- the values have the types of the schema -/
def SubTyped : SubSchema → List (Option Val) → Prop := List.Forall₂ fun p v => ∀ x, v = some x → x.has p.2

/-- fields that are unknown according to the schema: no such number, or another wire type -/
def unkSub (sch : SubSchema) (num wt : Nat) : Prop := ∀ p, sch.find? (fun p => p.1 = num) = some p → wt ≠ p.2.wire

theorem Handled.map_unknown {T U : Type} {g : T → U} {h : Handled T} : h.map g = .unknown ↔ h = .unknown := by
  cases h <;> simp [Handled.map]

theorem setSub_unknown (num wt : Nat) (b : Bytes) : ∀ (sch : SubSchema) (vals : List (Option Val)), sch.length = vals.length →
    (setSub num wt b sch vals = .unknown ↔ unkSub sch num wt)
  | [], [], _ => by simp [setSub, unkSub]
  | (n, t) :: sch, v :: vals, h => by
    rw [setSub]
    by_cases hn : n = num
    · rw [if_pos hn]
      have : unkSub ((n, t) :: sch) num wt ↔ wt ≠ t.wire := by simp [unkSub, hn]
      rw [this]
      by_cases hw : wt = t.wire
      · rw [if_pos hw]
        cases getVal t b <;> simp [hw]
      · simp [hw]
    · rw [if_neg hn, Handled.map_unknown, setSub_unknown num wt b sch vals (by simpa using h)]
      simp [unkSub, hn]

theorem getVal_has {t : Ty} {b r : Bytes} {x : Val} (h : getVal t b = some (x, r)) : x.has t := by
  cases t <;> simp only [getVal, Option.map_eq_some_iff, Prod.mk.injEq] at h <;> obtain ⟨_, _, h, _⟩ := h <;> subst h <;>
    trivial

theorem setSub_typed (num wt : Nat) (b r : Bytes) : ∀ (sch : SubSchema) (vals vals' : List (Option Val)), SubTyped sch vals →
    setSub num wt b sch vals = .ok vals' r → SubTyped sch vals'
  | [], [], vals', _, h => by simp [setSub] at h
  | (n, t) :: sch, v :: vals, vals', ht, h => by
    rw [setSub] at h
    cases ht with
    | cons h1 h2 =>
      by_cases hn : n = num
      · rw [if_pos hn] at h
        by_cases hw : wt = t.wire
        · rw [if_pos hw] at h
          cases hg : getVal t b with
          | none => simp [hg] at h
          | some x =>
            obtain ⟨x, r'⟩ := x
            simp only [hg, Handled.ok.injEq] at h
            rw [← h.1]
            refine .cons ?_ h2
            intro y hy
            simp only [Option.some.injEq] at hy
            exact hy ▸ getVal_has hg
        · simp [hw] at h
      · rw [if_neg hn] at h
        cases hs : setSub num wt b sch vals with
        | fail => simp [hs, Handled.map] at h
        | unknown => simp [hs, Handled.map] at h
        | ok w r' =>
          simp only [hs, Handled.map, Handled.ok.injEq] at h
          rw [← h.1]
          refine .cons h1 (setSub_typed num wt b r sch vals w h2 ?_)
          rw [hs, h.2]

theorem setSub_prefix (num wt : Nat) (b : Bytes) (sch : SubSchema) (vals : List (Option Val)) :
    ∀ (pre : SubSchema) (pv : List (Option Val)), pre.length = pv.length → num ∉ pre.map (·.1) →
      setSub num wt b (pre ++ sch) (pv ++ vals) = (setSub num wt b sch vals).map (pv ++ ·)
  | [], [], _, _ => by cases h : setSub num wt b sch vals <;> simp [Handled.map, h]
  | (n, t) :: pre, v :: pv, hl, hn => by
    have h1 : n ≠ num := fun e => hn (by simp [e])
    rw [List.cons_append, List.cons_append, setSub, if_neg h1,
      setSub_prefix num wt b sch vals pre pv (by simpa using hl) (fun m => hn (by simp [m]))]
    cases setSub num wt b sch vals <;> simp [Handled.map]

theorem wire_lt (t : Ty) : t.wire < 8 ∧ t.wire ≠ 4 := by cases t <;> decide

theorem sub_fields : ∀ (sch : SubSchema) (vals : List (Option Val)) (pre : SubSchema) (pv : List (Option Val)),
    SchOk (pre ++ sch) → pre.length = pv.length → SubTyped sch vals → (putSubFields sch vals).length < 18446744073709551616 →
    ∀ (f : Nat) (rest u : Bytes), (putSubFields sch vals ++ rest).length ≤ f →
      ∃ f', rest.length ≤ f' ∧
        loop (fun num wt b s => setSub num wt b (pre ++ sch) s) f (putSubFields sch vals ++ rest) (pv ++ sch.map fun _ => none) u =
        loop (fun num wt b s => setSub num wt b (pre ++ sch) s) f' rest (pv ++ vals) u
  | [], [], pre, pv, _, _, _, _, f, rest, u, hf => ⟨f, by simpa [putSubFields] using hf, by simp [putSubFields]⟩
  | (n, t) :: sch, v :: vals, pre, pv, hok, hl, ht, hb, f, rest, u, hf => by
    cases ht with
    | cons h1 h2 =>
      have happ : pre ++ (n, t) :: sch = (pre ++ [(n, t)]) ++ sch := by simp
      cases v with
      | none =>
        have := sub_fields sch vals (pre ++ [(n, t)]) (pv ++ [none]) (happ ▸ hok) (by simp [hl]) h2
          (by simpa [putSubFields] using hb) f rest u (by simpa [putSubFields] using hf)
        simp only [putSubFields]
        simpa [List.append_assoc] using this
      | some x =>
        simp only [putSubFields, List.length_append] at hb hf
        have hne := tag_ne n t.wire
        obtain ⟨f, rfl⟩ : ∃ k, f = k + 1 := ⟨f - 1, by omega⟩
        obtain ⟨f', hf', he⟩ := sub_fields sch vals (pre ++ [(n, t)]) (pv ++ [some x]) (happ ▸ hok) (by simp [hl]) h2
          (by omega) f rest u (by simp; omega)
        refine ⟨f', hf', ?_⟩
        have hnum := hok.2 (n, t) (by simp)
        have hnot : n ∉ pre.map (·.1) := by
          have := hok.1
          simp only [List.map_append, List.map_cons] at this
          have := (List.nodup_append.mp this).2.2
          intro hm
          exact this n hm n (by simp) rfl
        have hstep : setSub n t.wire (putVal t x ++ (putSubFields sch vals ++ rest)) (pre ++ (n, t) :: sch)
            (pv ++ ((n, t) :: sch).map fun _ => none) = .ok (pv ++ some x :: sch.map fun _ => none) (putSubFields sch vals ++ rest) := by
          rw [List.map_cons, setSub_prefix _ _ _ _ _ pre pv hl hnot]
          rw [setSub, if_pos rfl, if_pos rfl, getVal_put t x _ (h1 x rfl)]
          · simp [Handled.map]
          · intro y hy
            subst hy
            cases t <;> first
              | (have := h1 (Val.s y) rfl; simp [Val.has] at this; done)
              | (simp only [putVal, putBytes, List.length_append] at hb; omega)
        have := loop_known (fun num wt b s => setSub num wt b (pre ++ (n, t) :: sch) s) f n t.wire (putVal t x)
          (putSubFields sch vals ++ rest) _ _ u hnum.1 hnum.2 (wire_lt t).1 (wire_lt t).2 hstep
        simp only [putSubFields]
        rw [show tag n t.wire ++ putVal t x ++ putSubFields sch vals ++ rest =
          tag n t.wire ++ putVal t x ++ (putSubFields sch vals ++ rest) by simp, this]
        simpa [List.append_assoc] using he

/-- a message of scalars survives writing and reading -/
theorem sub_roundtrip (sch : SubSchema) (m : Sub) (hok : SchOk sch) (ht : SubTyped sch m.vals) (hu : Unk (unkSub sch) m.unknown)
    (hb : (putSub sch m).length < 18446744073709551616) : getSub sch (putSub sch m) = some m := by
  unfold getSub putSub
  simp only [putSub, List.length_append] at hb
  obtain ⟨f1, hf1, h1⟩ := sub_fields sch m.vals [] [] hok rfl ht (by omega) (putSubFields sch m.vals ++ m.unknown).length m.unknown []
    (by omega)
  simp only [List.nil_append] at h1
  obtain ⟨f2, _, h2⟩ := loop_unk (fun num wt b s => setSub num wt b sch s) (unkSub sch) m.vals
    (fun num wt hk r => (setSub_unknown num wt r sch m.vals ht.length_eq).mpr hk) hu f1 [] [] (by simpa using hf1)
  rw [h1]
  rw [List.append_nil] at h2
  rw [h2]
  simp [loop]

/-- what has been read is a message of the schema -/
theorem getSub_typed {sch : SubSchema} {b : Bytes} {m : Sub} (h : getSub sch b = some m) :
    SubTyped sch m.vals ∧ Unk (unkSub sch) m.unknown := by
  unfold getSub at h
  simp only [Option.map_eq_some_iff] at h
  obtain ⟨⟨v, u⟩, h, rfl⟩ := h
  refine loop_inv _ (unkSub sch) (SubTyped sch) ?_ ?_ _ _ _ _ _ _ ?_ .nil h
  · intro num wt r s hs hk
    exact (setSub_unknown num wt r sch s hs.length_eq).mp hk
  · intro num wt r s s' r' hs hk
    exact setSub_typed _ _ _ _ _ _ _ hs hk
  · unfold SubTyped
    rw [List.forall₂_map_right_iff]
    exact List.forall₂_same.mpr (by simp)

/-- the schemas inside a field are in order -/
def Field.Ok : Field → Prop
  | .msgs sch => SchOk sch
  | _ => True

/-- the contents of a field have its type -/
def SlotTyped : Field → Slot → Prop
  | .one t, .one v => ∀ x, v = some x → x.has t
  | .enums, .enums _ => True
  | .msgs sch, .msgs l => ∀ m ∈ l, SubTyped sch m.vals ∧ Unk (unkSub sch) m.unknown
  | _, _ => False

def MsgTyped : Schema → List Slot → Prop := List.Forall₂ fun p v => SlotTyped p.2 v

/-- the wire types a field takes -/
def Field.takes : Field → Nat → Prop
  | .one t, wt => wt = t.wire
  | .enums, wt => wt = 0 ∨ wt = 2
  | .msgs _, wt => wt = 2

def unkMsg (sch : Schema) (num wt : Nat) : Prop := ∀ p, sch.find? (fun p => p.1 = num) = some p → ¬ p.2.takes wt

theorem setSlot_unknown (wt : Nat) (b : Bytes) (k : Field) (v : Slot) (h : SlotTyped k v) :
    setSlot wt b k v = .unknown ↔ ¬ k.takes wt := by
  cases k <;> cases v <;> simp only [SlotTyped] at h
  case one.one t v =>
    simp only [setSlot, Field.takes]
    by_cases hw : wt = t.wire
    · rw [if_pos hw]; cases getVal t b <;> simp [hw]
    · simp [hw]
  case enums.enums l =>
    simp only [setSlot, Field.takes]
    by_cases h0 : wt = 0
    · rw [if_pos h0]; cases getVarint b <;> simp [h0]
    · rw [if_neg h0]
      by_cases h2 : wt = 2
      · rw [if_pos h2]
        cases getBytes b with
        | none => simp [h2]
        | some x => simp only; cases getPacked x.1.length x.1 <;> simp [h2]
      · simp [h0, h2]
  case msgs.msgs sch l =>
    simp only [setSlot, Field.takes]
    by_cases h2 : wt = 2
    · rw [if_pos h2]
      cases getBytes b with
      | none => simp [h2]
      | some x => simp only; cases getSub sch x.1 <;> simp [h2]
    · simp [h2]

theorem setSlot_typed (wt : Nat) (b r : Bytes) (k : Field) (v v' : Slot) (h : SlotTyped k v)
    (hs : setSlot wt b k v = .ok v' r) : SlotTyped k v' := by
  cases k <;> cases v <;> simp only [SlotTyped] at h
  case one.one t v =>
    simp only [setSlot] at hs
    by_cases hw : wt = t.wire
    · rw [if_pos hw] at hs
      cases hg : getVal t b with
      | none => simp [hg] at hs
      | some x =>
        simp only [hg, Handled.ok.injEq] at hs
        rw [← hs.1]
        intro y hy
        simp only [Option.some.injEq] at hy
        exact hy ▸ getVal_has hg
    · simp [hw] at hs
  case enums.enums l =>
    simp only [setSlot] at hs
    by_cases h0 : wt = 0
    · rw [if_pos h0] at hs
      cases hg : getVarint b with
      | none => simp [hg] at hs
      | some x => simp only [hg, Handled.ok.injEq] at hs; rw [← hs.1]; trivial
    · rw [if_neg h0] at hs
      by_cases h2 : wt = 2
      · rw [if_pos h2] at hs
        cases hg : getBytes b with
        | none => simp [hg] at hs
        | some x =>
          simp only [hg] at hs
          cases hp : getPacked x.1.length x.1 with
          | none => simp [hp] at hs
          | some l' => simp only [hp, Handled.ok.injEq] at hs; rw [← hs.1]; trivial
      · simp [h2] at hs
  case msgs.msgs sch l =>
    simp only [setSlot] at hs
    by_cases h2 : wt = 2
    · rw [if_pos h2] at hs
      cases hg : getBytes b with
      | none => simp [hg] at hs
      | some x =>
        simp only [hg] at hs
        cases hp : getSub sch x.1 with
        | none => simp [hp] at hs
        | some m =>
          simp only [hp, Handled.ok.injEq] at hs
          rw [← hs.1]
          intro y hy
          rcases List.mem_append.mp hy with hy | hy
          · exact h y hy
          · simp only [List.mem_singleton] at hy
            exact hy ▸ getSub_typed hp
    · simp [h2] at hs

theorem setField_unknown (num wt : Nat) (b : Bytes) : ∀ (sch : Schema) (vals : List Slot), MsgTyped sch vals →
    (setField num wt b sch vals = .unknown ↔ unkMsg sch num wt)
  | [], [], _ => by simp [setField, unkMsg]
  | (n, k) :: sch, v :: vals, h => by
    cases h with
    | cons h1 h2 =>
      rw [setField]
      by_cases hn : n = num
      · rw [if_pos hn, Handled.map_unknown, setSlot_unknown wt b k v h1]
        simp [unkMsg, hn]
      · rw [if_neg hn, Handled.map_unknown, setField_unknown num wt b sch vals h2]
        simp [unkMsg, hn]

theorem setField_typed (num wt : Nat) (b r : Bytes) : ∀ (sch : Schema) (vals vals' : List Slot), MsgTyped sch vals →
    setField num wt b sch vals = .ok vals' r → MsgTyped sch vals'
  | [], [], vals', _, h => by simp [setField] at h
  | (n, k) :: sch, v :: vals, vals', ht, h => by
    rw [setField] at h
    cases ht with
    | cons h1 h2 =>
      by_cases hn : n = num
      · rw [if_pos hn] at h
        cases hs : setSlot wt b k v with
        | fail => simp [hs, Handled.map] at h
        | unknown => simp [hs, Handled.map] at h
        | ok w r' =>
          simp only [hs, Handled.map, Handled.ok.injEq] at h
          rw [← h.1]
          exact .cons (setSlot_typed _ _ _ _ _ _ h1 hs) h2
      · rw [if_neg hn] at h
        cases hs : setField num wt b sch vals with
        | fail => simp [hs, Handled.map] at h
        | unknown => simp [hs, Handled.map] at h
        | ok w r' =>
          simp only [hs, Handled.map, Handled.ok.injEq] at h
          rw [← h.1]
          refine .cons h1 (setField_typed num wt b r sch vals w h2 ?_)
          rw [hs, h.2]

theorem setField_at (num wt : Nat) (b : Bytes) (k : Field) (v : Slot) (sch : Schema) (vals : List Slot) :
    ∀ (pre : Schema) (pv : List Slot), pre.length = pv.length → num ∉ pre.map (·.1) →
      setField num wt b (pre ++ (num, k) :: sch) (pv ++ v :: vals) = (setSlot wt b k v).map fun w => pv ++ w :: vals
  | [], [], _, _ => by simp [setField]
  | (n, t) :: pre, x :: pv, hl, hn => by
    have h1 : n ≠ num := fun e => hn (by simp [e])
    rw [List.cons_append, List.cons_append, setField, if_neg h1,
      setField_at num wt b k v sch vals pre pv (by simpa using hl) (fun m => hn (by simp [m]))]
    cases setSlot wt b k v <;> simp [Handled.map]

/-- a sequence of values of a repeated field, one after the other -/
theorem loop_repeat {A : Type} (known : Nat → Nat → Bytes → S → Handled S) (num wt : Nat) (put : A → Bytes) (st : List A → S)
    (h1 : 1 ≤ num) (h2 : num < 536870912) (h3 : wt < 8) (h4 : wt ≠ 4) :
    ∀ (l acc : List A), (∀ a ∈ l, ∀ acc rest, known num wt (put a ++ rest) (st acc) = .ok (st (acc ++ [a])) rest) →
    ∀ (f : Nat) (rest u : Bytes), ((l.flatMap fun a => tag num wt ++ put a) ++ rest).length ≤ f →
      ∃ f', rest.length ≤ f' ∧
        loop known f ((l.flatMap fun a => tag num wt ++ put a) ++ rest) (st acc) u = loop known f' rest (st (acc ++ l)) u
  | [], acc, _, f, rest, u, hf => ⟨f, by simpa using hf, by simp⟩
  | a :: l, acc, hk, f, rest, u, hf => by
    have hne := tag_ne num wt
    simp only [List.flatMap_cons, List.length_append] at hf
    obtain ⟨f, rfl⟩ : ∃ k, f = k + 1 := ⟨f - 1, by omega⟩
    obtain ⟨f', hf', he⟩ := loop_repeat known num wt put st h1 h2 h3 h4 l (acc ++ [a])
      (fun b hb => hk b (by simp [hb])) f rest u (by simp only [List.length_append]; omega)
    refine ⟨f', hf', ?_⟩
    have := loop_known known f num wt (put a) ((l.flatMap fun a => tag num wt ++ put a) ++ rest) (st acc) _ u h1 h2 h3 h4
      (hk a (by simp) acc _)
    rw [List.flatMap_cons, show tag num wt ++ put a ++ (l.flatMap fun a => tag num wt ++ put a) ++ rest =
      tag num wt ++ put a ++ ((l.flatMap fun a => tag num wt ++ put a) ++ rest) by simp, this, he]
    simp

theorem length_le_flatMap {A : Type} (g : A → Bytes) (l : List A) (a : A) (h : a ∈ l) : (g a).length ≤ (l.flatMap g).length := by
  induction l with
  | nil => simp at h
  | cons b l ih =>
    simp only [List.flatMap_cons, List.length_append]
    rcases List.mem_cons.mp h with rfl | h
    · omega
    · have := ih h; omega

theorem msg_fields : ∀ (sch : Schema) (vals : List Slot) (pre : Schema) (pv : List Slot),
    SchOk (pre ++ sch) → (∀ p ∈ sch, p.2.Ok) → pre.length = pv.length → MsgTyped sch vals →
    (putFields sch vals).length < 18446744073709551616 →
    ∀ (f : Nat) (rest u : Bytes), (putFields sch vals ++ rest).length ≤ f →
      ∃ f', rest.length ≤ f' ∧
        loop (fun num wt b s => setField num wt b (pre ++ sch) s) f (putFields sch vals ++ rest) (pv ++ sch.map (·.2.empty)) u =
        loop (fun num wt b s => setField num wt b (pre ++ sch) s) f' rest (pv ++ vals) u
  | [], [], pre, pv, _, _, _, _, _, f, rest, u, hf => ⟨f, by simpa [putFields] using hf, by simp [putFields]⟩
  | (n, k) :: sch, v :: vals, pre, pv, hok, hfo, hl, ht, hb, f, rest, u, hf => by
    cases ht with
    | cons h1 h2 =>
      have happ : pre ++ (n, k) :: sch = (pre ++ [(n, k)]) ++ sch := by simp
      simp only [putFields, List.length_append] at hb hf
      have hnum := hok.2 (n, k) (by simp)
      have hnot : n ∉ pre.map (·.1) := by
        have := hok.1
        simp only [List.map_append, List.map_cons] at this
        have := (List.nodup_append.mp this).2.2
        intro hm
        exact this n hm n (by simp) rfl
      have hat := fun wt b w => setField_at n wt b k w sch (sch.map (·.2.empty)) pre pv hl hnot
      -- the fields of this slot
      have slot : ∃ f1, (putFields sch vals ++ rest).length ≤ f1 ∧
          loop (fun num wt b s => setField num wt b (pre ++ (n, k) :: sch) s) f (putSlot n k v ++ (putFields sch vals ++ rest))
            (pv ++ k.empty :: sch.map (·.2.empty)) u =
          loop (fun num wt b s => setField num wt b (pre ++ (n, k) :: sch) s) f1 (putFields sch vals ++ rest)
            (pv ++ v :: sch.map (·.2.empty)) u := by
        cases k <;> cases v <;> simp only [SlotTyped] at h1
        case one.one t v =>
          cases v with
          | none => exact ⟨f, by simp [putSlot] at hf ⊢; omega, by simp [putSlot, Field.empty]⟩
          | some x =>
            simp only [putSlot, List.length_append] at hf hb ⊢
            have hne := tag_ne n t.wire
            obtain ⟨f, rfl⟩ : ∃ k, f = k + 1 := ⟨f - 1, by omega⟩
            refine ⟨f, by omega, ?_⟩
            refine loop_known _ f n t.wire (putVal t x) _ _ _ u hnum.1 hnum.2 (wire_lt t).1 (wire_lt t).2 ?_
            show setField _ _ _ _ _ = _
            rw [hat]
            simp only [Field.empty, setSlot, if_true]
            rw [getVal_put t x _ (h1 x rfl)]
            · simp [Handled.map]
            · intro y hy
              subst hy
              cases t <;> first
                | (have := h1 (Val.s y) rfl; simp [Val.has] at this; done)
                | (simp only [putVal, putBytes, List.length_append] at hb; omega)
        case enums.enums l =>
          simp only [putSlot] at hf hb ⊢
          refine loop_repeat _ n 0 (fun x => putVal .enum (.i x)) (fun acc => pv ++ .enums acc :: sch.map (·.2.empty))
            hnum.1 hnum.2 (by decide) (by decide) l [] ?_ f (putFields sch vals ++ rest) u (by simp only [List.length_append]; omega)
          intro a _ acc rest
          show setField _ _ _ _ _ = _
          rw [hat]
          have hv := getVal_put .enum (.i a) rest trivial (by simp)
          simp only [getVal, Option.map_eq_some_iff, Prod.mk.injEq] at hv
          obtain ⟨⟨x, y⟩, hv, hx, hy⟩ := hv
          simp only [setSlot, if_true]
          rw [hv]
          simp only [Val.i.injEq] at hx
          simp only [Handled.map, hx, Handled.ok.injEq, true_and]
          exact hy
        case msgs.msgs sub l =>
          simp only [putSlot] at hf hb ⊢
          refine loop_repeat _ n 2 (fun m => putBytes (putSub sub m)) (fun acc => pv ++ .msgs acc :: sch.map (·.2.empty))
            hnum.1 hnum.2 (by decide) (by decide) l [] ?_ f (putFields sch vals ++ rest) u (by simp only [List.length_append]; omega)
          intro a ha acc rest
          show setField _ _ _ _ _ = _
          rw [hat]
          have hlen := length_le_flatMap (fun m => tag n 2 ++ putBytes (putSub sub m)) l a ha
          simp only [putBytes, List.length_append] at hlen hb
          simp only [setSlot, if_true]
          rw [getBytes_put _ _ (by omega)]
          simp only
          rw [sub_roundtrip sub a (hfo (n, .msgs sub) (by simp)) (h1 a ha).1 (h1 a ha).2 (by omega)]
          simp [Handled.map]
      obtain ⟨f1, hf1, he1⟩ := slot
      obtain ⟨f', hf', he⟩ := msg_fields sch vals (pre ++ [(n, k)]) (pv ++ [v]) (happ ▸ hok)
        (fun p hp => hfo p (by simp [hp])) (by simp [hl]) h2 (by omega) f1 rest u hf1
      refine ⟨f', hf', ?_⟩
      simp only [putFields, List.map_cons]
      rw [List.append_assoc, he1]
      simpa [List.append_assoc] using he

/-- a message survives writing and reading -/
theorem msg_roundtrip (sch : Schema) (m : List Slot × Bytes) (hok : SchOk sch) (hfo : ∀ p ∈ sch, p.2.Ok) (ht : MsgTyped sch m.1)
    (hu : Unk (unkMsg sch) m.2) (hb : (putMsg sch m).length < 18446744073709551616) : getMsg sch (putMsg sch m) = some m := by
  unfold getMsg putMsg
  simp only [putMsg, List.length_append] at hb
  obtain ⟨f1, hf1, h1⟩ := msg_fields sch m.1 [] [] hok hfo rfl ht (by omega) (putFields sch m.1 ++ m.2).length m.2 []
    (by omega)
  simp only [List.nil_append] at h1
  obtain ⟨f2, _, h2⟩ := loop_unk (fun num wt b s => setField num wt b sch s) (unkMsg sch) m.1
    (fun num wt hk r => (setField_unknown num wt r sch m.1 ht).mpr hk) hu f1 [] [] (by simpa using hf1)
  rw [h1]
  rw [List.append_nil] at h2
  rw [h2]
  simp [loop]

/-- what has been read is a message of the schema -/
theorem getMsg_typed {sch : Schema} {b : Bytes} {m : List Slot × Bytes} (h : getMsg sch b = some m) :
    MsgTyped sch m.1 ∧ Unk (unkMsg sch) m.2 := by
  unfold getMsg at h
  refine loop_inv _ (unkMsg sch) (MsgTyped sch) ?_ ?_ _ _ _ _ _ _ ?_ .nil h
  · intro num wt r s hs hk
    exact (setField_unknown num wt r sch s hs).mp hk
  · intro num wt r s s' r' hs hk
    exact setField_typed _ _ _ _ _ _ _ hs hk
  · unfold MsgTyped
    rw [List.forall₂_map_right_iff]
    refine List.forall₂_same.mpr ?_
    intro p _
    cases p.2 <;> simp [SlotTyped, Field.empty]

/-- reading, writing and reading again gives the same message -/
theorem msg_stable {sch : Schema} {b : Bytes} {m : List Slot × Bytes} (hok : SchOk sch) (hfo : ∀ p ∈ sch, p.2.Ok)
    (h : getMsg sch b = some m) (hb : (putMsg sch m).length < 18446744073709551616) : getMsg sch (putMsg sch m) = some m :=
  msg_roundtrip sch m hok hfo (getMsg_typed h).1 (getMsg_typed h).2 hb

end Egts.PB
