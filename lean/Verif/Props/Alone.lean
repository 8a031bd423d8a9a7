import Verif.Spec.Alone
import Verif.Props.AnyStream
import Verif.Props.ServerEx
import Verif.Lemmas.KernelRfl
set_option autoImplicit false
/- C138: the outcome depends on the received bytes alone. -/
namespace Egts
open Frame
variable [P : Platform]

theorem goSlice_within (c s : Bytes) (a b : Nat) (h : b ≤ c.length) : goSlice (c ++ s) a b = goSlice c a b := by
  unfold goSlice
  simp only [List.length_append]
  by_cases hab : a ≤ b
  · rw [if_pos ⟨hab, by omega⟩, if_pos ⟨hab, h⟩, List.drop_append_of_le_length (by omega),
      List.take_append_of_le_length (by rw [List.length_drop]; omega)]
  · rw [if_neg (fun x => hab x.1), if_neg (fun x => hab x.1)]

/-- the decision about a packet that has all the bytes it announces does not depend on the memory behind it -/
theorem verdict_spare {c : Bytes} (ht : Taken c) (h0 : declaredHL c ≠ 0) (hw : frameLen c < 65536) (spare spare' : Bytes) :
    verdict c spare' = verdict c spare := by
  have hlen : c.length = 10 + (frameLen c + 65526) % 65536 := ht.size
  have hHL : (byteAt c 3).toNat = declaredHL c := rfl
  have hHL' := (byteAt c 3).toNat_lt
  have h1 : (byteAt c 3 - 1).toNat ≤ c.length := by
    have : (byteAt c 3 - 1).toNat = declaredHL c - 1 := by
      rw [UInt8.toNat_sub_of_le]
      · rfl
      · rw [UInt8.le_iff_toNat_le]; show 1 ≤ _; omega
    have hfl : declaredHL c ≤ frameLen c := Nat.le_add_right _ _
    rw [this, hlen]
    omega
  have hF : (u16 [byteAt c 5, byteAt c 6]).toNat = declaredFDL c := fdl_eq c
  have h2 : ((byteAt c 3).toUInt16 + u16 [byteAt c 5, byteAt c 6]).toNat ≤ c.length := by
    have h3 : ((byteAt c 3).toUInt16 + u16 [byteAt c 5, byteAt c 6]).toNat = (declaredHL c + declaredFDL c) % 65536 := by
      rw [UInt16.toNat_add, hF]; rfl
    rw [h3, hlen]
    by_cases hz : declaredFDL c = 0
    · have hfl : frameLen c = declaredHL c := by unfold frameLen; rw [if_pos hz]; rfl
      omega
    · have hfl : frameLen c = declaredHL c + (declaredFDL c + 2) := by unfold frameLen; rw [if_neg hz]
      omega
  unfold verdict tailVerdict
  simp only [goSlice_within _ _ _ _ h1, goSlice_within _ _ _ _ h2]

theorem decode_spare {c : Bytes} (ht : Taken c) (h0 : declaredHL c ≠ 0) (hw : frameLen c < 65536) (p : Package) (spare spare' : Bytes) :
    Package.decode p c spare' = Package.decode p c spare := by
  by_cases h : headerSize c ≤ c.length
  · rw [decode_verdict p c spare h, decode_verdict p c spare' h, verdict_spare ht h0 hw spare spare']
  · obtain ⟨q, hq⟩ := header_short p c (by omega)
    unfold Package.decode
    rw [hq]

/-- C138 (partial): two connections that receive the same bytes do the same, whatever is in memory behind the packets, if no packet announces a
header of no bytes or more than 65535 bytes. Missing: such packets, see `memory_matters`. -/
theorem memory_unseen_partial (env env' : Env) (hn : env'.now = env.now) (tail : Tail) (chunks chunks' cs : List Bytes) (rest : Bytes)
    (h : CutInto chunks.flatten cs rest) (he : chunks'.flatten = chunks.flatten) (hw : ∀ c ∈ cs, declaredHL c ≠ 0 ∧ frameLen c < 65536) :
    handleConn env' true tail chunks' = handleConn env true tail chunks := by
  rw [stream_behaviour env tail chunks cs rest h, stream_behaviour env' tail chunks' cs rest (he ▸ h)]
  have ht := h.taken
  clear h he
  have key : ∀ k, reactAll env' tail rest k cs = reactAll env tail rest k cs := by
    induction cs with
    | nil => intro k; rfl
    | cons c cs ih =>
      intro k
      have hr : react (env'.now k) (env'.spare k) c = react (env.now k) (env.spare k) c := by
        obtain ⟨h0, h1⟩ := hw c (by simp)
        unfold react
        rw [decode_spare (ht c (by simp)) h0 h1 {} (env.spare k) (env'.spare k), hn]
      simp only [reactAll, hr, ih (fun c hc => hw c (by simp [hc])) (fun c hc => ht c (by simp [hc])) (k + 1)]
  exact key 0

/-- C138: the clock shows in the reception times of the saved records and nowhere else: with other times, the same packets are sent, and the same records
saved but for that time, in the same order, and the connection ends in the same way. -/
theorem clock_in_records (env env' : Env) (hs : env'.spare = env.spare) (tail : Tail) (chunks chunks' cs : List Bytes) (rest : Bytes)
    (h : CutInto chunks.flatten cs rest) (he : chunks'.flatten = chunks.flatten) :
    (handleConn env' true tail chunks').1.map Effect.timeless = (handleConn env true tail chunks).1.map Effect.timeless ∧
    (handleConn env' true tail chunks').2 = (handleConn env true tail chunks).2 := by
  rw [stream_behaviour env tail chunks cs rest h, stream_behaviour env' tail chunks' cs rest (he ▸ h)]
  clear h he
  have hr : ∀ (now now' spare c : Bytes), (react now' spare c).map (·.map Effect.timeless) = (react now spare c).map (·.map Effect.timeless) := by
    intro now now' spare c
    unfold react
    split
    · rfl
    · split
      · split
        · rfl
        · split <;> split <;> simp [Effect.timeless, exportOf]
      · rfl
    · rfl
  have key : ∀ k, (reactAll env' tail rest k cs).1.map Effect.timeless = (reactAll env tail rest k cs).1.map Effect.timeless ∧
      (reactAll env' tail rest k cs).2 = (reactAll env tail rest k cs).2 := by
    induction cs with
    | nil => intro k; exact ⟨rfl, rfl⟩
    | cons c cs ih =>
      intro k
      have := hr (env.now k) (env'.now k) (env.spare k) c
      rw [← hs] at this
      obtain ⟨i1, i2⟩ := ih (k + 1)
      simp only [reactAll]
      rw [hs] at this ⊢
      rcases h1 : react (env'.now k) (env.spare k) c with _ | l' <;> rcases h2 : react (env.now k) (env.spare k) c with _ | l <;>
        rw [h1, h2] at this <;> simp at this
      · exact ⟨rfl, rfl⟩
      · exact ⟨by simp only [List.map_append, i1, this], i2⟩
  exact key 0

/-- a packet that announces a header of 30 bytes and a body of 65529: the server takes 25 bytes -/
def overLong : Bytes := [1, 0, 0, 30, 0, 249, 255] ++ zeros 18

/-- C138 is false of the code in the first half: this packet crashes the process or is answered, depending on the memory behind it -/
theorem memory_matters (env : Env) (tail : Tail) :
    (handleConn { env with spare := fun _ => [] } true tail [overLong]).2 = .crashed ∧
    (handleConn { env with spare := fun _ => zeros 7 } true tail [overLong]).2 ≠ .crashed := by
  have hc : CutInto [overLong].flatten [overLong] [] := ⟨by simp, by decide, by simp [Incomplete]⟩
  constructor
  · rw [crash_iff _ tail _ _ _ hc]
    exact ⟨0, by simp, by kernel_rfl⟩
  · intro h
    rw [crash_iff _ tail _ _ _ hc] at h
    obtain ⟨i, hi, h⟩ := h
    obtain rfl : i = 0 := by simpa using hi
    have hq : (match Package.decode {} overLong (zeros 7) with
      | .panic => true
      | _ => false) = false := by kernel_rfl
    change Package.decode {} overLong (zeros 7) = .panic at h
    rw [h] at hq
    cases hq

/-- the hypotheses of `memory_unseen_partial` are met by every stream of complete frames, such as this one -/
theorem memory_example (env env' : Env) (hn : env'.now = env.now) :
    handleConn env' true .eof [exPacket, exPacket] = handleConn env true .eof [exPacket, exPacket] :=
  memory_unseen_partial env env' hn .eof _ _ [exPacket, exPacket] []
    ⟨by simp, by simpa using framed_taken exPacket_framed, by simp [Incomplete]⟩ rfl (by decide)

end Egts
