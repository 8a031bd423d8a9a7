import Verif.Model.Stall
import Verif.Props.Resources
import Verif.Props.Resend
set_option autoImplicit false
/- C97: a client that stops reading. -/
namespace Egts
open Frame
variable [P : Platform]

omit P in
theorem withRoom_prefix (r : Nat) (es : List Effect) : (withRoom r es).1 <+: es ∧ ((withRoom r es).2 = false → (withRoom r es).1 = es) := by
  induction es generalizing r with
  | nil => simp [withRoom]
  | cons e es ih =>
    cases e with
    | save x =>
      obtain ⟨h1, h2⟩ := ih r
      simp only [withRoom]
      exact ⟨(List.prefix_cons_inj _).mpr h1, fun h => by rw [h2 h]⟩
    | write b =>
      simp only [withRoom]
      by_cases hb : b.length ≤ r
      · obtain ⟨h1, h2⟩ := ih (r - b.length)
        rw [if_pos hb]
        exact ⟨(List.prefix_cons_inj _).mpr h1, fun h => by simp only at h ⊢; rw [h2 h]⟩
      · rw [if_neg hb]
        exact ⟨List.nil_prefix, fun h => by cases h⟩

omit P in
theorem withRoom_blocked (r : Nat) (es : List Effect) : (withRoom r es).2 = true ↔ r < (writesOf es).flatten.length := by
  induction es generalizing r with
  | nil => simp [withRoom, writesOf]
  | cons e es ih =>
    cases e with
    | save x => simpa [withRoom, writesOf] using ih r
    | write b =>
      have e : (writesOf (.write b :: es)).flatten.length = b.length + (writesOf es).flatten.length := by simp [writesOf]
      rw [e]
      simp only [withRoom]
      by_cases hb : b.length ≤ r
      · rw [if_pos hb]
        simp only
        rw [ih]
        omega
      · rw [if_neg hb]
        simp only [true_iff]
        omega

omit P in
/-- the next action of a blocked handler is a write that does not fit -/
theorem withRoom_next (r : Nat) (es : List Effect) (h : (withRoom r es).2 = true) :
    ∃ b es', es = (withRoom r es).1 ++ .write b :: es' ∧ r < (writesOf (withRoom r es).1).flatten.length + b.length := by
  induction es generalizing r with
  | nil => simp [withRoom] at h
  | cons e es ih =>
    cases e with
    | save x =>
      obtain ⟨b, es', h1, h2⟩ := ih r (by simpa [withRoom] using h)
      simp only [withRoom]
      exact ⟨b, es', by simp [← h1], by simpa [writesOf] using h2⟩
    | write b =>
      simp only [withRoom] at h ⊢
      by_cases hb : b.length ≤ r
      · rw [if_pos hb] at h ⊢
        obtain ⟨b', es', h1, h2⟩ := ih (r - b.length) h
        refine ⟨b', es', by simp [← h1], ?_⟩
        simp only [writesOf, List.filterMap_cons, List.flatten_cons, List.length_append] at h2 ⊢
        omega
      · rw [if_neg hb]
        exact ⟨b, es, rfl, by simp [writesOf]; omega⟩

/-- what C97 asks for: a handler is never held for ever by a client that stops reading -/
def NeverHeld (e : EndW) : Prop := e ≠ .blockedInWrite

/-- C97 (partial): whatever a client sends and however little it reads, the actions are the first ones of those for a client that reads everything, so
no record is stored that was not sent and no acknowledgement is sent before its record is stored; the handler is blocked exactly if the answers do not fit,
which cannot happen if there is room for 4.4 times the bytes sent. Missing: the handler of a client whose answers do not fit is never released. -/
theorem stalled_partial (env : Env) (hasStore : Bool) (tail : Tail) (room : Nat) (chunks : List Bytes) :
    (handleConnW env hasStore tail room chunks).1 <+: (handleConn env hasStore tail chunks).1 ∧
    ((handleConnW env hasStore tail room chunks).2 = .blockedInWrite ↔ room < (writesOf (handleConn env hasStore tail chunks).1).flatten.length) ∧
    (44 * chunks.flatten.length ≤ 10 * room → NeverHeld (handleConnW env hasStore tail room chunks).2 ∧
      handleConnW env hasStore tail room chunks = ((handleConn env hasStore tail chunks).1, .ended (handleConn env hasStore tail chunks).2)) := by
  have hp := withRoom_prefix room (handleConn env hasStore tail chunks).1
  have hb := withRoom_blocked room (handleConn env hasStore tail chunks).1
  have ha := (amplification_bound env hasStore tail chunks).1
  unfold handleConnW NeverHeld
  simp only
  refine ⟨hp.1, ?_, fun h => ?_⟩
  · rw [← hb]
    by_cases hw : (withRoom room (handleConn env hasStore tail chunks).1).2 = true <;> simp [hw]
  · have : (withRoom room (handleConn env hasStore tail chunks).1).2 = false := by
      by_contra hw
      have := hb.mp (by simpa using hw)
      omega
    rw [this, hp.2 this]
    simp

/-- C97 is false of the code: whatever the buffers, a client that reads nothing and sends enough packets holds its handler for ever, after having
all its packets up to then stored: here `n` copies of a packet with a position. -/
theorem stalled_held (env : Env) (tail : Tail) (room : Nat) (c : Bytes) (pid : Nat) (l : List ServiceDataRecord) (h : DataPacket c pid l)
    (hn : NoResponses l) : ∃ n, (handleConnW env true tail room (List.replicate n c)).2 = .blockedInWrite := by
  refine ⟨room + 1, (stalled_partial env true tail room _).2.1.mpr ?_⟩
  have hcut : CutInto (List.replicate (room + 1) c).flatten (List.replicate (room + 1) c) [] := by
    refine ⟨by rw [List.append_nil], fun x hx => ?_, .inl (by simp)⟩
    rw [List.eq_of_mem_replicate hx]
    exact framed_taken (data_packet_framed c pid l h)
  rw [stream_behaviour env tail _ _ _ hcut]
  have key : ∀ n k, n ≤ (writesOf (reactAll env tail [] k (List.replicate n c)).1).flatten.length := by
    intro n
    induction n with
    | zero => intro k; simp
    | succ n ih =>
      intro k
      rw [List.replicate_succ, reactAll, react_data _ _ c pid l h hn]
      simp only
      rw [writesOf_append, List.flatten_append, List.length_append]
      have h1 := ih (k + 1)
      have h2 : 1 ≤ (writesOf ((if (positions (subsOf l)).isEmpty = true then [] else [Effect.save (exportOf (env.now k) (UInt16.ofNat pid) l)]) ++
          [.write (ackBytes (UInt16.ofNat pid) l)] ++ (if (subsOf l).any (·.isLogin) then [.write (resultPacket (UInt16.ofNat pid) 0)] else []))).flatten.length := by
        rw [writesOf_append, writesOf_append, List.flatten_append, List.flatten_append, List.length_append, List.length_append]
        have : 1 ≤ (writesOf [Effect.write (ackBytes (UInt16.ofNat pid) l)]).flatten.length := by
          simp [writesOf, ackBytes, answerBytes, packet]
        omega
      omega
  exact Nat.lt_of_succ_le (key (room + 1) 0)

/-- the packet of C95 meets the hypotheses (test) -/
example (env : Env) : ∃ n, ¬ NeverHeld (handleConnW env true .silent 65536 (List.replicate n (fixPacket 9 1))).2 := by
  obtain ⟨n, h⟩ := stalled_held env .silent 65536 _ _ _ (fixPacket_data 9 1 49 (.inr ⟨rfl, rfl⟩)) (exFix_noResponses _)
  exact ⟨n, fun hn => hn h⟩

end Egts
