import Verif.Model.Server
import Verif.Spec.Server
import Verif.Lemmas.Frame
set_option autoImplicit false
/- The connection loop as a function of the received byte stream. -/
namespace Egts
open Frame
variable [P : Platform]

omit P in
theorem readFull_eq (tail : Tail) (n : Nat) (acc : Bytes) (chunks : List Bytes) :
    (n ≤ chunks.flatten.length → ∃ rest, readFull tail n acc chunks = .full (acc ++ chunks.flatten.take n) rest ∧
      rest.flatten = chunks.flatten.drop n) ∧
    (chunks.flatten.length < n → readFull tail n acc chunks =
      match tail with
      | .eof => if acc ++ chunks.flatten = [] then .eof else .failed
      | .error => .failed
      | .silent => .blocked) := by
  induction chunks generalizing n acc with
  | nil =>
    cases n with
    | zero => exact ⟨fun _ => ⟨[], by simp [readFull], rfl⟩, fun h => by simp at h⟩
    | succ n =>
      refine ⟨fun h => by simp at h, fun _ => ?_⟩
      simp only [readFull, List.flatten_nil, List.append_nil]
      cases tail <;> rfl
  | cons ch rest ih =>
    cases n with
    | zero => exact ⟨fun _ => ⟨ch :: rest, by simp [readFull], by simp⟩, fun h => by simp at h⟩
    | succ n =>
      simp only [readFull, List.flatten_cons, List.length_append]
      by_cases hlt : n + 1 < ch.length
      · rw [if_pos hlt]
        refine ⟨fun _ => ⟨ch.drop (n + 1) :: rest, by rw [List.take_append_of_le_length (by omega)], ?_⟩ , fun h => by omega⟩
        · rw [List.flatten_cons, List.drop_append_of_le_length (by omega)]
      · rw [if_neg hlt]
        obtain ⟨h1, h2⟩ := ih (n + 1 - ch.length) (acc ++ ch)
        constructor
        · intro h
          obtain ⟨r, hr, hrf⟩ := h1 (by omega)
          refine ⟨r, ?_, ?_⟩
          · rw [hr, List.take_append, List.append_assoc, List.take_of_length_le (l := ch) (by omega)]
          · rw [hrf, List.drop_append, List.drop_of_length_le (l := ch) (by omega), List.nil_append]
        · intro h
          rw [h2 (by omega), List.append_assoc]

/-- where the handler stops when the stream ends inside a read -/
def cutEnd (tail : Tail) (atStart : Bool) : End :=
  match tail with
  | .eof => if atStart then .closedByTimer else .closed
  | .error => .closed
  | .silent => .waiting

/-- reading one packet from a byte stream -/
def streamRecv (tail : Tail) (s : Bytes) : End ⊕ (Bytes × Bytes) :=
  if s.length < 10 then .inl (cutEnd tail (s == []))
  else if byteAt s 0 ≠ 1 then .inl .closed
  else if s.length < 10 + (restLen (s.take 10)).toNat then .inl (cutEnd tail false)
  else .inr (s.take (10 + (restLen (s.take 10)).toNat), s.drop (10 + (restLen (s.take 10)).toNat))

omit P in
theorem recv_eq (tail : Tail) (chunks : List Bytes) :
    (∃ e, recvPacket tail chunks = .stop e ∧ streamRecv tail chunks.flatten = .inl e) ∨
    (∃ c rest, recvPacket tail chunks = .packet c rest ∧ streamRecv tail chunks.flatten = .inr (c, rest.flatten)) := by
  obtain ⟨h1, h2⟩ := readFull_eq tail 10 [] chunks
  unfold recvPacket streamRecv
  by_cases hlt : chunks.flatten.length < 10
  · left
    rw [h2 hlt, if_pos hlt]
    cases tail with
    | eof =>
      by_cases h : chunks.flatten = []
      · simp [h, cutEnd]
      · simp [h, cutEnd]
    | error => simp [cutEnd]
    | silent => simp [cutEnd]
  · obtain ⟨rest, hr, hrf⟩ := h1 (by omega)
    rw [hr, if_neg hlt]
    simp only [List.nil_append]
    have hb : (chunks.flatten.take 10).getD 0 0 = byteAt chunks.flatten 0 := by
      unfold byteAt
      rw [List.getD_eq_getElem?_getD, List.getD_eq_getElem?_getD, List.getElem?_take_of_lt (by omega)]
    rw [hb]
    by_cases h0 : byteAt chunks.flatten 0 ≠ 1
    · left; exact ⟨.closed, by rw [if_pos h0], by rw [if_pos h0]⟩
    · rw [if_neg h0, if_neg h0]
      obtain ⟨h3, h4⟩ := readFull_eq tail (restLen (chunks.flatten.take 10)).toNat [] rest
      rw [hrf] at h3 h4
      by_cases hl : chunks.flatten.length < 10 + (restLen (chunks.flatten.take 10)).toNat
      · left
        rw [h4 (by rw [List.length_drop]; omega), if_pos hl]
        cases tail with
        | eof => simp [cutEnd]; split <;> (rename_i h; split at h <;> simp_all)
        | error => simp [cutEnd]
        | silent => simp [cutEnd]
      · right
        obtain ⟨r, hr2, hr2f⟩ := h3 (by rw [List.length_drop]; omega)
        rw [hr2, if_neg hl]
        refine ⟨_, _, rfl, ?_⟩
        rw [hr2f, List.drop_drop, List.nil_append, ← List.take_add]

/-- the connection loop on a byte stream -/
def streamLoop (env : Env) (tail : Tail) : Nat → Nat → LoopVars → Bytes → List Effect × End
  | 0, _, _, _ => ([], .diverged)
  | fuel + 1, k, v, s =>
    match streamRecv tail s with
    | .inl e => ([], e)
    | .inr (c, rest) =>
      match handlePacket (env.now k) (env.spare k) v.reset c with
      | .panic => ([], .crashed)
      | .diverge => ([], .diverged)
      | .done l v =>
        let (l', e) := streamLoop env tail fuel (k + 1) v rest
        (l ++ l', e)

theorem connLoop_stream (env : Env) (tail : Tail) (fuel k : Nat) (v : LoopVars) (chunks : List Bytes) :
    connLoop env tail fuel k v chunks = streamLoop env tail fuel k v chunks.flatten := by
  induction fuel generalizing k v chunks with
  | zero => rfl
  | succ n ih =>
    unfold connLoop streamLoop
    rcases recv_eq tail chunks with ⟨e, h1, h2⟩ | ⟨c, rest, h1, h2⟩
    · rw [h1, h2]
    · rw [h1, h2]
      simp only
      cases handlePacket (env.now k) (env.spare k) v.reset c with
      | panic => rfl
      | diverge => rfl
      | done l v' => simp only [ih]

omit P in
theorem streamRecv_length {tail : Tail} {s c rest : Bytes} (h : streamRecv tail s = .inr (c, rest)) :
    10 ≤ c.length ∧ s = c ++ rest := by
  unfold streamRecv at h
  split at h
  · cases h
  · split at h
    · cases h
    · split at h
      · cases h
      · obtain ⟨rfl, rfl⟩ := Prod.mk.inj (Sum.inr.inj h)
        refine ⟨by simp; omega, by simp⟩

/-- enough fuel: the result does not depend on it -/
theorem streamLoop_fuel (env : Env) (tail : Tail) (n m k : Nat) (v : LoopVars) (s : Bytes) (hn : s.length < n) (hm : s.length < m) :
    streamLoop env tail n k v s = streamLoop env tail m k v s := by
  induction n generalizing m k v s with
  | zero => omega
  | succ n ih =>
    cases m with
    | zero => omega
    | succ m =>
      unfold streamLoop
      cases hr : streamRecv tail s with
      | inl e => rfl
      | inr p =>
        obtain ⟨c, rest⟩ := p
        obtain ⟨hc, rfl⟩ := streamRecv_length hr
        simp only
        simp only [List.length_append] at hn hm
        cases handlePacket (env.now k) (env.spare k) v.reset c with
        | panic => rfl
        | diverge => rfl
        | done l v' =>
          simp only
          rw [ih m (k + 1) v' rest (by omega) (by omega)]

/-- the handler of a connection that delivers the byte stream `s`, from packet number `k` on -/
def serve (env : Env) (tail : Tail) (k : Nat) (v : LoopVars) (s : Bytes) : List Effect × End :=
  streamLoop env tail (s.length + 1) k v s

theorem handleConn_serve (env : Env) (tail : Tail) (chunks : List Bytes) :
    handleConn env true tail chunks = serve env tail 0 {} chunks.flatten := by
  unfold handleConn serve
  rw [if_pos rfl, connLoop_stream]

theorem serve_unfold (env : Env) (tail : Tail) (k : Nat) (v : LoopVars) (s : Bytes) :
    serve env tail k v s =
      match streamRecv tail s with
      | .inl e => ([], e)
      | .inr (c, rest) =>
        match handlePacket (env.now k) (env.spare k) v.reset c with
        | .panic => ([], .crashed)
        | .diverge => ([], .diverged)
        | .done l v => (l ++ (serve env tail (k + 1) v rest).1, (serve env tail (k + 1) v rest).2) := by
  unfold serve
  rw [streamLoop]
  cases hr : streamRecv tail s with
  | inl e => rfl
  | inr p =>
    obtain ⟨c, rest⟩ := p
    obtain ⟨hc, rfl⟩ := streamRecv_length hr
    simp only
    cases handlePacket (env.now k) (env.spare k) v.reset c with
    | panic => rfl
    | diverge => rfl
    | done l v' =>
      simp only
      rw [streamLoop_fuel env tail _ (rest.length + 1) _ _ _ (by simp; omega) (by omega)]

end Egts
