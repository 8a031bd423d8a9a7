import Verif.Props.AnyStream
import Verif.Props.ServerEx
set_option autoImplicit false
/- C136: answers come when the last byte of a packet is there, not before, and nothing is taken back. -/
namespace Egts
open Frame
variable [P : Platform]

/-- the answers to the first packets do not depend on what follows, on the end of the stream, or on the clock and the memory after them -/
theorem reactAll_prefix (env env' : Env) (tail tail' : Tail) (rest rest' : Bytes) (cs more : List Bytes) : ∀ k : Nat,
    (∀ i, i < cs.length → env'.now (k + i) = env.now (k + i) ∧ env'.spare (k + i) = env.spare (k + i)) →
    (reactAll env tail rest k cs).1 <+: (reactAll env' tail' rest' k (cs ++ more)).1 := by
  induction cs with
  | nil => intro k _; exact List.nil_prefix
  | cons c cs ih =>
    intro k h
    obtain ⟨h1, h2⟩ := h 0 (by simp)
    rw [Nat.add_zero] at h1 h2
    simp only [List.cons_append, reactAll, h1, h2]
    cases react (env.now k) (env.spare k) c with
    | none => exact List.nil_prefix
    | some l =>
      refine (List.prefix_append_right_inj l).mpr (ih (k + 1) fun i hi => ?_)
      have := h (i + 1) (by simpa using hi)
      rwa [show k + (i + 1) = k + 1 + i by omega] at this

/-- C136: what a connection has done once the packets `cs` (and some more bytes) are received is final: whatever bytes follow, in whatever segments, whether
and how the stream ends, and whatever the clock and the memory are later, everything is a continuation of it. -/
theorem answers_stand (env env' : Env) (tail tail' : Tail) (chunks chunks' cs : List Bytes) (rest : Bytes) (h : CutInto chunks.flatten cs rest)
    (hp : chunks.flatten <+: chunks'.flatten) (he : ∀ i, i < cs.length → env'.now i = env.now i ∧ env'.spare i = env.spare i) :
    (handleConn env true tail chunks).1 <+: (handleConn env' true tail' chunks').1 := by
  obtain ⟨t, ht⟩ := hp
  obtain ⟨⟨more, rest'⟩, hm, -⟩ := cut_unique (rest ++ t)
  have h' : CutInto chunks'.flatten (cs ++ more) rest' := by
    refine ⟨?_, fun c hc => ?_, hm.incomplete⟩
    · rw [← ht, h.all, List.append_assoc, hm.all]; simp
    · rcases List.mem_append.mp hc with hc | hc
      · exact h.taken c hc
      · exact hm.taken c hc
  rw [stream_behaviour env tail chunks cs rest h, stream_behaviour env' tail' chunks' _ rest' h']
  exact reactAll_prefix env env' tail tail' rest rest' cs more 0 (by simpa using he)

theorem reactAll_snoc (env : Env) (tail tail' tail'' : Tail) (rest rest' : Bytes) (cs : List Bytes) (c : Bytes) (hc : Taken c) : ∀ k : Nat,
    (reactAll env tail rest k (cs ++ [c])).1 = (reactAll env tail' rest' k cs).1 ++
      (if (reactAll env tail' rest' k cs).2 = .crashed then [] else (handleConn (env.after (k + cs.length)) true tail'' [c]).1) := by
  have hl : ∀ t r, lastEnd t r ≠ .crashed := by
    intro t r
    unfold lastEnd
    cases t <;> repeat' split
    all_goals simp
  have alone : ∀ (e : Env), (handleConn e true tail'' [c]).1 = (match react (e.now 0) (e.spare 0) c with | none => [] | some l => l) := by
    intro e
    rw [stream_behaviour e tail'' [c] [c] [] ⟨by simp, by simpa using hc, by simp [Incomplete]⟩]
    simp only [reactAll]
    cases react (e.now 0) (e.spare 0) c <;> simp
  induction cs with
  | nil =>
    intro k
    rw [alone]
    simp only [List.nil_append, reactAll, hl, if_false, Env.after, List.length_nil, Nat.add_zero]
    cases react (env.now k) (env.spare k) c <;> simp
  | cons d cs ih =>
    intro k
    have := ih (k + 1)
    simp only [List.cons_append, reactAll]
    by_cases hr : react (env.now k) (env.spare k) d = none
    · simp [hr]
    · obtain ⟨l, hr⟩ := Option.ne_none_iff_exists'.mp hr
      simp only [hr, this, List.append_assoc, List.length_cons]
      rw [show k + (cs.length + 1) = k + 1 + cs.length by omega]

/-- C136: the reaction to a packet is complete when its last byte is received; it is the one to the packet alone. (Nothing more happens on a
connection whose handling crashed the process, C46.) -/
theorem answered_at_once (env : Env) (tail tail' tail'' : Tail) (chunks chunks' cs : List Bytes) (c : Bytes)
    (hcs : ∀ d ∈ cs, Taken d) (hc : Taken c) (h : chunks.flatten = cs.flatten) (h' : chunks'.flatten = cs.flatten ++ c) :
    (handleConn env true tail chunks').1 = (handleConn env true tail' chunks).1 ++
      (if (handleConn env true tail' chunks).2 = .crashed then [] else (handleConn (env.after cs.length) true tail'' [c]).1) := by
  rw [stream_behaviour env tail' chunks cs [] ⟨by simpa using h, hcs, by simp [Incomplete]⟩,
    stream_behaviour env tail chunks' (cs ++ [c]) [] ⟨by simpa using h', ?_, by simp [Incomplete]⟩]
  · simpa using reactAll_snoc env tail tail' tail'' [] [] cs c hc 0
  · intro d hd
    rcases List.mem_append.mp hd with hd | hd
    · exact hcs d hd
    · obtain rfl := List.mem_singleton.mp hd; exact hc

/-- a proper beginning of a packet is no packet -/
theorem part_incomplete {c p : Bytes} (hc : Taken c) (hp : p <+: c) (hn : p ≠ c) : Incomplete p := by
  obtain ⟨t, rfl⟩ := hp
  have ht : t ≠ [] := by rintro rfl; simp at hn
  by_cases h10 : p.length < 10
  · exact .inl h10
  · refine .inr (.inr ?_)
    have hf : frameLen (p ++ t) = frameLen p := frameLen_prefix p t (by omega)
    have := hc.size
    rw [hf, List.length_append] at this
    have := List.length_pos_iff.mpr ht
    omega

/-- C136: nothing is done about a packet while a byte of it is missing, and no end of the stream (close, error, silence) makes a difference to
what is sent and stored. -/
theorem nothing_early (env : Env) (tail tail' : Tail) (chunks chunks' cs : List Bytes) (c p : Bytes) (hcs : ∀ d ∈ cs, Taken d) (hc : Taken c)
    (hp : p <+: c) (hn : p ≠ c) (h : chunks.flatten = cs.flatten) (h' : chunks'.flatten = cs.flatten ++ p) :
    (handleConn env true tail chunks').1 = (handleConn env true tail' chunks).1 := by
  have key : ∀ (t t' : Tail) (r r' : Bytes) (k : Nat), (reactAll env t r k cs).1 = (reactAll env t' r' k cs).1 := by
    intro t t' r r'
    clear hcs h h'
    induction cs with
    | nil => intro k; rfl
    | cons d cs ih =>
      intro k
      simp only [reactAll]
      cases react (env.now k) (env.spare k) d with
      | none => rfl
      | some l => simp only [ih (k + 1)]
  rw [stream_behaviour env tail' chunks cs [] ⟨by simpa using h, hcs, by simp [Incomplete]⟩,
    stream_behaviour env tail chunks' cs p ⟨h', hcs, part_incomplete hc hp hn⟩]
  exact key _ _ _ _ _

/-- a position packet without its last byte, whatever follows the failure to deliver it: nothing is done; with the last byte: it is stored and answered -/
theorem last_byte (env : Env) (tail : Tail) : (handleConn env true tail [exPacket.take 50, (exPacket.drop 50).dropLast]).1 = [] ∧
    (writesOf (handleConn env true tail [exPacket]).1).length = 2 := by
  have h0 : (handleConn env true .silent []).1 = [] := by
    rw [stream_behaviour env .silent [] [] [] ⟨rfl, by simp, by simp [Incomplete]⟩]; rfl
  have ht : Taken exPacket := framed_taken exPacket_framed
  constructor
  · rw [nothing_early env tail .silent [] _ [] exPacket exPacket.dropLast (by simp) ht (List.dropLast_prefix _) (by decide) rfl (by decide), h0]
  · have := answered_at_once env tail .silent .silent [] [exPacket] [] exPacket (by simp) ht rfl (by simp)
    rw [this, h0]
    have hc : (handleConn env true .silent []).2 ≠ .crashed := by
      rw [stream_behaviour env .silent [] [] [] ⟨rfl, by simp, by simp [Incomplete]⟩]; simp [reactAll, lastEnd]
    obtain ⟨p, l, hd, hb, hn, -, hl, -⟩ := exPacket_meets (P := P) ((env.after 0).spare 0)
    obtain ⟨effects, ack, more, h1, h2, -, h4, -, h5⟩ := data_acknowledged (env.after 0) exPacket p l exPacket_framed hd hb hn
    obtain ⟨x, rfl⟩ := h4 hl
    rw [if_neg hc, List.nil_append, List.length_nil, h1, h2]
    rfl

end Egts
