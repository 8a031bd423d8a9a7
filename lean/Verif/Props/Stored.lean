import Verif.Props.Storage
import Verif.Props.Server2
set_option autoImplicit false
/- C43: acknowledged means stored. -/
namespace Egts
open Frame
variable [P : Platform]

omit P in
theorem perform_append {W : Type} (ss : List (Saver W)) (a b : List Effect) (w : W) :
    perform ss (a ++ b) w =
      if (perform ss a w).1.2 then perform ss a w
      else (((perform ss a w).1.1 ++ (perform ss b (perform ss a w).2).1.1, (perform ss b (perform ss a w).2).1.2),
        (perform ss b (perform ss a w).2).2) := by
  induction a generalizing w with
  | nil => simp [perform]
  | cons e a ih =>
    cases e with
    | write x =>
      simp only [List.cons_append, perform, ih]
      split <;> simp_all
    | save r =>
      rcases hsv : repoSave ss r w with ⟨_ | _ | _, w1⟩
      · simp only [List.cons_append, perform, hsv, ih]; split <;> simp_all
      · simp only [List.cons_append, perform, hsv, ih]; split <;> simp_all
      · simp [List.cons_append, perform, hsv]

/-- what has been done about the data packet `p` with records `l` is complete and in the right order: the record with
all its positions was offered to the storages (`stored` tells whether they accepted it), and only then the packet was
acknowledged -/
def SavedThenAcked (stored : Bool) (p : Package) (l : List ServiceDataRecord) (log : List Done) : Prop :=
  ∃ r ack rest, log = (if stored then .saved r else .saveFailed r) :: .wrote ack :: rest ∧
    r.LocStates = (positions (subsOf l)).map locOf ∧ Answers ack p.PacketIdentifier 0 (l.map (·.RecordNumber)) ∧
    (∀ x ∈ rest, ∃ b, x = .wrote b)

/-- one accepted data packet with positions, any storages: the storages are asked first; if they panic the packet is
not acknowledged, otherwise it is -/
theorem one_packet_log {W : Type} (ss : List (Saver W)) (env : Env) (c : Bytes) (p : Package) (l : List ServiceDataRecord) (w : W)
    (hf : Framed c) (hd : Package.decode {} c (env.spare 0) = .ret 0 none p) (hb : p.ServicesFrameData = some (.appdata l))
    (hn : NoResponses l) (hp : positions (subsOf l) ≠ []) :
    ∃ r, r.LocStates = (positions (subsOf l)).map locOf ∧
      match (repoSave ss r w).1 with
      | .panic => (perform ss (handleConn env true .silent [c]).1 w).1 = ([], true)
      | .ok => (perform ss (handleConn env true .silent [c]).1 w).1.2 = false ∧
          SavedThenAcked true p l (perform ss (handleConn env true .silent [c]).1 w).1.1
      | .err _ => (perform ss (handleConn env true .silent [c]).1 w).1.2 = false ∧
          SavedThenAcked false p l (perform ss (handleConn env true .silent [c]).1 w).1.1 := by
  obtain ⟨ack, ha, hs⟩ := handle_data (env.now 0) (env.spare 0) c p l hd hb hn
  refine ⟨exportOf (env.now 0) p.PacketIdentifier l, rfl, ?_⟩
  rw [alone_eq env c hf, hs]
  have h1 : (positions (subsOf l)).isEmpty = false := by simpa using hp
  simp only [h1, Bool.false_eq_true, if_false]
  generalize hr : exportOf (env.now 0) p.PacketIdentifier l = r
  have hl : r.LocStates = (positions (subsOf l)).map locOf := by rw [← hr]; rfl
  rcases hsv : repoSave ss r w with ⟨_ | _ | _, w1⟩
  · by_cases h2 : (subsOf l).any (·.isLogin)
    · simp only [h2, if_true, List.cons_append, List.nil_append, perform, hsv]
      exact ⟨trivial, r, ack, _, rfl, hl, ha, by simp⟩
    · simp only [h2, List.cons_append, List.nil_append, perform, hsv]
      exact ⟨rfl, r, ack, _, rfl, hl, ha, by simp [perform]⟩
  · by_cases h2 : (subsOf l).any (·.isLogin)
    · simp only [h2, if_true, List.cons_append, List.nil_append, perform, hsv]
      exact ⟨trivial, r, ack, _, rfl, hl, ha, by simp⟩
    · simp only [h2, List.cons_append, List.nil_append, perform, hsv]
      exact ⟨rfl, r, ack, _, rfl, hl, ha, by simp [perform]⟩
  · simp only [List.cons_append, List.nil_append, perform, hsv]

omit P in
theorem perform_flatten {W : Type} (ss : List (Saver W)) (blocks : List (List Effect)) (more : List Effect) (w : W)
    (hnp : ∀ m w, (repoSave ss m w).1 ≠ .panic) :
    ∃ ws : List W, ws.length = blocks.length ∧ ∃ rest, (perform ss (blocks.flatten ++ more) w).1 =
      ((List.zipWith (fun b w => (perform ss b w).1.1) blocks ws).flatten ++ rest, false) := by
  have nop : ∀ (l : List Effect) (w : W), (perform ss l w).1.2 = false := by
    intro l
    induction l with
    | nil => intro w; rfl
    | cons e l ih =>
      intro w
      cases e with
      | write b => simp only [perform]; exact ih w
      | save r =>
        simp only [perform]
        have := hnp r w
        rcases h : repoSave ss r w with ⟨_ | _ | _, w1⟩
        · exact ih w1
        · exact ih w1
        · rw [h] at this; exact absurd rfl this
  induction blocks generalizing w with
  | nil => exact ⟨[], rfl, (perform ss more w).1.1, by simp [← nop more w]⟩
  | cons b blocks ih =>
    obtain ⟨ws, hw, rest, hr⟩ := ih (perform ss b w).2
    refine ⟨w :: ws, by simp [hw], rest, ?_⟩
    rw [List.flatten_cons, List.append_assoc, perform_append, if_neg (by simp [nop b w])]
    rw [hr]
    simp

/-- C43 for every stream of complete frames `cs` (followed by anything) and any storages that do not panic: the
actions performed are one log per frame, in order, and in the log of every accepted data packet with positions the storages
are asked to store them before the packet is acknowledged. So at every crash point, i.e. for every prefix of the
actions, an acknowledged packet has been offered to the storages. -/
theorem acked_after_save {W : Type} (ss : List (Saver W)) (env : Env) (tail : Tail) (cs : List Bytes) (s : Bytes) (w : W)
    (hf : ∀ c ∈ cs, Framed c) (hc : ∀ k (hk : k < cs.length), (handleConn (env.after k) true .silent [cs[k]]).2 = .waiting)
    (hnp : ∀ m w, (repoSave ss m w).1 ≠ .panic) :
    ∃ (logs : List (List Done)) (more : List Done),
      (perform ss (handleConn env true tail [cs.flatten ++ s]).1 w).1 = (logs.flatten ++ more, false) ∧
      logs.length = cs.length ∧
      ∀ (k : Nat) (c : Bytes) (log : List Done) (p : Package) (l : List ServiceDataRecord), cs[k]? = some c → logs[k]? = some log →
        Package.decode {} c (env.spare k) = .ret 0 none p → p.ServicesFrameData = some (.appdata l) → NoResponses l →
        positions (subsOf l) ≠ [] →
        SavedThenAcked true p l log ∨ (SavedThenAcked false p l log ∧ ∃ m w, (repoSave ss m w).1 ≠ .ok) := by
  rw [packets_independent env tail cs s hf hc]
  simp only
  obtain ⟨ws, hws, rest, hr⟩ := perform_flatten ss
    (List.ofFn fun k : Fin cs.length => (handleConn (env.after k) true .silent [cs[k]]).1)
    (handleConn (env.after cs.length) true tail [s]).1 w hnp
  refine ⟨_, rest, hr, by simp at hws ⊢; omega, ?_⟩
  intro k c log p l hk hlog hd hb hn hp
  rw [List.getElem?_zipWith] at hlog
  have hlt : k < cs.length := by
    by_contra h
    rw [List.getElem?_eq_none (by omega)] at hk; cases hk
  have hck : cs[k] = c := by rw [List.getElem?_eq_getElem hlt] at hk; exact Option.some.inj hk
  rw [List.getElem?_ofFn, dif_pos hlt] at hlog
  have hwlt : k < ws.length := by simp at hws; omega
  rw [List.getElem?_eq_getElem hwlt] at hlog
  simp only [Option.some.injEq] at hlog
  have hck' : cs[(⟨k, hlt⟩ : Fin cs.length)] = c := hck
  rw [hck'] at hlog
  obtain ⟨r, -, hm⟩ := one_packet_log ss (env.after k) c p l ws[k] (hf c (List.mem_of_getElem? hk)) hd hb hn hp
  rw [hlog] at hm
  have := hnp r ws[k]
  rcases hsv : repoSave ss r ws[k] with ⟨_ | _ | _, w1⟩
  · rw [hsv] at hm; exact .inl hm.2
  · rw [hsv] at hm; exact .inr ⟨hm.2, r, ws[k], by rw [hsv]; simp⟩
  · rw [hsv] at this; exact absurd rfl this

/-- C43 (partial): with storages that never refuse a record, every acknowledged position packet has been stored before,
for every stream of complete frames and at every crash point. Missing: storages that can fail (`acked_not_stored`). -/
theorem acked_stored_partial {W : Type} (ss : List (Saver W)) (env : Env) (tail : Tail) (cs : List Bytes) (s : Bytes) (w : W)
    (hf : ∀ c ∈ cs, Framed c) (hc : ∀ k (hk : k < cs.length), (handleConn (env.after k) true .silent [cs[k]]).2 = .waiting)
    (hok : ∀ m w, (repoSave ss m w).1 = .ok) :
    ∃ (logs : List (List Done)) (more : List Done),
      (perform ss (handleConn env true tail [cs.flatten ++ s]).1 w).1 = (logs.flatten ++ more, false) ∧
      logs.length = cs.length ∧
      ∀ (k : Nat) (c : Bytes) (log : List Done) (p : Package) (l : List ServiceDataRecord), cs[k]? = some c → logs[k]? = some log →
        Package.decode {} c (env.spare k) = .ret 0 none p → p.ServicesFrameData = some (.appdata l) → NoResponses l →
        positions (subsOf l) ≠ [] → SavedThenAcked true p l log := by
  obtain ⟨logs, more, h1, h2, h3⟩ := acked_after_save ss env tail cs s w hf hc (fun m w => by rw [hok]; simp)
  refine ⟨logs, more, h1, h2, fun k c log p l a b c' d e f => ?_⟩
  rcases h3 k c log p l a b c' d e f with h | ⟨-, m, w, h⟩
  · exact h
  · exact absurd (hok m w) h

/-- the prefix reading of `SavedThenAcked`: if a crash leaves a beginning of the log in which something was written to the
client, the record had been stored -/
theorem SavedThenAcked.prefix {p : Package} {l : List ServiceDataRecord} {log pre : List Done} (h : SavedThenAcked true p l log)
    (hp : pre <+: log) (hw : ∃ b, .wrote b ∈ pre) : ∃ r, .saved r ∈ pre ∧ r.LocStates = (positions (subsOf l)).map locOf := by
  obtain ⟨r, ack, rest, rfl, h1, -⟩ := h
  obtain ⟨b, hb⟩ := hw
  cases pre with
  | nil => simp at hb
  | cons x pre =>
    rw [List.cons_prefix_cons] at hp
    exact ⟨r, by rw [hp.1]; simp, h1⟩

set_option maxRecDepth 1000000 in
/-- C43 is false of the code: a packet with two positions is acknowledged with result 0 and status 0 for both records
although no storage accepted it. -/
theorem acked_not_stored {W : Type} (ss : List (Saver W)) (hfail : ∀ m w, ∃ e, (repoSave ss m w).1 = .err e) (env : Env) (w : W) :
    ∃ pid log, (perform ss (handleConn env true .silent [exPacket]).1 w).1 = (log, false) ∧
      (∀ r, .saved r ∉ log) ∧ ∃ ack, .wrote ack ∈ log ∧ Answers ack pid 0 [95, 96] := by
  obtain ⟨p, l, hd, hb, hn, hpos, -, hrn, -⟩ := exPacket_meets (P := P) (env.spare 0)
  obtain ⟨r, -, hm⟩ := one_packet_log ss env exPacket p l w exPacket_framed hd hb hn (by rintro h; rw [h] at hpos; cases hpos)
  obtain ⟨e, he⟩ := hfail r w
  rw [he] at hm
  obtain ⟨h1, r', ack, rest, h2, -, ha, hrest⟩ := hm
  generalize hx : (perform ss (handleConn env true .silent [exPacket]).1 w).1 = x at h1 h2 ⊢
  refine ⟨p.PacketIdentifier, x.1, Prod.ext rfl h1, ?_, ack, ?_, by rw [← hrn]; exact ha⟩
  · rw [h2]
    intro x hx
    simp only [Bool.false_eq_true, if_false, List.mem_cons, reduceCtorEq, false_or] at hx
    obtain ⟨b, hb⟩ := hrest _ hx
    cases hb
  · rw [h2]; simp

/-- storages that meet the hypothesis of `acked_not_stored`: e.g. a NATS server that refuses every message (test) -/
example (m : NavRecord) (w : Unit) : ∃ e, (repoSave [Drivers.saver ⟨fun _ _ w => (none, w), fun _ _ _ w => (some 1, w), fun _ => some []⟩
    (.nats, [])] m w).1 = .err e := ⟨_, rfl⟩

/-- a storage that panics (redis, `redis_save_panics`) kills the process with the first position packet: nothing is sent
any more -/
theorem storage_crash {W : Type} (ss : List (Saver W)) (hfail : ∀ m w, (repoSave ss m w).1 = .panic) (env : Env) (c : Bytes)
    (p : Package) (l : List ServiceDataRecord) (w : W) (hf : Framed c) (hd : Package.decode {} c (env.spare 0) = .ret 0 none p)
    (hb : p.ServicesFrameData = some (.appdata l)) (hn : NoResponses l) (hp : positions (subsOf l) ≠ []) :
    (perform ss (handleConn env true .silent [c]).1 w).1 = ([], true) := by
  obtain ⟨r, -, hm⟩ := one_packet_log ss env c p l w hf hd hb hn hp
  rw [hfail] at hm
  exact hm

/-- redis with an unreachable server meets the hypothesis (test) -/
example (m : NavRecord) (w : Unit) : (repoSave [Drivers.saver ⟨fun _ _ w => (none, w), fun _ _ _ w => (some 1, w), fun _ => some []⟩
    (.redis, [])] m w).1 = .panic := rfl

end Egts
