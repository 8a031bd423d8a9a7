import Verif.Props.Main
import Verif.Props.Forward
import Verif.Props.Resend
import Verif.Props.JsonText
set_option autoImplicit false
/- C102: from the configuration file and the bytes of a client to the calls of the storages' client libraries. -/
namespace Egts
open Frame JsonP
variable [P : Platform]

/-- the records due for data packets (bytes, identifier, records), the first of them being number `k` of its connection: one for
every packet with a position (what it contains is C38 to C40) -/
def dueRecords (env : Env) : Nat → List (Bytes × Nat × List ServiceDataRecord) → List NavRecord
  | _, [] => []
  | k, (_, pid, l) :: pks =>
    (if (positions (subsOf l)).isEmpty then [] else [exportOf (env.now k) (UInt16.ofNat pid) l]) ++ dueRecords env (k + 1) pks

omit P in
theorem allDue_saves (tb : NavRecord → Option Bytes) (regs : List Registered) (l : List Effect) :
    allDue tb regs l = (savesOf l).flatMap (callsDue tb regs) := by
  induction l with
  | nil => rfl
  | cons e l ih =>
    cases e with
    | write b => rw [allDue, ih]; rfl
    | save r => rw [allDue, ih]; rfl

omit P in
theorem savesOf_append' (a b : List Effect) : savesOf (a ++ b) = savesOf a ++ savesOf b := by
  unfold savesOf; rw [List.filterMap_append]

theorem reactAll_due (env : Env) (tail : Tail) (pks : List (Bytes × Nat × List ServiceDataRecord))
    (h : ∀ k ∈ pks, DataPacket k.1 k.2.1 k.2.2 ∧ NoResponses k.2.2) :
    ∀ k, savesOf (reactAll env tail [] k (pks.map (·.1))).1 = dueRecords env k pks ∧
      (reactAll env tail [] k (pks.map (·.1))).2 = lastEnd tail [] := by
  induction pks with
  | nil => intro k; exact ⟨rfl, rfl⟩
  | cons x pks ih =>
    intro k
    obtain ⟨c, pid, l⟩ := x
    obtain ⟨hd, hn⟩ := h (c, pid, l) (by simp)
    obtain ⟨i1, i2⟩ := ih (fun k hk => h k (by simp [hk])) (k + 1)
    simp only at hd hn
    rw [List.map_cons, reactAll, react_data _ _ c pid l hd hn]
    simp only
    refine ⟨?_, i2⟩
    rw [savesOf_append', i1, dueRecords]
    congr 1
    by_cases hl : (subsOf l).any (·.isLogin) <;> by_cases hp : (positions (subsOf l)).isEmpty <;> simp [savesOf, hl, hp]

/-- the client libraries accept every message, write down every call, and let the storages connect as `g` says; records are serialised as
JSON text -/
abbrev accepting (g : Dial → Option Nat) (F : JsonFmt) : Drivers (List Call) :=
  (recording g fun _ _ => none).drivers fun r => some (r.text F)

omit P in
theorem init_world (g : Dial → Option Nat) (F : JsonFmt) (kind : Kind) (cfg : Option Params) (w : List Call) :
    (connectorInit (accepting g F) kind cfg w).2 = w := by
  unfold connectorInit
  cases cfg with
  | none => rfl
  | some p =>
    have hcon : ∀ kind, ∃ e, (accepting g F).connect kind p w = (e, w) := by
      intro kind
      simp only [accepting, Net.drivers, recording]
      cases dialOf kind p with
      | none => exact ⟨none, rfl⟩
      | some d => exact ⟨g d, rfl⟩
    obtain ⟨e, he⟩ := hcon kind
    cases kind with
    | log => rfl
    | redis => simp only; cases redisInit (some p) <;> rfl
    | tarantool =>
      simp only [he]
      split
      · cases e <;> rfl
      · rfl
    | _ => simp only [he]; cases e <;> rfl

omit P in
theorem load_world (g : Dial → Option Nat) (F : JsonFmt) (l : List (Bytes × Option Params)) (reg : List Registered) (w : List Call) :
    (loadLoop (accepting g F) l reg w).2 = w := by
  induction l generalizing reg with
  | nil => rfl
  | cons e l ih =>
    obtain ⟨name, ps⟩ := e
    unfold loadLoop
    cases kindOf name with
    | none => rfl
    | some kind =>
      have := init_world g F kind ps w
      rcases hci : connectorInit (accepting g F) kind ps w with ⟨r, w1⟩
      rw [hci] at this
      simp only at this
      subst this
      simp only [hci]
      cases r with
      | ok => exact ih _
      | err e => rfl
      | panic => rfl

omit P in
theorem mainStorages_world (g : Dial → Option Nat) (F : JsonFmt) (l : List (Bytes × Option Params)) (w : List Call) :
    (mainStorages (accepting g F) l w).2 = w := by
  unfold mainStorages
  have : (loadStorages (accepting g F) l [] w).2 = w := by
    unfold loadStorages
    split
    · rfl
    · exact load_world g F l [] w
  rcases hl : loadStorages (accepting g F) l [] w with ⟨⟨r, reg⟩, w1⟩
  rw [hl] at this
  simp only at this
  subst this
  cases r <;> rfl

/-- C102: the receiver is started with a configuration file whose storages can all be initialised, and a client sends any number of data
packets as the standard describes them, however the network cuts the stream. If the storages accept everything, then the receiver serves
with exactly the configured storages, and the calls of their client libraries are, packet after packet, exactly one per packet with a
position and configured storage, with that storage's parameters; the message is JSON text that is read as the record due for the packet. -/
theorem end_to_end (F : JsonFmt) (dv : F64 → Rat) (hF : ∀ x, getNumber (F.float x) = some (dv x, []))
    (read : Bytes → Option (List (Bytes × YamlValue))) (order : List (Bytes × Option Params) → List (Bytes × Option Params))
    (ho : ∀ l, (order l).Perm l) (g : Dial → Option Nat) (listen : Bytes → Bool) (path host port level : Bytes) (n : Int64)
    (st : List (Bytes × Option Params)) (hp : path ≠ [])
    (hf : read path = some [(asc "host", .str host), (asc "port", .str port), (asc "conn_ttl", .num n),
      (asc "log_level", .str level), (asc "storage", .sec st)])
    (hl : listen (host ++ asc ":" ++ port) = true) (hne : st ≠ [])
    (hi : ∀ e ∈ st, ∃ kind p, e.2 = some p ∧ (e.1, kind) ∈ storageNames ∧
      ∀ w, ∃ w', connectorInit (accepting g F) kind (some p) w = (.ok, w'))
    (env : Env) (tail : Tail) (pks : List (Bytes × Nat × List ServiceDataRecord))
    (h : ∀ k ∈ pks, DataPacket k.1 k.2.1 k.2.2 ∧ NoResponses k.2.2)
    (chunks : List Bytes) (hc : chunks.flatten = (pks.map (·.1)).flatten) :
    ∃ s : Serving, receiverMain read order (accepting g F) listen path [] = (.serves s, []) ∧
      s.stores.length = st.length ∧
      (∀ name kind p, (name, kind) ∈ storageNames → (name, some p) ∈ st → (kind, p) ∈ s.stores) ∧
      (perform (s.stores.map (accepting g F).saver) (handleConn env true tail chunks).1 []).2 =
        (dueRecords env 0 pks).flatMap (fun r => s.stores.filterMap fun (kind, p) => callOf kind p (r.text F)) ∧
      ∀ r ∈ dueRecords env 0 pks, parse (r.text F) = some (r.mapFloats dv).json := by
  obtain ⟨-, h2, h3⟩ := stores_fixed_partial (accepting g F) st hne hi (order st) (order st) (ho st) (ho st) [] []
  refine ⟨⟨Settings.GetLogLevel { LogLevel := level }, Settings.GetListenAddress ⟨host, port, n, level, st⟩,
    Settings.GetEmptyConnTTL ⟨host, port, n, level, st⟩, (mainStorages (accepting g F) (order st) []).1⟩, ?_, h2, h3, ?_, fun r _ => record_text hF r⟩
  · unfold receiverMain
    rw [if_neg hp, hf]
    simp only [Option.bind_some, config_values_partial, mainStorages_world]
    rw [if_pos (by rw [listen_address]; exact hl)]
    rfl
  · rw [forwarded_all g _ _ (by simp), List.nil_append, allDue_saves]
    have hcut : CutInto chunks.flatten (pks.map (·.1)) [] := by
      refine ⟨by rw [hc, List.append_nil], fun x hx => ?_, .inl (by simp)⟩
      obtain ⟨k, hk, rfl⟩ := List.mem_map.mp hx
      exact framed_taken (data_packet_framed _ _ _ (h k hk).1)
    rw [stream_behaviour env tail chunks _ _ hcut, (reactAll_due env tail pks h 0).1]
    rfl

/-- the hypotheses are met: two storages, two packets with a position, cut in the middle of the second; four calls -/
example (env : Env) : ∃ (F : JsonFmt) (stores : List Registered), stores.length = 2 ∧
    (perform (stores.map (accepting (fun _ => none) F).saver)
      (handleConn env true .eof [fixPacket 9 1 ++ (fixPacket 8 1).take 5, (fixPacket 8 1).drop 5]).1 []).2.length = 4 := by
  have hd : ∀ pid, DataPacket (fixPacket pid 1) pid.toNat [exFixRecord 49] := fun pid => fixPacket_data pid 1 49 (.inr ⟨rfl, rfl⟩)
  obtain ⟨s, -, hlen, hmem, hcalls, -⟩ := end_to_end ⟨twoPlaces, true⟩ twoPlacesVal twoPlaces_ok
    (fun _ => some [(asc "host", .str []), (asc "port", .str (asc "6000")), (asc "conn_ttl", .num 10), (asc "log_level", .str []),
      (asc "storage", .sec [(asc "nats", some [(asc "topic", asc "t")]), (asc "nsq", some [(asc "topic", asc "u")])])])
    id (fun _ => List.Perm.refl _) (fun _ => none) (fun _ => true) (asc "c") [] (asc "6000") [] 10
    [(asc "nats", some [(asc "topic", asc "t")]), (asc "nsq", some [(asc "topic", asc "u")])] (by decide) rfl rfl (by simp)
    (by
      simp only [List.forall_mem_cons, List.not_mem_nil, false_implies, implies_true, and_true]
      exact ⟨⟨.nats, _, rfl, by decide, fun w => ⟨w, rfl⟩⟩, .nsq, _, rfl, by decide, fun w => ⟨w, rfl⟩⟩)
    env .eof [(fixPacket 9 1, 9, [exFixRecord 49]), (fixPacket 8 1, 8, [exFixRecord 49])]
    (by
      simp only [List.forall_mem_cons, List.not_mem_nil, false_implies, implies_true, and_true]
      exact ⟨⟨hd 9, exFix_noResponses _⟩, hd 8, exFix_noResponses _⟩)
    [fixPacket 9 1 ++ (fixPacket 8 1).take 5, (fixPacket 8 1).drop 5] (by simp)
  refine ⟨⟨twoPlaces, true⟩, s.stores, hlen, ?_⟩
  rw [hcalls]
  have h1 := hmem (asc "nats") .nats [(asc "topic", asc "t")] (by decide) (by simp)
  have h2 := hmem (asc "nsq") .nsq [(asc "topic", asc "u")] (by decide) (by simp)
  obtain ⟨lv, ad, tt, stores⟩ := s
  simp only at hlen h1 h2 ⊢
  match stores, hlen with
  | [a, b], _ =>
    have hp : ∀ c ∈ [a, b], c = (.nats, [(asc "topic", asc "t")]) ∨ c = (.nsq, [(asc "topic", asc "u")]) := by
      simp only [List.mem_cons, List.not_mem_nil, or_false] at h1 h2
      intro c hc
      simp only [List.mem_cons, List.not_mem_nil, or_false] at hc
      rcases h1 with h1 | h1 <;> rcases h2 with h2 | h2
      · rw [← h1] at h2; cases h2
      · rcases hc with rfl | rfl
        · exact .inl h1.symm
        · exact .inr h2.symm
      · rcases hc with rfl | rfl
        · exact .inr h2.symm
        · exact .inl h1.symm
      · rw [← h1] at h2; cases h2
    have hf : ∀ r : NavRecord, ([a, b].filterMap fun (kind, p) => callOf kind p (r.text ⟨twoPlaces, true⟩)).length = 2 := by
      intro r
      rcases hp a (by simp) with rfl | rfl <;> rcases hp b (by simp) with rfl | rfl <;> rfl
    have hdue : (dueRecords env 0 [(fixPacket 9 1, 9, [exFixRecord 49]), (fixPacket 8 1, 8, [exFixRecord 49])]).length = 2 := by
      simp [dueRecords, positions, subsOf, exFixRecord, SubData.pos?]
    match hr : dueRecords env 0 [(fixPacket 9 1, 9, [exFixRecord 49]), (fixPacket 8 1, 8, [exFixRecord 49])], hdue with
    | [x, y], _ =>
      simp only [List.flatMap_cons, List.flatMap_nil, List.append_nil, List.length_append]
      rw [hf x, hf y]

end Egts
