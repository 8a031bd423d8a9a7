import Verif.Spec.NetAddr
import Verif.Model.Main
import Verif.Props.Config
import Verif.Props.Storage
import Verif.Props.StorageCalls
set_option autoImplicit false
/- C99 - C101: the start of the receiver. -/
namespace Egts

/-! ### C54: the levels -/

/-- logrus prints a message iff its level is at most the configured one -/
def Settings.Prints (s : Settings) (l : Egts.LogLevel) : Prop := l.num ≤ s.GetLogLevel.num

/-- C54: what is printed: with ERROR the errors (and what ends the process), with WARN the warnings as well, with DEBUG everything but
traces, and otherwise everything up to INFO. -/
theorem log_level_prints (s : Settings) (l : LogLevel) : s.Prints l ↔
    l = .panic ∨ l = .fatal ∨ l = .error ∨ (l = .warn ∧ s.LogLevel ≠ asc "ERROR") ∨
    (l = .info ∧ s.LogLevel ≠ asc "ERROR" ∧ s.LogLevel ≠ asc "WARN") ∨ (l = .debug ∧ s.LogLevel = asc "DEBUG") := by
  unfold Settings.Prints Settings.GetLogLevel
  have e : asc "DEBUG" ≠ asc "ERROR" ∧ asc "DEBUG" ≠ asc "WARN" ∧ asc "INFO" ≠ asc "ERROR" ∧ asc "INFO" ≠ asc "WARN" ∧
      asc "INFO" ≠ asc "DEBUG" ∧ asc "WARN" ≠ asc "ERROR" ∧ asc "WARN" ≠ asc "DEBUG" ∧ asc "ERROR" ≠ asc "DEBUG" ∧ asc "ERROR" ≠ asc "WARN" := by decide
  by_cases h1 : s.LogLevel = asc "DEBUG"
  · rw [if_pos h1]; cases l <;> simp [LogLevel.num, h1, e]
  rw [if_neg h1]
  by_cases h2 : s.LogLevel = asc "INFO"
  · rw [if_pos h2]; cases l <;> simp [LogLevel.num, h2, e]
  rw [if_neg h2]
  by_cases h3 : s.LogLevel = asc "WARN"
  · rw [if_pos h3]; cases l <;> simp [LogLevel.num, h3, e]
  rw [if_neg h3]
  by_cases h4 : s.LogLevel = asc "ERROR"
  · rw [if_pos h4]; cases l <;> simp [LogLevel.num, h4, e]
  rw [if_neg h4]; cases l <;> simp [LogLevel.num, h1, h3, h4]

/-! ### C99 -/

section
variable {W : Type} (read : Bytes → Option (List (Bytes × YamlValue))) (order : List (Bytes × Option Params) → List (Bytes × Option Params))
  (D : Drivers W) (listen : Bytes → Bool)

/-- C99: with a configuration file of the five keys the receiver works with exactly the configured values: it listens at
host:port, its timer for connections is `n` seconds (C48), it logs at the configured level, and its storages are the configured ones if all of
them can be initialised. -/
theorem main_configured (path host port level : Bytes) (n : Int64) (st : List (Bytes × Option Params)) (hp : path ≠ [])
    (hf : read path = some [(asc "host", .str host), (asc "port", .str port), (asc "conn_ttl", .num n),
      (asc "log_level", .str level), (asc "storage", .sec st)])
    (hn : -9223372036854775808 ≤ n.toInt * 1000000000 ∧ n.toInt * 1000000000 ≤ 9223372036854775807)
    (hl : listen (host ++ asc ":" ++ port) = true) (w w' : W) (regs : List Registered) (hs : order st ≠ [])
    (hi : AllInit D (order st) regs w w') :
    ∃ s : Serving, receiverMain read order D listen path w = (.serves s, w') ∧ s.addr = host ++ asc ":" ++ port ∧
      s.ttl.toInt = n.toInt * 1000000000 ∧ s.stores = regs ∧ s.level = Settings.GetLogLevel { LogLevel := level } := by
  refine ⟨⟨Settings.GetLogLevel { LogLevel := level }, Settings.GetListenAddress ⟨host, port, n, level, st⟩,
    Settings.GetEmptyConnTTL ⟨host, port, n, level, st⟩, regs⟩, ?_, listen_address ⟨host, port, n, level, st⟩,
    conn_ttl_seconds ⟨host, port, n, level, st⟩ hn.1 hn.2, rfl, rfl⟩
  · unfold receiverMain
    rw [if_neg hp, hf]
    simp only [Option.bind_some, config_values_partial]
    have hm : mainStorages D (order st) w = (regs, w') := by
      unfold mainStorages
      rw [(load_ok_iff D (order st) regs w w').mpr ⟨hs, hi⟩]
    rw [hm]
    simp only
    rw [if_pos (by rw [listen_address]; exact hl)]
    rfl

/-- C99: the receiver serves exactly if a file is given, can be read, and the address can be listened at; the storages have no
influence on it. -/
theorem main_serves_iff (path : Bytes) (w : W) :
    (∃ s w', receiverMain read order D listen path w = (.serves s, w')) ↔
      path ≠ [] ∧ ∃ doc cfg, read path = some doc ∧ Settings.ofYaml doc = some cfg ∧ listen (cfg.Host ++ asc ":" ++ cfg.Port) = true := by
  unfold receiverMain
  by_cases hp : path = []
  · simp [hp]
  rw [if_neg hp]
  cases hr : read path with
  | none => simp
  | some doc =>
    cases hc : Settings.ofYaml doc with
    | none => simp [hc]
    | some cfg =>
      simp only [Option.bind_some, hc]
      simp only [← listen_address]
      by_cases hl : listen cfg.GetListenAddress = true
      · rw [if_pos hl]
        simp only [ne_eq, hp, not_false_eq_true, Option.some.injEq, true_and]
        exact ⟨fun _ => ⟨doc, cfg, rfl, hc, hl⟩, fun _ => ⟨_, _, rfl⟩⟩
      · rw [if_neg hl]
        simp only [ne_eq, hp, not_false_eq_true, Option.some.injEq, true_and]
        constructor
        · rintro ⟨s, w', h⟩; cases h
        · rintro ⟨d, c, rfl, h1, h2⟩
          rw [hc] at h1; cases h1
          exact absurd h2 hl

/-- C99: a receiver that serves has at least one storage, and if not all configured storages could be initialised, the log is one of
them. -/
theorem main_stores (path : Bytes) (w w' : W) (s : Serving) (h : receiverMain read order D listen path w = (.serves s, w')) :
    s.stores ≠ [] ∧ ∃ doc cfg, read path = some doc ∧ Settings.ofYaml doc = some cfg ∧
      ((∃ regs w1, order cfg.Store ≠ [] ∧ AllInit D (order cfg.Store) regs w w1 ∧ s.stores = regs) ∨
        ((¬ ∃ regs w1, AllInit D (order cfg.Store) regs w w1 ∧ order cfg.Store ≠ []) ∧ (.log, []) ∈ s.stores)) := by
  unfold receiverMain at h
  by_cases hp : path = []
  · simp [hp] at h
  rw [if_neg hp] at h
  cases hr : read path with
  | none => simp [hr] at h
  | some doc =>
    cases hc : Settings.ofYaml doc with
    | none => simp [hr, hc] at h
    | some cfg =>
      simp only [hr, Option.bind_some, hc] at h
      split at h
      · cases h
        obtain ⟨m1, m2, -⟩ := main_has_storage D (order cfg.Store) w
        rcases hl : loadStorages D (order cfg.Store) [] w with ⟨⟨r, regs⟩, w1⟩
        by_cases hok : r = .ok
        · subst hok
          obtain ⟨a, b, c⟩ := m1 (by rw [hl])
          obtain ⟨hne, hi⟩ := (load_ok_iff _ _ _ _ _).mp hl
          exact ⟨c, doc, cfg, rfl, hc, .inl ⟨regs, w1, hne, hi, by rw [a, hl]⟩⟩
        · obtain ⟨before, hb⟩ := m2 (by rw [hl]; exact hok)
          refine ⟨by simp [hb], doc, cfg, rfl, hc, .inr ⟨?_, by simp [hb]⟩⟩
          rintro ⟨regs', w1', hi, hne⟩
          have := (load_ok_iff D _ regs' w w1').mpr ⟨hne, hi⟩
          rw [hl] at this
          simp only [Prod.mk.injEq] at this
          exact hok this.1.1
      · cases h

end

/-- the hypotheses are met: a configuration with one reachable nats server -/
example : ∃ s : Serving, receiverMain (W := Unit)
    (fun _ => some [(asc "host", .str (asc "0.0.0.0")), (asc "port", .str (asc "6000")), (asc "conn_ttl", .num 10), (asc "log_level", .str (asc "WARN")),
      (asc "storage", .sec [(asc "nats", some [(asc "topic", asc "t")])])]) id
    ⟨fun _ _ w => (none, w), fun _ _ _ w => (none, w), fun _ => some []⟩ (fun _ => true) (asc "receiver.yaml") () = (.serves s, ()) ∧
    s.addr = asc "0.0.0.0:6000" ∧ s.ttl = 10000000000 ∧ s.stores = [(.nats, [(asc "topic", asc "t")])] ∧ s.level = .warn := by
  refine ⟨⟨.warn, asc "0.0.0.0:6000", 10000000000, [(.nats, [(asc "topic", asc "t")])]⟩, ?_, rfl, rfl, rfl, rfl⟩
  kernel_rfl

/-! ### C100 -/

/-- a text without colons and square brackets -/
def Unbracketed (s : Bytes) : Prop := ∀ c : UInt8, c ∈ s → c ≠ 58 ∧ c ≠ 91 ∧ c ≠ 93

theorem Unbracketed.not_mem {s : Bytes} (h : Unbracketed s) : 58 ∉ s ∧ 91 ∉ s ∧ 93 ∉ s :=
  ⟨fun m => (h _ m).1 rfl, fun m => (h _ m).2.1 rfl, fun m => (h _ m).2.2 rfl⟩

theorem unbracketed_of {s : Bytes} (h1 : 58 ∉ s) (h2 : 91 ∉ s) (h3 : 93 ∉ s) : Unbracketed s :=
  fun _ hc => ⟨fun e => h1 (e ▸ hc), fun e => h2 (e ▸ hc), fun e => h3 (e ▸ hc)⟩

theorem Uri.cut_spec (c : UInt8) : ∀ {s a b : Bytes}, cut c s = some (a, b) → s = a ++ c :: b ∧ c ∉ a
  | [], _, _, h => by simp [cut] at h
  | x :: s, a, b, h => by
    unfold cut at h
    split at h
    · next e => cases h; exact ⟨by simp [e], by simp⟩
    · next e =>
      obtain ⟨⟨a', b'⟩, h1, h2⟩ := Option.map_eq_some_iff.mp h
      cases h2
      obtain ⟨rfl, h3⟩ := cut_spec c h1
      exact ⟨rfl, by simp only [List.mem_cons, not_or]; exact ⟨fun e' => e e'.symm, h3⟩⟩

theorem Uri.cutLast_spec (c : UInt8) {s a b : Bytes} (h : cutLast c s = some (a, b)) : s = a ++ c :: b ∧ c ∉ b := by
  unfold cutLast at h
  obtain ⟨⟨x, y⟩, h1, h2⟩ := Option.map_eq_some_iff.mp h
  cases h2
  obtain ⟨h3, h4⟩ := Uri.cut_spec c h1
  refine ⟨?_, by simpa using h4⟩
  have := congrArg List.reverse h3
  simpa using this

/-- C100 (partial), exactly: the address the server listens at is the configured host and port if and only if neither of them has
colons or brackets. Missing: IPv6 addresses (`listen_ipv6_wrong`). -/
theorem listen_at_configured_partial (s : Settings) :
    Net.splitHostPort s.GetListenAddress = some (s.Host, s.Port) ↔ Unbracketed s.Host ∧ Unbracketed s.Port := by
  obtain ⟨host, port, n, lv, st⟩ := s
  show Net.splitHostPort (host ++ [58] ++ port) = some (host, port) ↔ _
  rw [List.append_assoc, List.singleton_append]
  constructor
  · intro h
    unfold Net.splitHostPort at h
    split at h
    · next r e =>
      split at h
      · cases h
      next h' r' hc =>
      obtain ⟨hr, hn⟩ := Uri.cut_spec _ hc
      split at h
      · split at h
        · cases h
        split at h
        · cases h
        · cases h
          have := congrArg List.length e
          rw [hr] at this
          simp at this
          omega
      · cases h
    · split at h
      · cases h
      next h1 p1 hc =>
      obtain ⟨-, hn⟩ := Uri.cutLast_spec _ hc
      split at h
      · cases h
      split at h
      · cases h
      · next h2 h3 =>
        cases h
        simp only [not_or] at h3
        exact ⟨unbracketed_of h2 h3.1 h3.2.1, unbracketed_of hn h3.2.2.1 h3.2.2.2⟩
  · rintro ⟨hh, hp⟩
    obtain ⟨a1, a2, a3⟩ := hh.not_mem
    obtain ⟨b1, b2, b3⟩ := hp.not_mem
    unfold Net.splitHostPort
    split
    · next r e =>
      cases host with
      | nil => simp at e
      | cons x t =>
        simp only [List.cons_append, List.cons.injEq] at e
        exact absurd (by rw [e.1]; simp) a2
    · rw [Uri.cutLast_last 58 host port b1]
      simp only
      rw [if_neg a1, if_neg (by simp [a2, a3, b2, b3])]

/-- 0.0.0.0 and 6000 meet the condition -/
example : Unbracketed (asc "0.0.0.0") ∧ Unbracketed (asc "6000") := by unfold Unbracketed; decide

/-- C100 is false of the code: with an IPv6 address as host (any text with a colon that does not start with a bracket) the address is
refused, so that the receiver ends with an error. -/
theorem listen_ipv6_wrong (s : Settings) (hh : 58 ∈ s.Host) (hb : s.Host.head? ≠ some 91) (hp : 58 ∉ s.Port) :
    Net.splitHostPort s.GetListenAddress = none := by
  obtain ⟨host, port, n, lv, st⟩ := s
  simp only at hh hb hp
  show Net.splitHostPort (host ++ [58] ++ port) = none
  rw [List.append_assoc, List.singleton_append]
  unfold Net.splitHostPort
  split
  · next r e =>
    cases host with
    | nil => simp at hh
    | cons x t =>
      simp only [List.cons_append, List.cons.injEq] at e
      simp [e.1] at hb
  · rw [Uri.cutLast_last 58 host port hp]
    simp only
    rw [if_pos hh]

example : Net.splitHostPort (Settings.GetListenAddress { Host := asc "::1", Port := asc "6000" }) = none := by decide

/-- C100: what works for IPv6: brackets in the configuration file. -/
theorem listen_ipv6_bracketed (s : Settings) (h : Bytes) (hs : s.Host = [91] ++ h ++ [93]) (h1 : 91 ∉ h) (h2 : 93 ∉ h)
    (hp : Unbracketed s.Port) : Net.splitHostPort s.GetListenAddress = some (h, s.Port) := by
  obtain ⟨host, port, n, lv, st⟩ := s
  simp only at hs hp
  subst hs
  obtain ⟨b1, b2, b3⟩ := hp.not_mem
  show Net.splitHostPort ([91] ++ h ++ [93] ++ [58] ++ port) = some (h, port)
  have e : [91] ++ h ++ [93] ++ [58] ++ port = 91 :: (h ++ 93 :: 58 :: port) := by simp
  rw [e]
  unfold Net.splitHostPort
  simp only [Uri.cut_first 93 _ h h2]
  rw [if_neg b1, if_neg (by simp [h1, b2, b3])]

/-! ### C101 -/

/-- C101 (partial): if all configured storages can be initialised, in whatever state the outside is, then the storages in use are the
configured ones, whatever order Go iterates over the map in. Missing: configurations with a storage that cannot be initialised
(`stores_depend_on_order`). -/
theorem stores_fixed_partial {W : Type} (D : Drivers W) (st : List (Bytes × Option Params)) (hne : st ≠ [])
    (hi : ∀ e ∈ st, ∃ kind p, e.2 = some p ∧ (e.1, kind) ∈ storageNames ∧ ∀ w, ∃ w', connectorInit D kind (some p) w = (.ok, w'))
    (o o' : List (Bytes × Option Params)) (ho : o.Perm st) (ho' : o'.Perm st) (w w1 : W) :
    (mainStorages D o w).1.Perm (mainStorages D o' w1).1 ∧ (mainStorages D o w).1.length = st.length ∧
    ∀ name kind p, (name, kind) ∈ storageNames → (name, some p) ∈ st → (kind, p) ∈ (mainStorages D o w).1 := by
  have ex : ∀ (l : List (Bytes × Option Params)), (∀ e ∈ l, e ∈ st) → ∀ w, ∃ regs w', AllInit D l regs w w' := by
    intro l
    induction l with
    | nil => intro _ w; exact ⟨[], w, .nil w⟩
    | cons e l ih =>
      intro hl w
      obtain ⟨name, ps⟩ := e
      obtain ⟨kind, p, h1, h2, h3⟩ := hi (name, ps) (hl _ (by simp))
      obtain ⟨w', h3⟩ := h3 w
      obtain ⟨regs, w'', h4⟩ := ih (fun e he => hl e (by simp [he])) w'
      simp only at h1
      subst h1
      exact ⟨(kind, p) :: regs, w'', .cons h2 h3 h4⟩
  have ok : ∀ (o : List (Bytes × Option Params)), o.Perm st → ∀ w, ∃ regs w', loadStorages D o [] w = ((.ok, regs), w') := by
    intro o ho w
    obtain ⟨regs, w', h⟩ := ex o (fun e he => ho.mem_iff.mp he) w
    exact ⟨regs, w', (load_ok_iff _ _ _ _ _).mpr ⟨fun e => hne (by subst e; simpa using ho), h⟩⟩
  obtain ⟨r1, w1', e1⟩ := ok o ho w
  obtain ⟨r2, w2', e2⟩ := ok o' ho' w1
  have m1 : (mainStorages D o w).1 = r1 := by simp [mainStorages, e1]
  have m2 : (mainStorages D o' w1).1 = r2 := by simp [mainStorages, e2]
  obtain ⟨-, i1⟩ := (load_ok_iff _ _ _ _ _).mp e1
  rw [m1, m2]
  refine ⟨load_order_irrelevant D o o' (ho.trans ho'.symm) _ _ _ _ _ _ e1 e2, ?_, ?_⟩
  · have := congrArg List.length i1.known.2
    simp only [List.length_map] at this
    rw [← this, ho.length_eq]
  · intro name kind p hk hm
    have hm' := List.mem_map_of_mem (f := fun x : Bytes × Option Params => (kindOf x.1, x.2)) (ho.mem_iff.mpr hm)
    rw [i1.known.2] at hm'
    obtain ⟨⟨a, b⟩, h1, h2⟩ := List.mem_map.mp hm'
    simp only [(kindOf_iff name kind).mpr hk, Prod.mk.injEq, Option.some.injEq] at h2
    rw [← h2.1, ← h2.2]
    exact h1

/-- C101 is false of the code: with one storage that can be initialised and one that cannot, it is a matter of the iteration order of
the map whether the first one gets any data. -/
theorem stores_depend_on_order {W : Type} (D : Drivers W) (good bad : Bytes) (kind : Kind) (p : Params) (q : Option Params)
    (hk : (good, kind) ∈ storageNames) (hg : ∀ w, ∃ w', connectorInit D kind (some p) w = (.ok, w'))
    (hb : bad ∉ knownNames ∨ q = none) (w : W) :
    (mainStorages D [(good, some p), (bad, q)] w).1 = [(kind, p), (.log, [])] ∧
    (mainStorages D [(bad, q), (good, some p)] w).1 = [(.log, [])] := by
  have hkind := (kindOf_iff good kind).mpr hk
  have bb : ∀ reg rest w, (∃ e, loadLoop D ((bad, q) :: rest) reg w = ((.err e, reg), w)) := by
    intro reg rest w
    unfold loadLoop
    cases hkb : kindOf bad with
    | none => exact ⟨_, rfl⟩
    | some kb =>
      rcases hb with h | h
      · exact absurd ((kindOf_known bad).mp ⟨kb, hkb⟩) h
      · subst h; exact ⟨.nilConfig, by simp [connectorInit]⟩
  constructor
  · obtain ⟨w', hg⟩ := hg w
    obtain ⟨e, he⟩ := bb [(kind, p)] [] w'
    simp only [mainStorages, loadStorages]
    rw [if_neg (by simp), loadLoop, hkind]
    simp only [hg, Option.getD_some, List.nil_append]
    rw [he]
    rfl
  · obtain ⟨e, he⟩ := bb [] [(good, some p)] w
    simp only [mainStorages, loadStorages]
    rw [if_neg (by simp), he]
    rfl

/-- the hypotheses of both are met: nats, reachable, and a section with a spelling mistake -/
example : (mainStorages (W := Unit) ⟨fun _ _ w => (none, w), fun _ _ _ w => (none, w), fun _ => some []⟩
      [(asc "nats", some []), (asc "rabitmq", some [])] ()).1 = [(.nats, []), (.log, [])] ∧
    (mainStorages (W := Unit) ⟨fun _ _ w => (none, w), fun _ _ _ w => (none, w), fun _ => some []⟩
      [(asc "rabitmq", some []), (asc "nats", some [])] ()).1 = [(.log, [])] :=
  stores_depend_on_order _ (asc "nats") (asc "rabitmq") .nats [] (some []) (by decide) (fun w => ⟨w, rfl⟩) (.inl (by decide)) ()

end Egts
