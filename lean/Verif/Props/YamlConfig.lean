import Verif.Spec.Yaml
import Verif.Lemmas.YamlRead
import Verif.Lemmas.KernelRfl
import Verif.Props.Main
set_option autoImplicit false
/- C118: the text of the configuration file. -/
namespace Egts

open Yaml in
/-- C118: a file says at most one thing -/
theorem file_unique (text : Bytes) (d e : List (Bytes × YamlValue)) (h1 : File text d) (h2 : File text e) : d = e := by
  rw [← readFile_iff] at h1 h2
  rw [h1] at h2
  exact Option.some.inj h2

/-- there is a reader as required -/
theorem conforms_exists : Yaml.Conforms Yaml.readFile := fun _ _ h => (Yaml.readFile_iff _ _).mpr h

/-- the kinds of the values of a document -/
theorem doc_kinds {is : List Yaml.Item} {d : List (Bytes × YamlValue)} (h : Yaml.Doc is d) : ∀ x ∈ d,
    (x.1 = asc "conn_ttl" ∧ ∃ n, x.2 = .num n) ∨ (x.1 = asc "storage" ∧ ∃ l, x.2 = .sec l) ∨
      (x.1 ≠ asc "conn_ttl" ∧ x.1 ≠ asc "storage" ∧ ∃ b, x.2 = .str b) := by
  induction h with
  | nil => simp
  | text k v p is d h1 h2 _ ih =>
    intro x hx
    rcases List.mem_cons.mp hx with rfl | hx
    · exact .inr (.inr ⟨h1, h2, _, rfl⟩)
    · exact ih x hx
  | ttl v n is d _ _ _ ih =>
    intro x hx
    rcases List.mem_cons.mp hx with rfl | hx
    · exact .inl ⟨rfl, _, rfl⟩
    · exact ih x hx
  | storage n ss is l d _ _ _ _ ih =>
    intro x hx
    rcases List.mem_cons.mp hx with rfl | hx
    · exact .inr (.inl ⟨rfl, _, rfl⟩)
    · exact ih x hx

/-- what a field takes from the document -/
def Field {α : Type} (doc : List (Bytes × YamlValue)) (k : Bytes) (mk : α → YamlValue) (zero value : α) : Prop :=
  (∀ a, (k, mk a) ∈ doc → value = a) ∧ (k ∉ doc.map (·.1) → value = zero)

theorem field_cons {α : Type} {doc : List (Bytes × YamlValue)} {k k0 : Bytes} {v0 : YamlValue} {mk : α → YamlValue} {zero value one : α}
    (hn : k0 ∉ doc.map (·.1)) (h : Field doc k mk one value) (h1 : k0 ≠ k → one = zero) (h2 : ∀ a, k0 = k → v0 = mk a → one = a) :
    Field ((k0, v0) :: doc) k mk zero value := by
  refine ⟨?_, ?_⟩
  · intro a ha
    rcases List.mem_cons.mp ha with he | ha
    · cases he
      rw [h.2 hn]; exact h2 a rfl rfl
    · exact h.1 a ha
  · intro hk
    simp only [List.map_cons, List.mem_cons, not_or] at hk
    rw [h.2 hk.2]; exact h1 (Ne.symm hk.1)

theorem ofYaml_go (doc : List (Bytes × YamlValue)) (hn : (doc.map (·.1)).Nodup) (hk : ∀ x ∈ doc,
      (x.1 = asc "conn_ttl" ∧ ∃ n, x.2 = .num n) ∨ (x.1 = asc "storage" ∧ ∃ l, x.2 = .sec l) ∨
        (x.1 ≠ asc "conn_ttl" ∧ x.1 ≠ asc "storage" ∧ ∃ b, x.2 = .str b)) :
    ∀ (s0 : Settings), ∃ s, (doc.foldlM (init := s0) fun s (k, v) =>
    if k = asc "host" then match v with
      | .str b => some { s with Host := b }
      | _ => none
    else if k = asc "port" then match v with
      | .str b => some { s with Port := b }
      | _ => none
    else if k = asc "conn_ttl" then match v with
      | .num n => some { s with ConnTTl := n }
      | _ => none
    else if k = asc "log_level" then match v with
      | .str b => some { s with LogLevel := b }
      | _ => none
    else if k = asc "storage" then match v with
      | .sec l => some { s with Store := l }
      | _ => none
    else some s) = some s ∧ Field doc (asc "host") .str s0.Host s.Host ∧ Field doc (asc "port") .str s0.Port s.Port ∧
      Field doc (asc "conn_ttl") .num s0.ConnTTl s.ConnTTl ∧ Field doc (asc "log_level") .str s0.LogLevel s.LogLevel ∧
      Field doc (asc "storage") .sec s0.Store s.Store := by
  have e : asc "host" ≠ asc "port" ∧ asc "host" ≠ asc "conn_ttl" ∧ asc "host" ≠ asc "log_level" ∧ asc "host" ≠ asc "storage" ∧
      asc "port" ≠ asc "host" ∧ asc "port" ≠ asc "conn_ttl" ∧ asc "port" ≠ asc "log_level" ∧ asc "port" ≠ asc "storage" ∧
      asc "conn_ttl" ≠ asc "host" ∧ asc "conn_ttl" ≠ asc "port" ∧ asc "conn_ttl" ≠ asc "log_level" ∧ asc "conn_ttl" ≠ asc "storage" ∧
      asc "log_level" ≠ asc "host" ∧ asc "log_level" ≠ asc "port" ∧ asc "log_level" ≠ asc "conn_ttl" ∧ asc "log_level" ≠ asc "storage" ∧
      asc "storage" ≠ asc "host" ∧ asc "storage" ≠ asc "port" ∧ asc "storage" ≠ asc "conn_ttl" ∧ asc "storage" ≠ asc "log_level" := by decide
  induction doc with
  | nil => intro s0; exact ⟨s0, rfl, by simp [Field]⟩
  | cons x doc ih =>
    obtain ⟨k, v⟩ := x
    simp only [List.map_cons, List.nodup_cons] at hn
    intro s0
    have ih := ih hn.2 (fun x hx => hk x (List.mem_cons_of_mem _ hx))
    have hv := hk (k, v) List.mem_cons_self
    simp only [List.foldlM_cons]
    by_cases k1 : k = asc "host"
    · subst k1
      simp only [e, false_and, false_or, ne_eq, not_false_eq_true, true_and] at hv
      obtain ⟨b, rfl⟩ := hv
      simp only [if_true]
      obtain ⟨s, h, f1, f2, f3, f4, f5⟩ := ih { s0 with Host := b }
      exact ⟨s, h, field_cons hn.1 f1 (by simp) (by simp), field_cons hn.1 f2 (by simp) (by simp [e]), field_cons hn.1 f3 (by simp) (by simp),
        field_cons hn.1 f4 (by simp) (by simp [e]), field_cons hn.1 f5 (by simp) (by simp)⟩
    by_cases k2 : k = asc "port"
    · subst k2
      simp only [e, false_and, false_or, ne_eq, not_false_eq_true, true_and] at hv
      obtain ⟨b, rfl⟩ := hv
      simp only [if_true, e, if_false]
      obtain ⟨s, h, f1, f2, f3, f4, f5⟩ := ih { s0 with Port := b }
      exact ⟨s, h, field_cons hn.1 f1 (by simp) (by simp [e]), field_cons hn.1 f2 (by simp) (by simp), field_cons hn.1 f3 (by simp) (by simp),
        field_cons hn.1 f4 (by simp) (by simp [e]), field_cons hn.1 f5 (by simp) (by simp)⟩
    by_cases k3 : k = asc "conn_ttl"
    · subst k3
      simp only [e, false_and, or_false, ne_eq, not_true_eq_false, true_and] at hv
      obtain ⟨b, rfl⟩ := hv
      simp only [if_true, e, if_false]
      obtain ⟨s, h, f1, f2, f3, f4, f5⟩ := ih { s0 with ConnTTl := b }
      exact ⟨s, h, field_cons hn.1 f1 (by simp) (by simp), field_cons hn.1 f2 (by simp) (by simp), field_cons hn.1 f3 (by simp) (by simp),
        field_cons hn.1 f4 (by simp) (by simp), field_cons hn.1 f5 (by simp) (by simp)⟩
    by_cases k4 : k = asc "log_level"
    · subst k4
      simp only [e, false_and, false_or, ne_eq, not_false_eq_true, true_and] at hv
      obtain ⟨b, rfl⟩ := hv
      simp only [if_true, e, if_false]
      obtain ⟨s, h, f1, f2, f3, f4, f5⟩ := ih { s0 with LogLevel := b }
      exact ⟨s, h, field_cons hn.1 f1 (by simp) (by simp [e]), field_cons hn.1 f2 (by simp) (by simp [e]), field_cons hn.1 f3 (by simp) (by simp),
        field_cons hn.1 f4 (by simp) (by simp), field_cons hn.1 f5 (by simp) (by simp)⟩
    by_cases k5 : k = asc "storage"
    · subst k5
      simp only [e, false_and, false_or, or_false, ne_eq, not_true_eq_false, not_false_eq_true, true_and] at hv
      obtain ⟨b, rfl⟩ := hv
      simp only [if_true, e, if_false]
      obtain ⟨s, h, f1, f2, f3, f4, f5⟩ := ih { s0 with Store := b }
      exact ⟨s, h, field_cons hn.1 f1 (by simp) (by simp), field_cons hn.1 f2 (by simp) (by simp), field_cons hn.1 f3 (by simp) (by simp),
        field_cons hn.1 f4 (by simp) (by simp), field_cons hn.1 f5 (by simp) (by simp)⟩
    · simp only [k1, k2, k3, k4, k5, if_false]
      obtain ⟨s, h, f1, f2, f3, f4, f5⟩ := ih s0
      exact ⟨s, h, field_cons hn.1 f1 (by simp) (by simp [k1]), field_cons hn.1 f2 (by simp) (by simp [k2]), field_cons hn.1 f3 (by simp) (by simp [k3]),
        field_cons hn.1 f4 (by simp) (by simp [k4]), field_cons hn.1 f5 (by simp) (by simp [k5])⟩

/-- C118: every file of the described form is accepted, whatever the order of its lines; each of the five settings is the value under its key,
or empty (0 for the ttl) if the key is not there; other keys have no influence. -/
theorem file_settings (text : Bytes) (doc : List (Bytes × YamlValue)) (h : Yaml.File text doc) :
    ∃ s, Settings.ofYaml doc = some s ∧
      ((∀ b, (asc "host", .str b) ∈ doc → s.Host = b) ∧ (asc "host" ∉ doc.map (·.1) → s.Host = [])) ∧
      ((∀ b, (asc "port", .str b) ∈ doc → s.Port = b) ∧ (asc "port" ∉ doc.map (·.1) → s.Port = [])) ∧
      ((∀ n, (asc "conn_ttl", .num n) ∈ doc → s.ConnTTl = n) ∧ (asc "conn_ttl" ∉ doc.map (·.1) → s.ConnTTl = 0)) ∧
      ((∀ b, (asc "log_level", .str b) ∈ doc → s.LogLevel = b) ∧ (asc "log_level" ∉ doc.map (·.1) → s.LogLevel = [])) ∧
      ((∀ l, (asc "storage", .sec l) ∈ doc → s.Store = l) ∧ (asc "storage" ∉ doc.map (·.1) → s.Store = [])) := by
  obtain ⟨ls, is, -, -, hd, hn⟩ := h
  exact ofYaml_go doc hn (doc_kinds hd) {}

section
variable {W : Type} (file : Bytes → Option Bytes) (yaml : Bytes → Option (List (Bytes × YamlValue)))
  (order : List (Bytes × Option Params) → List (Bytes × Option Params)) (D : Drivers W) (listen : Bytes → Bool)

/-- C118: with a file that sets the five keys, in any order, with any comments, indentation and quotation, the receiver listens at host:port, has a
timer of `n` seconds, logs at the level, and has the storages of the file if all of them can be initialised (in whatever order Go takes them). -/
theorem file_configured (hy : Yaml.Conforms yaml) (ho : ∀ l, (order l).Perm l) (path text : Bytes) (doc : List (Bytes × YamlValue)) (hp : path ≠ [])
    (hf : file path = some text) (hd : Yaml.File text doc) (host port level : Bytes) (n : Nat) (st : List (Bytes × Option Params))
    (h1 : (asc "host", .str host) ∈ doc) (h2 : (asc "port", .str port) ∈ doc) (h3 : (asc "conn_ttl", .num (Int64.ofNat n)) ∈ doc)
    (h4 : (asc "log_level", .str level) ∈ doc) (h5 : (asc "storage", .sec st) ∈ doc)
    (hn : n * 1000000000 < 9223372036854775808) (hl : listen (host ++ asc ":" ++ port) = true) (hs : st ≠ [])
    (w w' : W) (regs : List Registered) (hi : AllInit D (order st) regs w w') :
    ∃ s : Serving, receiverMain (fun p => (file p).bind yaml) order D listen path w = (.serves s, w') ∧ s.addr = host ++ asc ":" ++ port ∧
      s.ttl.toInt = n * 1000000000 ∧ s.stores = regs ∧
      (level = asc "DEBUG" → s.level = .debug) ∧ (level = asc "INFO" → s.level = .info) ∧ (level = asc "WARN" → s.level = .warn) ∧
      (level = asc "ERROR" → s.level = .error) ∧ (level ∉ [asc "DEBUG", asc "INFO", asc "WARN", asc "ERROR"] → s.level = .info) := by
  obtain ⟨cfg, hc, c1, c2, c3, c4, c5⟩ := file_settings text doc hd
  have hN : (Int64.ofNat n).toInt = n := by
    rw [Int64.toInt_ofNat_of_lt (by omega)]
  refine ⟨⟨cfg.GetLogLevel, cfg.GetListenAddress, cfg.GetEmptyConnTTL, regs⟩, ?_, ?_, ?_, rfl, ?_⟩
  · unfold receiverMain
    rw [if_neg hp]
    simp only [hf, Option.bind_some, hy text doc hd, hc, c5.1 _ h5]
    have hm : mainStorages D (order st) w = (regs, w') := by
      unfold mainStorages
      rw [(load_ok_iff D (order st) regs w w').mpr ⟨fun e => hs (by have := ho st; rw [e] at this; exact this.nil_eq.symm), hi⟩]
    rw [hm]
    simp only
    rw [if_pos (by rw [listen_address, c1.1 _ h1, c2.1 _ h2]; exact hl)]
  · show cfg.GetListenAddress = _
    rw [listen_address, c1.1 _ h1, c2.1 _ h2]
  · show cfg.GetEmptyConnTTL.toInt = _
    rw [conn_ttl_seconds cfg (by rw [c3.1 _ h3, hN]; omega) (by rw [c3.1 _ h3, hN]; omega), c3.1 _ h3, hN]
  · have := log_level cfg
    rw [c4.1 _ h4] at this
    exact this

/-- C118: if the file sets no storage, the records go to the log; the storages of other files (or none) play no role. -/
theorem file_without_storage (hy : Yaml.Conforms yaml) (ho : ∀ l, (order l).Perm l) (path text : Bytes) (doc : List (Bytes × YamlValue)) (hp : path ≠ [])
    (hf : file path = some text) (hd : Yaml.File text doc) (host port : Bytes)
    (h1 : (asc "host", .str host) ∈ doc) (h2 : (asc "port", .str port) ∈ doc)
    (h5 : (asc "storage", .sec []) ∈ doc ∨ asc "storage" ∉ doc.map (·.1)) (hl : listen (host ++ asc ":" ++ port) = true) (w : W) :
    ∃ s : Serving, receiverMain (fun p => (file p).bind yaml) order D listen path w = (.serves s, w) ∧ s.addr = host ++ asc ":" ++ port ∧
      s.stores = [(.log, [])] := by
  obtain ⟨cfg, hc, c1, c2, c3, c4, c5⟩ := file_settings text doc hd
  have hst : cfg.Store = [] := h5.elim (c5.1 _) c5.2
  refine ⟨⟨cfg.GetLogLevel, cfg.GetListenAddress, cfg.GetEmptyConnTTL, [(.log, [])]⟩, ?_, ?_, rfl⟩
  · unfold receiverMain
    rw [if_neg hp]
    simp only [hf, Option.bind_some, hy text doc hd, hc, hst]
    rw [(ho []).eq_nil]
    have hm : mainStorages D [] w = ([(.log, [])], w) := rfl
    rw [hm]
    simp only
    rw [if_pos (by rw [listen_address, c1.1 _ h1, c2.1 _ h2]; exact hl)]
  · show cfg.GetListenAddress = _
    rw [listen_address, c1.1 _ h1, c2.1 _ h2]

end

/-! ### files that exist -/

/-- configs/receiver.yaml, the file that is shipped -/
def shippedFile : Bytes :=
  asc "host: \"127.0.0.1\"\n" ++
  asc "port: \"6000\"\n" ++
  asc "con_live_sec: 10\n" ++
  asc "log_level: \"DEBUG\"\n" ++
  asc "\n" ++
  asc "storage:\n" ++
  asc "#  rabbitmq:\n" ++
  asc "#    host: \"localhost\"\n" ++
  asc "#    port: \"5672\"\n" ++
  asc "#    user: \"guest\"\n" ++
  asc "#    password: \"guest\"\n" ++
  asc "#    exchange: \"receiver\"\n" ++
  asc "#  postgresql:\n" ++
  asc "#    host: \"localhost\"\n" ++
  asc "#    port: \"5432\"\n" ++
  asc "#    user: \"postgres\"\n" ++
  asc "#    password: \"postgres\"\n" ++
  asc "#    database: \"receiver\"\n" ++
  asc "#    table: \"points\"\n" ++
  asc "#    sslmode: \"disable\"\n" ++
  asc "#  redis:\n" ++
  asc "#    server: \"redis:6379\"\n" ++
  asc "#    queue: \"egts\"\n" ++
  asc "#    password: \"\"\n" ++
  asc "#    db: \"0\"\n" ++
  asc "#  nats:\n" ++
  asc "#    plugin: \"nats.so\"\n" ++
  asc "#    servers: \"nats://localhost:1222, nats://localhost:1223, nats://localhost:1224\"\n" ++
  asc "#    topic: \"receiver\"\n" ++
  asc "#  tarantool_queue:\n" ++
  asc "#    host: \"localhost\"\n" ++
  asc "#    port: \"5672\"\n" ++
  asc "#    user: \"user\"\n" ++
  asc "#    password: \"pass\"\n" ++
  asc "#    max_recons: 5\n" ++
  asc "#    timeout: 1\n" ++
  asc "#    reconnect: 1\n" ++
  asc "#    queue: \"points\"\n" ++
  asc "#  nsq:\n" ++
  asc "#    topic: \"nsq.egts.raw\"\n" ++
  asc "#    server: \"127.0.0.1:4150\"\n"

/-- what it says -/
theorem shipped_file : Yaml.File shippedFile [(asc "host", .str (asc "127.0.0.1")), (asc "port", .str (asc "6000")),
    (asc "con_live_sec", .str (asc "10")), (asc "log_level", .str (asc "DEBUG")), (asc "storage", .sec [])] :=
  (Yaml.readFile_iff _ _).mp (by kernel_rfl)

/-- C118: with the shipped file the receiver listens at 127.0.0.1:6000, logs everything but traces, writes the records to its log, and its
timer for connections is 0, not 10 seconds: the file has `con_live_sec: 10`, which is ignored (C60; the timer has no effect in any case, C48). -/
theorem shipped_configuration {W : Type} (file : Bytes → Option Bytes) (yaml : Bytes → Option (List (Bytes × YamlValue))) (hy : Yaml.Conforms yaml)
    (order : List (Bytes × Option Params) → List (Bytes × Option Params)) (ho : ∀ l, (order l).Perm l) (D : Drivers W) (listen : Bytes → Bool)
    (path : Bytes) (hp : path ≠ []) (hf : file path = some shippedFile) (hl : listen (asc "127.0.0.1:6000") = true) (w : W) :
    receiverMain (fun p => (file p).bind yaml) order D listen path w =
      (.serves ⟨.debug, asc "127.0.0.1:6000", 0, [(.log, [])]⟩, w) := by
  unfold receiverMain
  rw [if_neg hp]
  have hc : Settings.ofYaml [(asc "host", .str (asc "127.0.0.1")), (asc "port", .str (asc "6000")), (asc "con_live_sec", .str (asc "10")),
      (asc "log_level", .str (asc "DEBUG")), (asc "storage", .sec [])] = some ⟨asc "127.0.0.1", asc "6000", 0, asc "DEBUG", []⟩ := by kernel_rfl
  simp only [hf, Option.bind_some, hy _ _ shipped_file, hc]
  rw [(ho []).eq_nil]
  have ha : Settings.GetListenAddress ⟨asc "127.0.0.1", asc "6000", 0, asc "DEBUG", []⟩ = asc "127.0.0.1:6000" := by decide +kernel
  rw [ha]
  have hm : mainStorages D [] w = ([(.log, [])], w) := rfl
  have h1 : Settings.GetLogLevel ⟨asc "127.0.0.1", asc "6000", 0, asc "DEBUG", []⟩ = .debug := by decide +kernel
  have h2 : Settings.GetEmptyConnTTL ⟨asc "127.0.0.1", asc "6000", 0, asc "DEBUG", []⟩ = 0 := by decide +kernel
  rw [hm, h1, h2]
  simp only [hl, if_true]

/-- the file of cli/receiver/config/config_test.go:11-32 -/
def testFile : Bytes :=
  asc "host: \"127.0.0.1\"\n" ++
  asc "port: \"5020\"\n" ++
  asc "conn_ttl: 10\n" ++
  asc "log_level: \"DEBUG\"\n" ++
  asc "\n" ++
  asc "storage:\n" ++
  asc "  rabbitmq:\n" ++
  asc "    host: \"localhost\"\n" ++
  asc "    port: \"5672\"\n" ++
  asc "    user: \"guest\"\n" ++
  asc "    password: \"guest\"\n" ++
  asc "    exchange: \"receiver\"\n" ++
  asc "  postgresql:\n" ++
  asc "    host: \"localhost\"\n" ++
  asc "    port: \"5432\"\n" ++
  asc "    user: \"postgres\"\n" ++
  asc "    password: \"postgres\"\n" ++
  asc "    database: \"receiver\"\n" ++
  asc "    table: \"points\"\n" ++
  asc "    sslmode: \"disable\"\n"

/-- C118: the test of the code, for every YAML library that conforms -/
theorem test_file (yaml : Bytes → Option (List (Bytes × YamlValue))) (hy : Yaml.Conforms yaml) : (yaml testFile).bind Settings.ofYaml =
    some ⟨asc "127.0.0.1", asc "5020", 10, asc "DEBUG",
      [(asc "rabbitmq", some [(asc "host", asc "localhost"), (asc "port", asc "5672"), (asc "user", asc "guest"), (asc "password", asc "guest"),
        (asc "exchange", asc "receiver")]),
       (asc "postgresql", some [(asc "host", asc "localhost"), (asc "port", asc "5432"), (asc "user", asc "postgres"), (asc "password", asc "postgres"),
        (asc "database", asc "receiver"), (asc "table", asc "points"), (asc "sslmode", asc "disable")])]⟩ := by
  have h : Yaml.File testFile [(asc "host", .str (asc "127.0.0.1")), (asc "port", .str (asc "5020")), (asc "conn_ttl", .num 10),
      (asc "log_level", .str (asc "DEBUG")), (asc "storage", .sec [
       (asc "rabbitmq", some [(asc "host", asc "localhost"), (asc "port", asc "5672"), (asc "user", asc "guest"), (asc "password", asc "guest"),
        (asc "exchange", asc "receiver")]),
       (asc "postgresql", some [(asc "host", asc "localhost"), (asc "port", asc "5432"), (asc "user", asc "postgres"), (asc "password", asc "postgres"),
        (asc "database", asc "receiver"), (asc "table", asc "points"), (asc "sslmode", asc "disable")])])] :=
    (Yaml.readFile_iff _ _).mp (by kernel_rfl)
  rw [hy _ _ h]
  show Settings.ofYaml _ = _
  kernel_rfl

/-- comments, CR LF, other indentation, apostrophes, plain texts, another order, no end of the last line -/
def oddFile : Bytes :=
  asc "# receiver\r\nstorage: # where to\r\n nats:\n      topic: 'a \"b\"'   # x\n\n # y\n      servers: nats://localhost:1222\r\n" ++
  asc "port: 6000\nunknown: \"1\"\nlog_level:   WARN\n   \nconn_ttl: 30 # s\nhost: '0.0.0.0'"

theorem odd_file : Yaml.File oddFile [(asc "storage", .sec [(asc "nats", some [(asc "topic", asc "a \"b\""), (asc "servers", asc "nats://localhost:1222")])]),
    (asc "port", .str (asc "6000")), (asc "unknown", .str (asc "1")), (asc "log_level", .str (asc "WARN")), (asc "conn_ttl", .num 30),
    (asc "host", .str (asc "0.0.0.0"))] :=
  (Yaml.readFile_iff _ _).mp (by kernel_rfl)

/-- the hypotheses of `file_configured` are met -/
example : ∃ s : Serving, receiverMain (W := Unit) (fun p => (if p = asc "r.yaml" then some oddFile else none).bind Yaml.readFile) id
    ⟨fun _ _ w => (none, w), fun _ _ _ w => (none, w), fun _ => some []⟩ (fun _ => true) (asc "r.yaml") () = (.serves s, ()) ∧
    s.addr = asc "0.0.0.0" ++ asc ":" ++ asc "6000" ∧ s.ttl.toInt = 30 * 1000000000 ∧
    s.stores = [(.nats, [(asc "topic", asc "a \"b\""), (asc "servers", asc "nats://localhost:1222")])] ∧ s.level = .warn := by
  obtain ⟨s, h, h1, h2, h3, -, -, h4, -⟩ := file_configured (fun p => if p = asc "r.yaml" then some oddFile else none) Yaml.readFile id
    ⟨fun _ _ w => (none, w), fun _ _ _ w => (none, w), fun _ => some []⟩ (fun _ => true) conforms_exists (fun l => List.Perm.refl l) (asc "r.yaml") oddFile
    _ (by decide) (by simp) odd_file (asc "0.0.0.0") (asc "6000") (asc "WARN") 30
    [(asc "nats", some [(asc "topic", asc "a \"b\""), (asc "servers", asc "nats://localhost:1222")])]
    (by simp) (by simp) (by simp) (by simp) (by simp) (by decide) rfl (by simp) () ()
    [(.nats, [(asc "topic", asc "a \"b\""), (asc "servers", asc "nats://localhost:1222")])]
    (.cons (by decide +kernel) (by kernel_rfl) (.nil ()))
  exact ⟨s, h, h1, h2, h3, h4 rfl⟩

/-- a tab as indentation is not of this form -/
example : ¬ ∃ doc, Yaml.File (asc "storage:\n\tnats:\n\t\ttopic: a\n") doc := by
  rintro ⟨doc, h⟩
  rw [← Yaml.readFile_iff] at h
  have : (Yaml.readFile (asc "storage:\n\tnats:\n\t\ttopic: a\n")).isSome = false := by decide +kernel
  rw [h] at this
  cases this

end Egts
