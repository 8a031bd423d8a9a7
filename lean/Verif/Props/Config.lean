import Verif.Model.Config
set_option autoImplicit false
/- C54: configuration accessors. -/
namespace Egts

/-- C54, ttl: conn_ttl seconds in nanoseconds, for every conn_ttl for which this number fits 64 bits with sign. -/
theorem conn_ttl_seconds (s : Settings) (h1 : -9223372036854775808 ≤ s.ConnTTl.toInt * 1000000000)
    (h2 : s.ConnTTl.toInt * 1000000000 ≤ 9223372036854775807) :
    s.GetEmptyConnTTL.toInt = s.ConnTTl.toInt * 1000000000 := by
  unfold Settings.GetEmptyConnTTL
  rw [Int64.toInt_mul]
  have : (1000000000 : Int64).toInt = 1000000000 := by decide
  rw [this]
  exact Int.bmod_eq_of_le (by omega) (by omega)

/-- ten seconds (test) -/
example : Settings.GetEmptyConnTTL { ConnTTl := 10 } = 10000000000 := by decide

/-- C54: the bound is sharp: one second more and the ttl becomes negative, i.e. every timer fires at once. -/
theorem conn_ttl_overflow : (Settings.GetEmptyConnTTL { ConnTTl := 9223372037 }).toInt < 0 := by decide

/-- C54, address: host, a colon, port. -/
theorem listen_address (s : Settings) : s.GetListenAddress = s.Host ++ asc ":" ++ s.Port := by
  have : asc ":" = [58] := by decide
  rw [this]; rfl

/-- C54, the address determines host and port when the port contains no colon (split
at the last colon; what `net.Listen` makes of the address is C100: a bare IPv6 host is refused). -/
theorem listen_address_unique (s t : Settings) (hs : 58 ∉ s.Port) (ht : 58 ∉ t.Port)
    (h : s.GetListenAddress = t.GetListenAddress) : s.Host = t.Host ∧ s.Port = t.Port := by
  unfold Settings.GetListenAddress at h
  have key : ∀ (a b c d : Bytes), 58 ∉ c → 58 ∉ d → c.reverse ++ 58 :: a = d.reverse ++ 58 :: b → c.reverse = d.reverse ∧ a = b := by
    intro a b c d hc hd
    have hc' : 58 ∉ c.reverse := by simpa using hc
    have hd' : 58 ∉ d.reverse := by simpa using hd
    generalize c.reverse = c at hc'
    generalize d.reverse = d at hd'
    clear hc hd
    induction c generalizing d with
    | nil =>
      intro h
      cases d with
      | nil => simpa using h
      | cons x d =>
        simp only [List.nil_append, List.cons_append, List.cons.injEq] at h
        exact absurd (by rw [h.1]; simp) hd'
    | cons x c ih =>
      intro h
      cases d with
      | nil =>
        simp only [List.nil_append, List.cons_append, List.cons.injEq] at h
        exact absurd (by rw [h.1]; simp) hc'
      | cons y d =>
        simp only [List.cons_append, List.cons.injEq] at h
        obtain ⟨h1, h2⟩ := ih (by simp at hc'; exact hc'.2) d (by simp at hd'; exact hd'.2) h.2
        exact ⟨by rw [h.1, h1], h2⟩
  have h' := congrArg List.reverse h
  simp only [List.reverse_append, List.reverse_cons, List.nil_append, List.append_assoc, List.cons_append] at h'
  obtain ⟨h1, h2⟩ := key _ _ _ _ hs ht h'
  exact ⟨by simpa using h2, by simpa using h1⟩

/-- C54, log level: the four names select their level; every other text, including the empty one, selects INFO. -/
theorem log_level (s : Settings) :
    (s.LogLevel = asc "DEBUG" → s.GetLogLevel = .debug) ∧ (s.LogLevel = asc "INFO" → s.GetLogLevel = .info) ∧
    (s.LogLevel = asc "WARN" → s.GetLogLevel = .warn) ∧ (s.LogLevel = asc "ERROR" → s.GetLogLevel = .error) ∧
    (s.LogLevel ∉ [asc "DEBUG", asc "INFO", asc "WARN", asc "ERROR"] → s.GetLogLevel = .info) := by
  refine ⟨?_, ?_, ?_, ?_, ?_⟩
  · intro h; unfold Settings.GetLogLevel; rw [h]; decide
  · intro h; unfold Settings.GetLogLevel; rw [h]; decide
  · intro h; unfold Settings.GetLogLevel; rw [h]; decide
  · intro h; unfold Settings.GetLogLevel; rw [h]; decide
  · intro h
    simp only [List.mem_cons, List.not_mem_nil, or_false, not_or] at h
    unfold Settings.GetLogLevel
    rw [if_neg h.1, if_neg h.2.1, if_neg h.2.2.1, if_neg h.2.2.2]

/-- lower case is not recognised (test) -/
example : Settings.GetLogLevel { LogLevel := asc "debug" } = .info := by decide

/-- every error of the server is logged at every level that can be configured -/
theorem errors_always_logged (s : Settings) : LogLevel.num .error ≤ s.GetLogLevel.num := by
  unfold Settings.GetLogLevel
  repeat' split
  all_goals decide

/-- the keys are pairwise different -/
theorem yaml_keys : asc "host" = [104, 111, 115, 116] ∧ asc "port" = [112, 111, 114, 116] ∧
    asc "conn_ttl" = [99, 111, 110, 110, 95, 116, 116, 108] ∧ asc "log_level" = [108, 111, 103, 95, 108, 101, 118, 101, 108] ∧
    asc "storage" = [115, 116, 111, 114, 97, 103, 101] ∧
    asc "con_live_sec" = [99, 111, 110, 95, 108, 105, 118, 101, 95, 115, 101, 99] := by decide

/-- C60 is false of the code: a file whose keys are those of the shipped configs/receiver.yaml and of README.md:78-81
(`con_live_sec` instead of `conn_ttl`) leaves the ttl 0, whatever its values are. -/
theorem sample_config_ttl (host port level : Bytes) (n : Int64) (st : List (Bytes × Option Params)) :
    (Settings.ofYaml [(asc "host", .str host), (asc "port", .str port), (asc "con_live_sec", .num n),
      (asc "log_level", .str level), (asc "storage", .sec st)]).map (·.GetEmptyConnTTL) = some 0 := by
  obtain ⟨h1, h2, h3, h4, h5, h6⟩ := yaml_keys
  simp [Settings.ofYaml, h1, h2, h3, h4, h5, h6, Settings.GetEmptyConnTTL]

/-- C60 (partial): with the key `conn_ttl` the configured numbers and texts are used. Missing: the key of the documentation. -/
theorem config_values_partial (host port level : Bytes) (n : Int64) (st : List (Bytes × Option Params)) :
    Settings.ofYaml [(asc "host", .str host), (asc "port", .str port), (asc "conn_ttl", .num n),
      (asc "log_level", .str level), (asc "storage", .sec st)] = some ⟨host, port, n, level, st⟩ := by
  obtain ⟨h1, h2, h3, h4, h5, h6⟩ := yaml_keys
  simp [Settings.ofYaml, h1, h2, h3, h4, h5, h6]

end Egts
