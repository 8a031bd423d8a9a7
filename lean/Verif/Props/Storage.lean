import Verif.Lemmas.Numeral
import Verif.Spec.Storage
import Verif.Props.ServerEx
set_option autoImplicit false
/- C50 - C53, C43: storages. -/
namespace Egts

/-! ### C50 -/

/-- C50: Save returns nil exactly if every registered storage accepted the record, each called once, in order of
registration. -/
theorem save_ok_iff {W : Type} (ss : List (Saver W)) (m : NavRecord) (w w' : W) :
    repoSave ss m w = (.ok, w') ↔ AllAccept m ss w w' := by
  constructor
  · induction ss generalizing w with
    | nil => intro h; cases h; exact .nil _
    | cons s ss ih =>
      intro h
      unfold repoSave at h
      split at h
      · rename_i w1 hs
        exact .cons hs (ih w1 h)
      · rename_i r w1 hne hs
        cases h
        exact (hne rfl).elim
  · intro h
    induction h with
    | nil w => rfl
    | cons h _ ih => unfold repoSave; rw [h]; exact ih

/-- C50: Save returns the error `e` (or panics) exactly if some storage does so for the record after all storages registered
before it accepted it; the storages registered after it are not called (the external world is the one
left by the failing call). -/
theorem save_fails_iff {W : Type} (ss : List (Saver W)) (m : NavRecord) (w w' : W) (r : Ret) (hr : r ≠ .ok) :
    repoSave ss m w = (r, w') ↔
      ∃ before s after w1, ss = before ++ s :: after ∧ AllAccept m before w w1 ∧ s.save m w1 = (r, w') := by
  constructor
  · induction ss generalizing w with
    | nil => intro h; cases h; exact absurd rfl hr
    | cons s ss ih =>
      intro h
      unfold repoSave at h
      split at h
      · rename_i w1 hs
        obtain ⟨before, s', after, w2, rfl, h1, h2⟩ := ih w1 h
        exact ⟨s :: before, s', after, w2, rfl, .cons hs h1, h2⟩
      · rename_i r' w1 hne hs
        cases h
        exact ⟨[], s, ss, w, rfl, .nil w, hs⟩
  · rintro ⟨before, s, after, w1, rfl, h1, h2⟩
    induction h1 with
    | nil w =>
      rw [List.nil_append]; unfold repoSave; rw [h2]
      cases r with
      | ok => exact absurd rfl hr
      | err e => rfl
      | panic => rfl
    | cons h _ ih => rw [List.cons_append]; unfold repoSave; rw [h]; exact ih h2

/-- three storages, the second refuses: the first one has stored the record, the third one is not asked (test). -/
example : repoSave [⟨fun _ (w : List Nat) => (.ok, 1 :: w)⟩, ⟨fun _ w => (.err (.backend 7), w)⟩, ⟨fun _ w => (.ok, 3 :: w)⟩] {} [] =
    (.err (.backend 7), [1]) := rfl

/-! ### C51 -/

theorem kindOf_iff (name : Bytes) (kind : Kind) : kindOf name = some kind ↔ (name, kind) ∈ storageNames := by
  unfold kindOf storageNames
  simp only [List.mem_cons, List.not_mem_nil, or_false, Prod.mk.injEq]
  constructor
  · intro h
    repeat' split at h
    all_goals first
      | (injection h with h; subst h; simp_all)
      | cases h
  · rintro (⟨rfl, rfl⟩ | ⟨rfl, rfl⟩ | ⟨rfl, rfl⟩ | ⟨rfl, rfl⟩ | ⟨rfl, rfl⟩ | ⟨rfl, rfl⟩) <;> decide

theorem loadLoop_ok {W : Type} (D : Drivers W) (entries : List (Bytes × Option Params)) (reg reg' : List Registered) (w w' : W) :
    loadLoop D entries reg w = ((.ok, reg'), w') ↔ ∃ regs, reg' = reg ++ regs ∧ AllInit D entries regs w w' := by
  constructor
  · induction entries generalizing reg w with
    | nil => intro h; cases h; exact ⟨[], by simp, .nil _⟩
    | cons e rest ih =>
      obtain ⟨name, params⟩ := e
      intro h
      unfold loadLoop at h
      split at h
      · cases h
      · rename_i kind hk
        split at h
        · rename_i w1 hi
          obtain ⟨regs, rfl, h1⟩ := ih _ _ h
          cases params with
          | none => simp [connectorInit] at hi
          | some p => exact ⟨(kind, p) :: regs, by simp, .cons ((kindOf_iff _ _).mp hk) hi h1⟩
        · rename_i r w1 hne hi
          cases h
          exact (hne rfl).elim
  · rintro ⟨regs, rfl, h⟩
    induction h generalizing reg with
    | nil w => simp [loadLoop]
    | cons hk h _ ih =>
      have hk := (kindOf_iff _ _).mpr hk
      unfold loadLoop
      rw [hk]
      simp only [h, Option.getD_some]
      rw [ih]
      simp

/-- C51: loading succeeds exactly if something is configured and every configured storage is known and could be
initialised; then exactly the configured storages are registered (in iteration order), each with its own
parameters. -/
theorem load_ok_iff {W : Type} (D : Drivers W) (entries : List (Bytes × Option Params)) (regs : List Registered) (w w' : W) :
    loadStorages D entries [] w = ((.ok, regs), w') ↔ entries ≠ [] ∧ AllInit D entries regs w w' := by
  unfold loadStorages
  by_cases h : entries = []
  · subst h; simp
  · rw [if_neg (by simpa using h), loadLoop_ok]
    simp [h]

/-- C51: an empty section is an error -/
theorem load_empty {W : Type} (D : Drivers W) (w : W) : loadStorages D [] [] w = ((.err .invalidStorage, []), w) := rfl

theorem AllInit.known {W : Type} {D : Drivers W} {entries : List (Bytes × Option Params)} {regs : List Registered} {w w' : W}
    (h : AllInit D entries regs w w') : (∀ x ∈ entries, ∃ k, kindOf x.1 = some k) ∧
      entries.map (fun x => (kindOf x.1, x.2)) = regs.map (fun r => (some r.1, some r.2)) := by
  induction h with
  | nil w => simp
  | cons hk h _ ih =>
    have hk := (kindOf_iff _ _).mpr hk
    refine ⟨?_, by simp [hk, ih.2]⟩
    intro x hx
    rcases List.mem_cons.mp hx with rfl | hx
    · exact ⟨_, hk⟩
    · exact ih.1 x hx

theorem kindOf_known (name : Bytes) : (∃ k, kindOf name = some k) ↔ name ∈ knownNames := by
  simp only [kindOf_iff, knownNames, List.mem_map, Prod.exists]
  exact ⟨fun ⟨k, h⟩ => ⟨name, k, h, rfl⟩, fun ⟨_, k, h, e⟩ => ⟨k, e ▸ h⟩⟩

/-- C51: a name that is not one of the six is an error, whatever else is configured and in whatever order the map is
iterated. -/
theorem load_unknown {W : Type} (D : Drivers W) (entries : List (Bytes × Option Params)) (name : Bytes) (params : Option Params)
    (hm : (name, params) ∈ entries) (hu : name ∉ knownNames) (w : W) : (loadStorages D entries [] w).1.1 ≠ .ok := by
  intro h
  rcases hl : loadStorages D entries [] w with ⟨⟨r, regs⟩, w'⟩
  rw [hl] at h
  simp only at h
  subst h
  obtain ⟨-, hi⟩ := (load_ok_iff D entries regs w w').mp hl
  exact hu ((kindOf_known name).mp (hi.known.1 _ hm))

/-- C51: whatever the iteration order of the map, two successful loads of the same configuration register the same
storages with the same parameters. -/
theorem load_order_irrelevant {W : Type} (D : Drivers W) (entries entries' : List (Bytes × Option Params)) (hp : entries.Perm entries')
    (regs regs' : List Registered) (w w1 w' w1' : W) (h : loadStorages D entries [] w = ((.ok, regs), w1))
    (h' : loadStorages D entries' [] w' = ((.ok, regs'), w1')) : regs.Perm regs' := by
  obtain ⟨-, hi⟩ := (load_ok_iff _ _ _ _ _).mp h
  obtain ⟨-, hi'⟩ := (load_ok_iff _ _ _ _ _).mp h'
  have h1 : (regs.map fun r => (some r.1, some r.2)).Perm (regs'.map fun r => (some r.1, some r.2)) := by
    rw [← hi.known.2, ← hi'.known.2]
    exact hp.map _
  refine (List.map_perm_map_iff ?_).mp h1
  rintro ⟨a, b⟩ ⟨c, d⟩ he
  simpa using he

/-- C51: the program never runs without a storage: after a failed load the last storage is the log storage, which
accepts every record that can be marshalled; after a successful load all configured storages are registered. -/
theorem main_has_storage {W : Type} (D : Drivers W) (entries : List (Bytes × Option Params)) (w : W) :
    ((loadStorages D entries [] w).1.1 = .ok → (mainStorages D entries w).1 = (loadStorages D entries [] w).1.2 ∧
      (mainStorages D entries w).1.length = entries.length ∧ (mainStorages D entries w).1 ≠ []) ∧
    ((loadStorages D entries [] w).1.1 ≠ .ok → ∃ before, (mainStorages D entries w).1 = before ++ [(.log, [])]) ∧
    (∀ m w1, D.toBytes m ≠ none → (D.saver (.log, [])).save m w1 = (.ok, w1)) := by
  rcases hl : loadStorages D entries [] w with ⟨⟨r, regs⟩, w'⟩
  refine ⟨?_, ?_, ?_⟩
  · intro h
    simp only at h
    subst h
    obtain ⟨hne, hi⟩ := (load_ok_iff D entries regs w w').mp hl
    have hlen : regs.length = entries.length := by
      have := congrArg List.length hi.known.2
      simpa using this.symm
    unfold mainStorages
    rw [hl]
    refine ⟨rfl, hlen, ?_⟩
    intro h0
    apply hne
    simp only at h0
    rw [h0] at hlen
    exact List.length_eq_zero_iff.mp hlen.symm
  · intro h
    unfold mainStorages
    rw [hl]
    cases r with
    | ok => exact absurd rfl h
    | err e => exact ⟨regs, rfl⟩
    | panic => exact ⟨regs, rfl⟩
  · intro m w1 hm
    cases h : D.toBytes m with
    | none => exact absurd h hm
    | some b => simp [Drivers.saver, connectorSave, h]

/-- README: without a storage section every record goes to the log and nowhere else. -/
theorem main_default_log {W : Type} (D : Drivers W) (w : W) : mainStorages D [] w = ([(.log, [])], w) := rfl

/-- a configuration with two storages that loads (test): both backends are reachable. -/
example : loadStorages (W := Unit) ⟨fun _ _ w => (none, w), fun _ _ _ w => (none, w), fun _ => some []⟩
    [(asc "nats", some [(asc "topic", asc "t")]),
      (asc "redis", some [(asc "server", asc "h:1"), (asc "db", asc "0"), (asc "queue", asc "egts")])] [] () =
    ((.ok, [(.nats, [(asc "topic", asc "t")]),
      (.redis, [(asc "server", asc "h:1"), (asc "db", asc "0"), (asc "queue", asc "egts")])]), ()) := by kernel_rfl

/-! ### C52 -/

/-- C52 is false of the code: without `db` the redis storage cannot be initialised at all, whatever the other
parameters are (the test for a missing `db` looks at the wrong variable). -/
theorem redis_db_default_wrong (p : Params) (addr : Bytes) (hs : p.get (asc "server") = some addr) (hd : p.get (asc "db") = none) :
    redisInit (some p) = .error .badDb := by
  unfold redisInit
  simp only [hs, hd]
  rfl

/-- C52 (partial): an explicit `db` that is a decimal number (of the range of int64) is used. Missing: the
default (`redis_db_default_wrong`). -/
theorem redis_db_partial (p : Params) (addr db queue : Bytes) (n : Int) (hs : p.get (asc "server") = some addr)
    (hd : p.get (asc "db") = some db) (hn : Numeral db n) (hr : -9223372036854775808 ≤ n ∧ n ≤ 9223372036854775807)
    (hq : p.get (asc "queue") = some queue) : redisInit (some p) = .ok ⟨addr, (p.get (asc "password")).getD [], n, queue⟩ := by
  have hn := (atoi_iff db n).mpr ⟨hn, hr⟩
  unfold redisInit
  simp [hs, hd, hn, hq]

/-- the hypotheses are met: database 12 -/
example : redisInit (some [(asc "server", asc "localhost:6379"), (asc "db", asc "12"), (asc "queue", asc "egts")]) =
    .ok ⟨asc "localhost:6379", [], 12, asc "egts"⟩ :=
  redis_db_partial _ (asc "localhost:6379") (asc "12") (asc "egts") 12 rfl rfl
    (.plain _ 12 (.snoc [49] 1 2 (.one 1 (by decide)) (by decide))) (by decide) rfl

/-- C52: every other configuration error is reported as well: the storage is initialised only with server, queue and a
decimal `db`. -/
theorem redis_init_ok (p : Params) (c : RedisClient) (h : redisInit (some p) = .ok c) :
    p.get (asc "server") = some c.addr ∧ p.get (asc "queue") = some c.queue ∧
      ∃ db, p.get (asc "db") = some db ∧ Numeral db c.db := by
  suffices hh : p.get (asc "server") = some c.addr ∧ p.get (asc "queue") = some c.queue ∧
      ∃ db, p.get (asc "db") = some db ∧ atoi db = some c.db by
    obtain ⟨a, b, db, hd, e⟩ := hh
    exact ⟨a, b, db, hd, ((atoi_iff db c.db).mp e).1⟩
  unfold redisInit at h
  simp only at h
  split at h
  · cases h
  · rename_i addr hs
    split at h
    · cases h
    · rename_i n hn
      split at h
      · cases h
      · rename_i q hq
        cases h
        refine ⟨hs, hq, ?_⟩
        cases hd : p.get (asc "db") with
        | none => rw [hd] at hn; cases hn
        | some db => exact ⟨db, rfl, by rw [hd] at hn; exact hn⟩

/-! ### C53 -/

/-- C53 (partial): for every storage but redis, every message and every backend failure, Save returns an error and does
not panic; in particular a failed publication is reported. Missing: redis (`redis_save_panics`). -/
theorem save_reports_partial {W : Type} (kind : Kind) (hk : kind ≠ .redis) (publish : Driver W) (msg : Option (Option Bytes)) (w : W) :
    (connectorSave kind publish msg w).1 ≠ .panic ∧
    (∀ b e w', kind ≠ .log → msg = some (some b) → publish b w = (some e, w') →
      connectorSave kind publish msg w = (.err (.backend e), w')) ∧
    (∀ b w', kind ≠ .log → msg = some (some b) → publish b w = (none, w') → connectorSave kind publish msg w = (.ok, w')) := by
  refine ⟨?_, ?_, ?_⟩
  · cases msg with
    | none => cases kind <;> simp [connectorSave]
    | some m =>
      cases m with
      | none => cases kind <;> simp [connectorSave]
      | some b =>
        rcases hp : publish b w with ⟨_ | e, w'⟩
        · cases kind <;> simp [connectorSave, hp]
        · cases kind <;> first | exact absurd rfl hk | simp [connectorSave, hp]
  · rintro b e w' hl rfl hp
    cases kind <;> first | exact absurd rfl hk | exact absurd rfl hl | simp [connectorSave, hp]
  · rintro b w' hl rfl hp
    cases kind <;> first | exact absurd rfl hk | exact absurd rfl hl | simp [connectorSave, hp]

/-- C53 is false of the code: the redis storage panics whenever the publication of a message fails. -/
theorem redis_save_panics {W : Type} (publish : Driver W) (b : Bytes) (w w' : W) (e : Nat) (hp : publish b w = (some e, w')) :
    connectorSave .redis publish (some (some b)) w = (.panic, w') := by
  simp [connectorSave, hp]

end Egts
