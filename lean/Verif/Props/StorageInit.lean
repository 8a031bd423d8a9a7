import Verif.Props.Forward
import Verif.Props.Storage
import Verif.Lemmas.Numeral
set_option autoImplicit false
/- C113: which configuration sections a storage can be initialised with, and what it does to the world outside. -/
namespace Egts

/-- the section has an option `key` whose value is a decimal number in the range of a 64 bit integer -/
def HasNumber (p : Params) (key : String) : Prop :=
  ∃ (s : Bytes) (n : Int), (asc key, s) ∈ p ∧ p.find? (·.1 = asc key) = some (asc key, s) ∧ Numeral s n ∧ -2 ^ 63 ≤ n ∧ n < 2 ^ 63

/-- the section has an option `key` (of any value, the empty one included) -/
def HasOption (p : Params) (key : String) : Prop := ∃ s : Bytes, (asc key, s) ∈ p

/-- what initialising a storage comes to. `tried`: a connection was attempted, `w'`: the world afterwards. -/
inductive InitSays {W : Type} (N : Net W) : Kind → Option Params → W → Bool → W → Prop
  /-- rabbitmq, postgresql, nats and nsq ask for no option: the server decides -/
  | dialled (kind : Kind) (p : Params) (d : Dial) (w w' : W) (hk : kind ∈ [Kind.rabbitmq, .postgresql, .nats, .nsq])
      (hd : dialOf kind p = some d) (h : N.dial d w = (none, w')) : InitSays N kind (some p) w true w'
  /-- tarantool needs three numbers, and then the server decides -/
  | tarantool (p : Params) (d : Dial) (w w' : W) (hm : HasNumber p "max_recons") (ht : HasNumber p "timeout")
      (hr : HasNumber p "reconnect") (hd : dialOf .tarantool p = some d) (h : N.dial d w = (none, w')) :
      InitSays N .tarantool (some p) w true w'
  /-- redis needs a server, a database number and a queue, and contacts nobody -/
  | redis (p : Params) (w : W) (hs : HasOption p "server") (hd : HasNumber p "db") (hq : HasOption p "queue") :
      InitSays N .redis (some p) w false w
  /-- the log storage needs a section, of any contents -/
  | log (p : Params) (w : W) : InitSays N .log (some p) w false w

theorem Params.get_find {p : Params} {k s : Bytes} : p.get k = some s ↔ p.find? (·.1 = k) = some (k, s) := by
  unfold Params.get
  constructor
  · intro h
    cases hf : p.find? (·.1 = k) with
    | none => rw [hf] at h; simp at h
    | some e =>
      rw [hf] at h
      have := List.find?_some hf
      simp only [Option.map_some, Option.some.injEq] at h
      obtain ⟨a, b⟩ := e
      simp_all
  · intro h
    rw [h]; rfl

theorem Params.get_mem {p : Params} {k s : Bytes} (h : p.get k = some s) : (k, s) ∈ p :=
  List.mem_of_find?_eq_some (Params.get_find.mp h)

theorem Params.get_some_iff {p : Params} {k : Bytes} : (∃ s, p.get k = some s) ↔ ∃ s, (k, s) ∈ p := by
  constructor
  · rintro ⟨s, h⟩
    exact ⟨s, Params.get_mem h⟩
  · rintro ⟨s, h⟩
    unfold Params.get
    cases hf : p.find? (·.1 = k) with
    | none => exact absurd (List.find?_eq_none.mp hf _ h) (by simp)
    | some e => exact ⟨e.2, rfl⟩

/-- an option is a number exactly if `Atoi` reads it -/
theorem hasNumber_iff (p : Params) (key : String) : HasNumber p key ↔ ∃ n, atoi (p.str key) = some n := by
  constructor
  · rintro ⟨s, n, -, hf, hn, h1, h2⟩
    refine ⟨n, (atoi_iff _ _).mpr ?_⟩
    rw [show p.str key = s by simp [Params.str, Params.get_find.mpr hf]]
    exact ⟨hn, by omega, by omega⟩
  · rintro ⟨n, h⟩
    have h' := (atoi_iff _ _).mp h
    cases hg : p.get (asc key) with
    | none =>
      rw [show p.str key = [] by simp [Params.str, hg]] at h
      exact absurd h (by simp [atoi])
    | some s =>
      rw [show p.str key = s by simp [Params.str, hg]] at h'
      exact ⟨s, n, Params.get_mem hg, Params.get_find.mp hg, h'.1, by omega, by omega⟩

/-- **C113.** A storage is initialised exactly if its options are there and the server lets it connect; then the world has
changed by nothing but the connection. -/
theorem init_ok_iff {W : Type} (N : Net W) (tb : NavRecord → Option Bytes) (kind : Kind) (cfg : Option Params) (w w' : W) :
    connectorInit (N.drivers tb) kind cfg w = (.ok, w') ↔ ∃ tried, InitSays N kind cfg w tried w' := by
  cases cfg with
  | none =>
    constructor
    · intro h; simp [connectorInit] at h
    · rintro ⟨_, h⟩; cases h
  | some p =>
    have dial : ∀ kind ∈ [Kind.rabbitmq, .postgresql, .nats, .nsq], ∃ d, dialOf kind p = some d ∧
        connectorInit (N.drivers tb) kind (some p) w =
          (match N.dial d w with | (none, w) => (.ok, w) | (some e, w) => (.err (.backend e), w)) := by
      intro kind hk
      simp only [List.mem_cons, List.not_mem_nil, or_false] at hk
      rcases hk with rfl | rfl | rfl | rfl <;> exact ⟨_, rfl, rfl⟩
    have useDial : ∀ kind ∈ [Kind.rabbitmq, .postgresql, .nats, .nsq],
        (connectorInit (N.drivers tb) kind (some p) w = (.ok, w') ↔ ∃ tried, InitSays N kind (some p) w tried w') := by
      intro kind hk
      obtain ⟨d, hd, he⟩ := dial kind hk
      rw [he]
      constructor
      · intro h
        rcases hN : N.dial d w with ⟨_ | e, w1⟩
        · rw [hN] at h
          simp only [Prod.mk.injEq, true_and] at h
          exact ⟨true, .dialled kind p d w w' hk hd (h ▸ hN)⟩
        · rw [hN] at h; simp at h
      · rintro ⟨_, h⟩
        cases h with
        | dialled _ _ _ _ _ hk' hd' hN' =>
          rw [hd] at hd'; cases hd'
          rw [hN']
        | tarantool => simp at hk
        | redis => simp at hk
        | log => simp at hk
    cases kind with
    | rabbitmq => exact useDial _ (by simp)
    | postgresql => exact useDial _ (by simp)
    | nats => exact useDial _ (by simp)
    | nsq => exact useDial _ (by simp)
    | log =>
      constructor
      · intro h
        simp only [connectorInit, Prod.mk.injEq, true_and] at h
        exact ⟨false, h ▸ .log p w⟩
      · rintro ⟨_, h⟩
        cases h with
        | dialled _ _ _ _ _ hk => simp at hk
        | log => rfl
    | redis =>
      constructor
      · intro h
        cases hi : redisInit (some p) with
        | error e => simp [connectorInit, hi] at h
        | ok c =>
          have hw : w = w' := by simpa [connectorInit, hi] using h
          subst hw
          refine ⟨false, .redis p w ?_ ?_ ?_⟩
          · apply Params.get_some_iff.mp
            cases hs : p.get (asc "server") with
            | none => simp [redisInit, hs] at hi
            | some s => exact ⟨s, rfl⟩
          · apply (hasNumber_iff p "db").mpr
            cases hs : p.get (asc "server") with
            | none => simp [redisInit, hs] at hi
            | some s =>
              cases hn : atoi (p.str "db") with
              | none =>
                unfold Params.str at hn
                simp [redisInit, hs, hn] at hi
              | some n => exact ⟨n, rfl⟩
          · apply Params.get_some_iff.mp
            cases hs : p.get (asc "server") with
            | none => simp [redisInit, hs] at hi
            | some s =>
              cases hq : p.get (asc "queue") with
              | some q => exact ⟨q, rfl⟩
              | none =>
                exfalso
                cases hn : atoi ((p.get (asc "db")).getD []) <;> simp [redisInit, hs, hn, hq] at hi
      · rintro ⟨_, h⟩
        cases h with
        | dialled _ _ _ _ _ hk => simp at hk
        | redis _ _ hs hd hq =>
          obtain ⟨s, hs⟩ := Params.get_some_iff.mpr hs
          obtain ⟨q, hq⟩ := Params.get_some_iff.mpr hq
          obtain ⟨n, hn⟩ := (hasNumber_iff p "db").mp hd
          unfold Params.str at hn
          simp [connectorInit, redisInit, hs, hn, hq]
    | tarantool =>
      constructor
      · intro h
        simp only [connectorInit] at h
        cases hm : atoi ((p.get (asc "max_recons")).getD []) with
        | none => simp [hm] at h
        | some m =>
        cases ht : atoi ((p.get (asc "timeout")).getD []) with
        | none => simp [hm, ht] at h
        | some t =>
        cases hr : atoi ((p.get (asc "reconnect")).getD []) with
        | none => simp [hm, ht, hr] at h
        | some r =>
        cases hd : dialOf .tarantool p with
        | none => simp [dialOf, Params.str, hm, ht, hr] at hd
        | some d =>
        rw [hm, ht, hr] at h
        simp only [Net.drivers, hd] at h
        refine ⟨true, .tarantool p d w w' ?_ ?_ ?_ hd ?_⟩
        · exact (hasNumber_iff p _).mpr ⟨m, hm⟩
        · exact (hasNumber_iff p _).mpr ⟨t, ht⟩
        · exact (hasNumber_iff p _).mpr ⟨r, hr⟩
        · rcases hN : N.dial d w with ⟨_ | e, w1⟩
          · rw [hN] at h
            simp only [Prod.mk.injEq, true_and] at h
            rw [h]
          · rw [hN] at h; simp at h
      · rintro ⟨_, h⟩
        cases h with
        | dialled _ _ _ _ _ hk => simp at hk
        | tarantool d _ _ _ hm ht hr hd h =>
          obtain ⟨m, hm⟩ := (hasNumber_iff p _).mp hm
          obtain ⟨t, ht⟩ := (hasNumber_iff p _).mp ht
          obtain ⟨r, hr⟩ := (hasNumber_iff p _).mp hr
          unfold Params.str at hm ht hr
          simp only [connectorInit, hm, ht, hr, Net.drivers, hd, h]

/-- an initialisation never panics: it succeeds or reports an error -/
theorem init_no_panic {W : Type} (D : Drivers W) (kind : Kind) (cfg : Option Params) (w : W) :
    (∃ w', connectorInit D kind cfg w = (.ok, w')) ∨ ∃ e w', connectorInit D kind cfg w = (.err e, w') := by
  unfold connectorInit
  cases cfg with
  | none => exact .inr ⟨_, _, rfl⟩
  | some p => cases kind <;> (simp only []; repeat' split) <;> simp

/-- without a section nothing is contacted, and without its numbers tarantool is not -/
theorem init_untried {W : Type} (D : Drivers W) (kind : Kind) (cfg : Option Params) (w : W)
    (h : cfg = none ∨ kind = .redis ∨ kind = .log ∨
      ∃ p, cfg = some p ∧ kind = .tarantool ∧ ∃ key ∈ ["max_recons", "timeout", "reconnect"], ¬ HasNumber p key) :
    (connectorInit D kind cfg w).2 = w := by
  rcases h with rfl | rfl | rfl | ⟨p, rfl, rfl, key, hk, hn⟩
  · rfl
  · cases cfg with
    | none => rfl
    | some p => simp only [connectorInit]; split <;> rfl
  · cases cfg <;> rfl
  · have hn' : atoi (p.str key) = none := by
      cases ha : atoi (p.str key) with
      | none => rfl
      | some n => exact absurd ((hasNumber_iff p key).mpr ⟨n, ha⟩) hn
    simp only [List.mem_cons, List.not_mem_nil, or_false] at hk
    unfold Params.str at hn'
    simp only [connectorInit]
    split
    · rename_i hm ht hr
      rcases hk with rfl | rfl | rfl <;> simp_all
    · rfl

/-- the tarantool section documented in tarantool_queue/connector.go:8-15 -/
def sampleTarantool : Params :=
  [(asc "host", asc "localhost"), (asc "port", asc "5672"), (asc "user", asc "user"), (asc "password", asc "pass"),
   (asc "max_recons", asc "5"), (asc "timeout", asc "1"), (asc "reconnect", asc "1"), (asc "queue", asc "points")]

/-- the documented section is enough: whether the storage starts is up to the server -/
theorem tarantool_documented {W : Type} (N : Net W) (tb : NavRecord → Option Bytes) (w w' : W) :
    connectorInit (N.drivers tb) .tarantool (some sampleTarantool) w = (.ok, w') ↔
      N.dial (.tarantool (asc "localhost:5672") 1000000000 1000000000 5 (asc "user") (asc "pass")) w = (none, w') := by
  have e : connectorInit (N.drivers tb) .tarantool (some sampleTarantool) w =
      (match N.dial (.tarantool (asc "localhost:5672") 1000000000 1000000000 5 (asc "user") (asc "pass")) w with
        | (none, w) => (.ok, w) | (some e, w) => (.err (.backend e), w)) := by
    have hd : dialOf .tarantool sampleTarantool =
        some (.tarantool (asc "localhost:5672") 1000000000 1000000000 5 (asc "user") (asc "pass")) := by decide +kernel
    have h1 : atoi ((sampleTarantool.get (asc "max_recons")).getD []) = some 5 := by decide +kernel
    have h2 : atoi ((sampleTarantool.get (asc "timeout")).getD []) = some 1 := by decide +kernel
    have h3 : atoi ((sampleTarantool.get (asc "reconnect")).getD []) = some 1 := by decide +kernel
    simp only [connectorInit, h1, h2, h3, Net.drivers, hd]
    rfl
  rw [e]
  rcases hN : N.dial (.tarantool (asc "localhost:5672") 1000000000 1000000000 5 (asc "user") (asc "pass")) w with ⟨_ | x, w1⟩ <;> simp

/-- the redis section documented in redis/connector.go:9-12 -/
example : HasOption [(asc "server", asc "localhost:6379"), (asc "queue", asc "egts"), (asc "password", []), (asc "db", asc "0")] "server" ∧
    HasNumber [(asc "server", asc "localhost:6379"), (asc "queue", asc "egts"), (asc "password", []), (asc "db", asc "0")] "db" := by
  constructor
  · exact ⟨asc "localhost:6379", by simp⟩
  · exact (hasNumber_iff _ _).mpr ⟨0, by decide +kernel⟩

end Egts
