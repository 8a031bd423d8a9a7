import Verif.Lemmas.Numeral
import Verif.Model.StorageCalls
import Verif.Props.Storage
set_option autoImplicit false
/- C77, C78: what reaches the storages, and the meaning of their options. -/
namespace Egts

/-- client libraries that write down every call; whether the call succeeds is decided by `f` from the calls before it, and
by `g` for connecting -/
def recording (g : Dial → Option Nat) (f : List Call → Call → Option Nat) : Net (List Call) where
  dial d w := (g d, w)
  call c w := (f w c, w ++ [c])

/-- the calls due for one record: one for every storage but the log, in their order -/
def callsDue (toBytes : NavRecord → Option Bytes) (regs : List Registered) (r : NavRecord) : List Call :=
  match toBytes r with
  | none => []
  | some b => regs.filterMap fun (k, p) => callOf k p b

/-- the calls due for a sequence of actions: one group for every record to be saved -/
def allDue (toBytes : NavRecord → Option Bytes) (regs : List Registered) : List Effect → List Call
  | [] => []
  | .write _ :: l => allDue toBytes regs l
  | .save r :: l => callsDue toBytes regs r ++ allDue toBytes regs l

theorem repoSave_calls (g : Dial → Option Nat) (f : List Call → Call → Option Nat) (tb : NavRecord → Option Bytes) (r : NavRecord) :
    ∀ (regs : List Registered) (w : List Call), ∃ t, (repoSave (regs.map ((recording g f).drivers tb).saver) r w).2 = w ++ t ∧
      t <+: callsDue tb regs r ∧
      ((repoSave (regs.map ((recording g f).drivers tb).saver) r w).1 = .ok → t = callsDue tb regs r)
  | [], w => ⟨[], by simp [repoSave], by simp, by simp [callsDue]; cases tb r <;> simp⟩
  | (k, p) :: regs, w => by
    cases hb : tb r with
    | none =>
      refine ⟨[], ?_, by simp, by simp [callsDue, hb]⟩
      have : (((recording g f).drivers tb).saver (k, p)).save r w = (.err .marshal, w) := by
        simp only [Drivers.saver, Net.drivers, hb]
        cases k <;> rfl
      simp [repoSave, this]
    | some b =>
      cases hc : callOf k p b with
      | none =>
        have hk : k = .log := by cases k <;> simp [callOf] at hc ⊢
        subst hk
        have : (((recording g f).drivers tb).saver (.log, p)).save r w = (.ok, w) := by
          simp only [Drivers.saver, Net.drivers, hb]
          rfl
        obtain ⟨t, h1, h2, h3⟩ := repoSave_calls g f tb r regs w
        have hd : callsDue tb ((.log, p) :: regs) r = callsDue tb regs r := by
          simp [callsDue, hb, callOf]
        rw [hd]
        refine ⟨t, ?_, h2, ?_⟩
        · simp only [List.map_cons, repoSave, this]; exact h1
        · simp only [List.map_cons, repoSave, this]; exact h3
      | some c =>
        have hk : k ≠ .log := by rintro rfl; simp [callOf] at hc
        have hd : callsDue tb ((k, p) :: regs) r = c :: callsDue tb regs r := by
          simp [callsDue, hb, hc]
        rw [hd]
        have hsave : (((recording g f).drivers tb).saver (k, p)).save r w =
            (match f w c with
              | none => .ok
              | some e => if k = .redis then .panic else .err (.backend e), w ++ [c]) := by
          have hp : ((recording g f).drivers tb).publish k p b w = (f w c, w ++ [c]) := by
            simp [Net.drivers, hc, recording]
          have ht : ((recording g f).drivers tb).toBytes r = some b := hb
          simp only [Drivers.saver, ht]
          cases hf : f w c with
          | none => rw [hf] at hp; cases k <;> first | exact absurd rfl hk | simp [connectorSave, hp]
          | some e => rw [hf] at hp; cases k <;> first | exact absurd rfl hk | simp [connectorSave, hp]
        cases hf : f w c with
        | none =>
          rw [hf] at hsave
          obtain ⟨t, h1, h2, h3⟩ := repoSave_calls g f tb r regs (w ++ [c])
          refine ⟨c :: t, ?_, ?_, ?_⟩
          · simp only [List.map_cons, repoSave, hsave]
            rw [h1]; simp
          · exact (List.prefix_cons_inj c).mpr h2
          · simp only [List.map_cons, repoSave, hsave]
            intro h; rw [h3 h]
        | some e =>
          rw [hf] at hsave
          simp only at hsave
          refine ⟨[c], ?_, ?_, ?_⟩
          · by_cases hr : k = .redis
            · rw [if_pos hr] at hsave; simp [List.map_cons, repoSave, hsave]
            · rw [if_neg hr] at hsave; simp [List.map_cons, repoSave, hsave]
          · exact (List.prefix_cons_inj c).mpr List.nil_prefix
          · by_cases hr : k = .redis
            · rw [if_pos hr] at hsave; simp [List.map_cons, repoSave, hsave]
            · rw [if_neg hr] at hsave; simp [List.map_cons, repoSave, hsave]

/-- C77: whatever the storages answer, the calls made for the actions of a handler are a subsequence, in order, of one call
per record and storage: nothing else is ever sent to a storage, nothing is sent twice, nothing overtakes. -/
theorem forwarded_sublist (g : Dial → Option Nat) (f : List Call → Call → Option Nat) (tb : NavRecord → Option Bytes)
    (regs : List Registered) : ∀ (l : List Effect) (w : List Call),
    ∃ t, (perform (regs.map ((recording g f).drivers tb).saver) l w).2 = w ++ t ∧ t.Sublist (allDue tb regs l)
  | [], w => ⟨[], by simp [perform], by simp [allDue]⟩
  | .write b :: l, w => by
    obtain ⟨t, h1, h2⟩ := forwarded_sublist g f tb regs l w
    exact ⟨t, by simp only [perform]; exact h1, h2⟩
  | .save r :: l, w => by
    obtain ⟨t, h1, h2, _⟩ := repoSave_calls g f tb r regs w
    rcases h : repoSave (regs.map ((recording g f).drivers tb).saver) r w with ⟨_ | _ | _, w1⟩
    · rw [h] at h1; subst h1
      obtain ⟨t', h3, h4⟩ := forwarded_sublist g f tb regs l (w ++ t)
      refine ⟨t ++ t', ?_, h2.sublist.append h4⟩
      simp only [perform, h]; rw [h3]; simp
    · rw [h] at h1; subst h1
      obtain ⟨t', h3, h4⟩ := forwarded_sublist g f tb regs l (w ++ t)
      refine ⟨t ++ t', ?_, h2.sublist.append h4⟩
      simp only [perform, h]; rw [h3]; simp
    · rw [h] at h1
      refine ⟨t, ?_, h2.sublist.trans (List.sublist_append_left _ _)⟩
      simp only [perform, h]; exact h1

/-- C77: if the storages accept everything and every record can be serialised, every record is handed to every storage,
once and in order. -/
theorem forwarded_all (g : Dial → Option Nat) (tb : NavRecord → Option Bytes) (regs : List Registered)
    (htb : ∀ r, tb r ≠ none) : ∀ (l : List Effect) (w : List Call),
    (perform (regs.map ((recording g fun _ _ => none).drivers tb).saver) l w).2 = w ++ allDue tb regs l
  | [], w => by simp [perform, allDue]
  | .write b :: l, w => by
    have := forwarded_all g tb regs htb l w
    simp only [perform, allDue]; exact this
  | .save r :: l, w => by
    have hok : ∀ (regs : List Registered) (w : List Call),
        (repoSave (regs.map ((recording g fun _ _ => none).drivers tb).saver) r w).1 = .ok := by
      intro regs
      induction regs with
      | nil => intro w; rfl
      | cons kp regs ih =>
        intro w
        obtain ⟨k, p⟩ := kp
        obtain ⟨b, hb⟩ := Option.ne_none_iff_exists'.mp (htb r)
        have hs : ∃ w', (((recording g fun _ _ => none).drivers tb).saver (k, p)).save r w = (.ok, w') := by
          have ht : ((recording g fun _ _ => none).drivers tb).toBytes r = some b := hb
          simp only [Drivers.saver, ht]
          cases k <;> simp [connectorSave, Net.drivers, callOf, recording]
        obtain ⟨w', hs⟩ := hs
        simp only [List.map_cons, repoSave, hs]
        exact ih w'
    obtain ⟨t, h1, _, h3⟩ := repoSave_calls g (fun _ _ => none) tb r regs w
    have ht := h3 (hok regs w)
    subst ht
    rcases h : repoSave (regs.map ((recording g fun _ _ => none).drivers tb).saver) r w with ⟨x, w1⟩
    have hx := hok regs w
    rw [h] at hx h1
    simp only at hx h1
    subst hx; subst h1
    simp only [perform, h, allDue]
    rw [forwarded_all g tb regs htb l]
    simp

/-- C77: where a record goes: the body of the message, or the argument of the query, is the serialised record; the query
text, exchange, key, topic, tube and channel come from the configuration alone. -/
theorem call_shape (tb : NavRecord → Option Bytes) (regs : List Registered) (r : NavRecord) (c : Call) (hc : c ∈ callsDue tb regs r) :
    ∃ p b, tb r = some b ∧
      (((Kind.rabbitmq, p) ∈ regs ∧ c = .amqp (p.str "exchange") (p.str "key") (asc "text/plain") b) ∨
       ((Kind.postgresql, p) ∈ regs ∧ c = .pg (asc "INSERT INTO " ++ p.str "table" ++ asc " (point) VALUES ($1)") b) ∨
       ((Kind.nats, p) ∈ regs ∧ c = .nats (p.str "topic") b) ∨
       ((Kind.nsq, p) ∈ regs ∧ c = .nsq (p.str "topic") b) ∨
       ((Kind.tarantool, p) ∈ regs ∧ c = .tarantool (p.str "queue") b) ∨
       ((Kind.redis, p) ∈ regs ∧ c = .redis (p.str "queue") b)) := by
  unfold callsDue at hc
  cases hb : tb r with
  | none => simp [hb] at hc
  | some b =>
    simp only [hb, List.mem_filterMap] at hc
    obtain ⟨⟨k, p⟩, hm, hc⟩ := hc
    refine ⟨p, b, rfl, ?_⟩
    cases k <;> simp only [callOf, Option.some.injEq, reduceCtorEq] at hc <;> subst hc <;> simp [hm, pgInsert]

/-- two storages, two records and a write: the calls in order -/
example (r1 r2 : NavRecord) (tb : NavRecord → Option Bytes) (h1 : tb r1 = some [1]) (h2 : tb r2 = some [2]) :
    allDue tb [(.nats, [(asc "topic", asc "t")]), (.log, []), (.redis, [(asc "queue", asc "q")])] [.save r1, .write [0], .save r2] =
      [.nats (asc "t") [1], .redis (asc "q") [1], .nats (asc "t") [2], .redis (asc "q") [2]] := by
  simp only [allDue, callsDue, h1, h2]; rfl

/-- C78 (nats): the documented options are used: servers and topic as configured. -/
theorem nats_settings (p : Params) (servers topic : Bytes) (hs : p.get (asc "servers") = some servers)
    (ht : p.get (asc "topic") = some topic) :
    (∃ name ui, dialOf .nats p = some (.nats servers name ui)) ∧ ∀ b, callOf .nats p b = some (.nats topic b) := by
  refine ⟨⟨asc "EGTS handler, topic: " ++ topic, natsUserInfo p, ?_⟩, ?_⟩
  · simp only [dialOf, Params.str, hs, ht, Option.getD_some]
  · simp [callOf, Params.str, ht]

/-- C78 (nats), part: the configured user is presented to the server if a password is configured too. -/
theorem nats_user_partial (p : Params) (u w : Bytes) (hu : p.get (asc "user") = some u) (hw : p.get (asc "password") = some w) :
    ∃ servers name, dialOf .nats p = some (.nats servers name (some (u, w))) := by
  refine ⟨p.str "servers", asc "EGTS handler, topic: " ++ p.str "topic", ?_⟩
  simp only [dialOf, natsUserInfo, hu, hw]

/-- C78 fails for a nats user without a password: the connection is made without a user. -/
theorem nats_user_wrong (p : Params) (hw : p.get (asc "password") = none) :
    ∃ servers name, dialOf .nats p = some (.nats servers name none) := by
  refine ⟨p.str "servers", asc "EGTS handler, topic: " ++ p.str "topic", ?_⟩
  simp only [dialOf, natsUserInfo, hw]
  cases p.get (asc "user") <;> rfl

/-- C78 (nsq), part: the option `server` of the sample configuration is used. -/
theorem nsq_settings_partial (p : Params) (server topic : Bytes) (hs : p.get (asc "server") = some server)
    (ht : p.get (asc "topic") = some topic) :
    dialOf .nsq p = some (.nsq server) ∧ ∀ b, callOf .nsq p b = some (.nsq topic b) := by
  simp [dialOf, callOf, Params.str, hs, ht]

/-- C78 fails for nsq as documented in the connector (nsq/connector.go:9, option `servers`): the address is empty. -/
theorem nsq_documented_wrong (servers topic : Bytes) :
    dialOf .nsq [(asc "servers", servers), (asc "topic", topic)] = some (.nsq []) := by
  simp [dialOf, Params.str, Params.get, asc]

theorem atoi_range {s : Bytes} {m : Int} (h : atoi s = some m) : -9223372036854775808 ≤ m ∧ m ≤ 9223372036854775807 := by
  have key : ∀ (c : Prop) [Decidable c] (n : Int),
      (if c then none else if -9223372036854775808 ≤ n ∧ n ≤ 9223372036854775807 then some n else none) = some m →
      -9223372036854775808 ≤ m ∧ m ≤ 9223372036854775807 := by
    intro c _ n h
    by_cases h1 : c
    · simp [h1] at h
    · rw [if_neg h1] at h
      by_cases h2 : -9223372036854775808 ≤ n ∧ n ≤ 9223372036854775807
      · rw [if_pos h2] at h
        rw [← Option.some.inj h]; exact h2
      · simp [h2] at h
  unfold atoi at h
  exact key _ _ h

/-- C78 (tarantool): address, credentials, and for numbers of seconds that fit an int64 the intervals in nanoseconds. -/
theorem tarantool_settings_partial (p : Params) (host port user pass tube : Bytes) (m t r : Int)
    (hh : p.get (asc "host") = some host) (hp : p.get (asc "port") = some port) (hu : p.get (asc "user") = some user)
    (hw : p.get (asc "password") = some pass) (hq : p.get (asc "queue") = some tube)
    (hm : Numeral (p.str "max_recons") m) (ht : Numeral (p.str "timeout") t) (hr : Numeral (p.str "reconnect") r)
    (hm0 : 0 ≤ m ∧ m ≤ 9223372036854775807) (ht0 : 0 ≤ t ∧ t ≤ 9223372036) (hr0 : 0 ≤ r ∧ r ≤ 9223372036) :
    (∃ (tmo rec : Int64) (mr : UInt64), dialOf .tarantool p = some (.tarantool (host ++ asc ":" ++ port) tmo rec mr user pass) ∧
      tmo.toInt = t * 1000000000 ∧ rec.toInt = r * 1000000000 ∧ (mr.toNat : Int) = m) ∧
    ∀ b, callOf .tarantool p b = some (.tarantool tube b) := by
  have hm := (atoi_iff _ m).mpr ⟨hm, by omega, by omega⟩
  have ht := (atoi_iff _ t).mpr ⟨ht, by omega, by omega⟩
  have hr := (atoi_iff _ r).mpr ⟨hr, by omega, by omega⟩
  have dur : ∀ n : Int, 0 ≤ n ∧ n ≤ 9223372036 → (Int64.ofInt n * 1000000000).toInt = n * 1000000000 := by
    intro n hn
    rw [Int64.toInt_mul, Int64.toInt_ofInt_of_le (by omega) (by omega)]
    rw [show (1000000000 : Int64).toInt = 1000000000 by decide]
    apply Int.bmod_eq_of_le <;> omega
  refine ⟨⟨Int64.ofInt t * 1000000000, Int64.ofInt r * 1000000000, (Int64.ofInt m).toUInt64, ?_, dur t ht0, dur r hr0, ?_⟩, ?_⟩
  · simp only [dialOf, hm, ht, hr]
    simp only [Params.str, hh, hp, hu, hw, Option.getD_some]; rfl
  · have hmax := (atoi_range hm).2
    have : (Int64.ofInt m).toUInt64.toNat = m.toNat := by
      have h1 : (Int64.ofInt m).toInt = m := Int64.toInt_ofInt_of_le (by omega) (by omega)
      have h2 := Int64.toInt_ofNat_of_lt (n := m.toNat) (by omega)
      have : Int64.ofInt m = Int64.ofNat m.toNat := by
        rw [← Int64.toInt_inj, h1, h2]; omega
      rw [this]
      show (UInt64.ofNat m.toNat).toNat = _
      rw [UInt64.toNat_ofNat_of_lt']
      simp only [UInt64.size]; omega
    omega
  · simp [callOf, Params.str, hq]

/-- the hypotheses are met: the sample configuration, configs/receiver.yaml:29-37 -/
example : ∃ (tmo rec : Int64) (mr : UInt64), dialOf .tarantool
    [(asc "host", asc "localhost"), (asc "port", asc "5672"), (asc "user", asc "user"), (asc "password", asc "pass"),
      (asc "max_recons", asc "5"), (asc "timeout", asc "1"), (asc "reconnect", asc "1"), (asc "queue", asc "points")] =
      some (.tarantool (asc "localhost:5672") tmo rec mr (asc "user") (asc "pass")) ∧
    tmo.toInt = 1 * 1000000000 ∧ rec.toInt = 1 * 1000000000 ∧ (mr.toNat : Int) = 5 :=
  (tarantool_settings_partial _ (asc "localhost") (asc "5672") (asc "user") (asc "pass") (asc "points") 5 1 1 rfl rfl rfl rfl rfl
    (by exact .plain _ 5 (.one 5 (by decide))) (by exact .plain _ 1 (.one 1 (by decide))) (by exact .plain _ 1 (.one 1 (by decide))) (by decide) (by decide) (by decide)).1

/-- C78 fails for larger numbers (the interval becomes negative) and for a negative number of reconnects (it becomes
practically unlimited). -/
theorem tarantool_overflow_wrong :
    (∃ a m r u w tmo, dialOf .tarantool [(asc "max_recons", asc "-1"), (asc "timeout", asc "9223372037"), (asc "reconnect", asc "1")] =
      some (.tarantool a tmo r m u w) ∧ tmo.toInt < 0 ∧ m.toNat = 18446744073709551615) :=
  ⟨_, _, _, _, _, _, rfl, by decide, by decide⟩

/-- a redis server as far as PUBLISH goes: the mailboxes of the clients subscribed to a channel (redis documentation,
PUBLISH: the message is delivered to the current subscribers; it succeeds without any) -/
structure PubSub where
  boxes : List (Bytes × List Bytes)

/-- PUBLISH -/
def PubSub.publish (s : PubSub) (channel msg : Bytes) : PubSub :=
  ⟨s.boxes.map fun (c, l) => if c = channel then (c, l ++ [msg]) else (c, l)⟩

/-- libraries in front of such a server -/
def PubSub.net : Net PubSub where
  dial _ w := (none, w)
  call c w :=
    match c with
    | .redis ch m => (none, w.publish ch m)
    | _ => (none, w)

/-- C79 fails: redis is documented as a queue (redis/connector.go:5), but without a consumer connected at that moment a
record is gone although the save succeeds: nothing has changed on the server, so no later consumer can get it. -/
theorem redis_queue_wrong (tb : NavRecord → Option Bytes) (p : Params) (r : NavRecord) (b : Bytes) (s : PubSub)
    (hb : tb r = some b) (hn : ∀ x ∈ s.boxes, x.1 ≠ p.str "queue") :
    repoSave [(PubSub.net.drivers tb).saver (.redis, p)] r s = (.ok, s) := by
  have hs : s.publish (p.str "queue") b = s := by
    cases s with
    | mk boxes =>
      simp only [PubSub.publish, PubSub.mk.injEq]
      rw [List.map_congr_left (g := id) (fun x hx => by simp [if_neg (hn x hx)])]
      simp
  have ht : (PubSub.net.drivers tb).toBytes r = some b := hb
  simp only [repoSave, Drivers.saver, ht]
  simp [connectorSave, Net.drivers, callOf, PubSub.net, hs]

/-- C79 (part): a consumer connected at that moment gets the record, after those sent before. -/
theorem redis_queue_partial (tb : NavRecord → Option Bytes) (p : Params) (r : NavRecord) (b : Bytes) (s : PubSub)
    (hb : tb r = some b) (l : List Bytes) (hm : (p.str "queue", l) ∈ s.boxes) :
    (repoSave [(PubSub.net.drivers tb).saver (.redis, p)] r s).1 = .ok ∧
    (p.str "queue", l ++ [b]) ∈ (repoSave [(PubSub.net.drivers tb).saver (.redis, p)] r s).2.boxes := by
  have h : repoSave [(PubSub.net.drivers tb).saver (.redis, p)] r s = (.ok, s.publish (p.str "queue") b) := by
    have ht : (PubSub.net.drivers tb).toBytes r = some b := hb
    simp only [repoSave, Drivers.saver, ht]
    simp [connectorSave, Net.drivers, callOf, PubSub.net]
  rw [h]
  refine ⟨rfl, ?_⟩
  simp only [PubSub.publish, List.mem_map]
  exact ⟨_, hm, by simp⟩

end Egts
