import Verif.Model.StorageCalls
import Verif.Spec.ConnString
import Verif.Lemmas.KernelRfl
set_option autoImplicit false
/- C75-C78: what the storages hand to their client libraries. -/
namespace Egts

namespace Pq

theorem go_val (k : Bytes) : ∀ (v v0 s : Bytes), (∀ c ∈ v, isSpace c = false ∧ c ≠ 39 ∧ c ≠ 92 ∧ c < 128) →
    go (.val k v0) (v ++ 32 :: s) = (go .skip s).map ((k, v0 ++ v) :: ·)
  | [], v0, s, _ => by simp [go, isSpace]
  | c :: v, v0, s, h => by
    have hc := h c (by simp)
    rw [List.cons_append]
    simp only [go, hc.1, hc.2.2.1, if_false, Bool.false_eq_true]
    rw [go_val k v (v0 ++ [c]) s (fun d hd => h d (by simp [hd]))]
    simp

theorem go_val_end (k : Bytes) : ∀ (v v0 : Bytes), (∀ c ∈ v, isSpace c = false ∧ c ≠ 39 ∧ c ≠ 92 ∧ c < 128) →
    go (.val k v0) v = some [(k, v0 ++ v)]
  | [], v0, _ => by simp [go]
  | c :: v, v0, h => by
    have hc := h c (by simp)
    simp only [go, hc.1, hc.2.2.1, if_false, Bool.false_eq_true]
    rw [go_val_end k v (v0 ++ [c]) (fun d hd => h d (by simp [hd]))]
    simp

theorem go_val0 (k v s : Bytes) (h : Plain v) : go (.val0 k) (v ++ 32 :: s) = (go .skip s).map ((k, v) :: ·) := by
  cases v with
  | nil => exact absurd rfl h.1
  | cons c v =>
    have hc := h.2 c (by simp)
    rw [List.cons_append]
    simp only [go, hc.1, hc.2.1, hc.2.2.1, if_false, Bool.false_eq_true]
    rw [go_val k v [c] s (fun d hd => h.2 d (by simp [hd]))]
    rfl

theorem go_val0_end (k v : Bytes) (h : Plain v) : go (.val0 k) v = some [(k, v)] := by
  cases v with
  | nil => exact absurd rfl h.1
  | cons c v =>
    have hc := h.2 c (by simp)
    simp only [go, hc.1, hc.2.1, hc.2.2.1, if_false, Bool.false_eq_true]
    rw [go_val_end k v [c] (fun d hd => h.2 d (by simp [hd]))]
    rfl

theorem go_key : ∀ (w k s : Bytes), (∀ c ∈ w, isSpace c = false ∧ c ≠ 61) →
    go (.key k) (w ++ 61 :: s) = go (.val0 (k ++ w)) s
  | [], k, s, _ => by simp [go]
  | c :: w, k, s, h => by
    have hc := h c (by simp)
    rw [List.cons_append]
    simp only [go, hc.1, hc.2, if_false, Bool.false_eq_true]
    rw [go_key w (k ++ [c]) s (fun d hd => h d (by simp [hd]))]
    simp

theorem go_skip (c : UInt8) (w s : Bytes) (hs : ∀ d ∈ c :: w, isSpace d = false ∧ d ≠ 61) :
    go .skip (c :: w ++ 61 :: s) = go (.val0 (c :: w)) s := by
  have hc := hs c (by simp)
  rw [List.cons_append]
  simp only [go, hc.1, hc.2, if_false, Bool.false_eq_true]
  rw [go_key w [c] s (fun d hd => hs d (by simp [hd]))]
  rfl

/-- one setting with a plain value, followed by others -/
theorem go_setting (c : UInt8) (w v s : Bytes) (hs : ∀ d ∈ c :: w, isSpace d = false ∧ d ≠ 61) (hv : Plain v) :
    go .skip (c :: w ++ 61 :: (v ++ 32 :: s)) = (go .skip s).map ((c :: w, v) :: ·) := by
  rw [go_skip c w _ hs, go_val0 _ _ _ hv]

end Pq

/-- the connection text as a sequence of settings -/
theorem pgDsn_eq (p : Params) : pgDsn p =
    asc "dbname" ++ 61 :: (p.str "database" ++ 32 :: (asc "host" ++ 61 :: (p.str "host" ++ 32 :: (asc "port" ++ 61 ::
    (p.str "port" ++ 32 :: (asc "user" ++ 61 :: (p.str "user" ++ 32 :: (asc "password" ++ 61 :: (p.str "password" ++ 32 ::
    (asc "sslmode" ++ 61 :: p.str "sslmode")))))))))) := by
  simp [pgDsn, asc, List.append_assoc]

theorem pg_key (s : String) (c : UInt8) (w : Bytes) (h : asc s = c :: w)
    (hs : ∀ d ∈ asc s, isSpace d = false ∧ d ≠ 61) : ∀ d ∈ c :: w, isSpace d = false ∧ d ≠ 61 := h ▸ hs

/-- C75 (part): if every configured value is plain, PostgreSQL is contacted with exactly the six configured values. Missing:
empty values and values with white space, quotes or backslashes (see the next theorems). -/
theorem pg_settings_partial (p : Params) (hd : Pq.Plain (p.str "database")) (hh : Pq.Plain (p.str "host"))
    (hp : Pq.Plain (p.str "port")) (hu : Pq.Plain (p.str "user")) (hw : Pq.Plain (p.str "password"))
    (hm : Pq.Plain (p.str "sslmode")) :
    Pq.parse (pgDsn p) = some [(asc "dbname", p.str "database"), (asc "host", p.str "host"), (asc "port", p.str "port"),
      (asc "user", p.str "user"), (asc "password", p.str "password"), (asc "sslmode", p.str "sslmode")] := by
  rw [pgDsn_eq]
  show Pq.go .skip _ = _
  rw [show asc "dbname" = 100 :: [98, 110, 97, 109, 101] by decide, Pq.go_setting _ _ _ _ (by decide) hd,
    show asc "host" = 104 :: [111, 115, 116] by decide, Pq.go_setting _ _ _ _ (by decide) hh,
    show asc "port" = 112 :: [111, 114, 116] by decide, Pq.go_setting _ _ _ _ (by decide) hp,
    show asc "user" = 117 :: [115, 101, 114] by decide, Pq.go_setting _ _ _ _ (by decide) hu,
    show asc "password" = 112 :: [97, 115, 115, 119, 111, 114, 100] by decide, Pq.go_setting _ _ _ _ (by decide) hw,
    show asc "sslmode" = 115 :: [115, 108, 109, 111, 100, 101] by decide, Pq.go_skip _ _ _ (by decide),
    Pq.go_val0_end _ _ hm]
  rfl

/-- C75 fails for an empty password (a server with trust authentication): the text that should set the TLS mode is sent as
the password, and no TLS mode is set (the library then insists on TLS), whatever the other values are. -/
theorem pg_empty_password_wrong (p : Params) (hd : Pq.Plain (p.str "database")) (hh : Pq.Plain (p.str "host"))
    (hp : Pq.Plain (p.str "port")) (hu : Pq.Plain (p.str "user")) (hw : p.str "password" = [])
    (hm : Pq.Plain (p.str "sslmode")) :
    ∃ l, Pq.parse (pgDsn p) = some l ∧ Pq.setting l (asc "password") = some (asc "sslmode=" ++ p.str "sslmode") ∧
      Pq.setting l (asc "sslmode") = none := by
  refine ⟨[(asc "dbname", p.str "database"), (asc "host", p.str "host"), (asc "port", p.str "port"),
      (asc "user", p.str "user"), (asc "password", asc "sslmode=" ++ p.str "sslmode")], ?_, ?_, ?_⟩
  · rw [pgDsn_eq, hw]
    show Pq.go .skip _ = _
    have e : Pq.go (.val0 (asc "password")) ([] ++ 32 :: (asc "sslmode" ++ 61 :: p.str "sslmode")) =
        some [(asc "password", asc "sslmode=" ++ p.str "sslmode")] := by
      have : Pq.Plain (asc "sslmode=" ++ p.str "sslmode") := by
        refine ⟨by simp [asc], ?_⟩
        intro c hc
        rcases List.mem_append.mp hc with h | h
        · exact (by decide : ∀ c ∈ asc "sslmode=", isSpace c = false ∧ c ≠ 39 ∧ c ≠ 92 ∧ c < 128) c h
        · exact hm.2 c h
      have := Pq.go_val0_end (asc "password") _ this
      rw [List.nil_append]
      simp only [Pq.go, isSpace, decide_true, Bool.true_or, if_true]
      rw [← this]
      simp [asc]
    rw [show asc "dbname" = 100 :: [98, 110, 97, 109, 101] by decide, Pq.go_setting _ _ _ _ (by decide) hd,
      show asc "host" = 104 :: [111, 115, 116] by decide, Pq.go_setting _ _ _ _ (by decide) hh,
      show asc "port" = 112 :: [111, 114, 116] by decide, Pq.go_setting _ _ _ _ (by decide) hp,
      show asc "user" = 117 :: [115, 101, 114] by decide, Pq.go_setting _ _ _ _ (by decide) hu]
    rw [show asc "password" = 112 :: [97, 115, 115, 119, 111, 114, 100] by decide] at e ⊢
    rw [Pq.go_skip _ _ _ (by decide), e]
    rfl
  · have : ∀ v a b c d : Bytes, Pq.setting [(asc "dbname", a), (asc "host", b), (asc "port", c), (asc "user", d), (asc "password", v)]
        (asc "password") = some v := by
      intro v a b c d
      simp [Pq.setting]
    exact this _ _ _ _ _
  · simp [Pq.setting, asc]

/-- C75 fails for a password of several words: the first word alone is the password and the connection text is not valid. -/
theorem pg_password_space_wrong (p : Params) (hd : Pq.Plain (p.str "database")) (hh : Pq.Plain (p.str "host"))
    (hp : Pq.Plain (p.str "port")) (hu : Pq.Plain (p.str "user")) (hw : p.str "password" = asc "correct horse battery") :
    Pq.parse (pgDsn p) = none := by
  rw [pgDsn_eq, hw]
  show Pq.go .skip _ = _
  have e : Pq.go .skip (asc "password" ++ 61 :: (asc "correct horse battery" ++ 32 :: (asc "sslmode" ++ 61 :: p.str "sslmode"))) =
      none := by
    simp [asc, Pq.go, isSpace]
  rw [show asc "dbname" = 100 :: [98, 110, 97, 109, 101] by decide, Pq.go_setting _ _ _ _ (by decide) hd,
    show asc "host" = 104 :: [111, 115, 116] by decide, Pq.go_setting _ _ _ _ (by decide) hh,
    show asc "port" = 112 :: [111, 114, 116] by decide, Pq.go_setting _ _ _ _ (by decide) hp,
    show asc "user" = 117 :: [115, 101, 114] by decide, Pq.go_setting _ _ _ _ (by decide) hu, e]
  rfl

/-- C75 fails for values with a blank in another way: a host configured earlier is overridden. -/
theorem pg_override_wrong : ∃ (p : Params) (l : List (Bytes × Bytes)), Pq.parse (pgDsn p) = some l ∧
    p.str "host" = asc "db" ∧ Pq.setting l (asc "host") = some (asc "other") :=
  ⟨[(asc "database", asc "receiver"), (asc "host", asc "db"), (asc "port", asc "5432"), (asc "user", asc "postgres"),
    (asc "password", asc "a host=other"), (asc "sslmode", asc "disable")], _, rfl, rfl, rfl⟩

/-- the hypotheses are met: the sample configuration, configs/receiver.yaml:13-20 -/
def samplePg : Params := [(asc "host", asc "localhost"), (asc "port", asc "5432"), (asc "user", asc "postgres"),
    (asc "password", asc "postgres"), (asc "database", asc "receiver"), (asc "table", asc "points"), (asc "sslmode", asc "disable")]
theorem samplePg_plain : Pq.Plain (samplePg.str "database") ∧ Pq.Plain (samplePg.str "host") ∧ Pq.Plain (samplePg.str "port") ∧
    Pq.Plain (samplePg.str "user") ∧ Pq.Plain (samplePg.str "password") ∧ Pq.Plain (samplePg.str "sslmode") := by
  simp only [Pq.Plain]; decide
example : Pq.parse (pgDsn samplePg) = some [(asc "dbname", asc "receiver"), (asc "host", asc "localhost"),
    (asc "port", asc "5432"), (asc "user", asc "postgres"), (asc "password", asc "postgres"), (asc "sslmode", asc "disable")] :=
  pg_settings_partial samplePg samplePg_plain.1 samplePg_plain.2.1 samplePg_plain.2.2.1 samplePg_plain.2.2.2.1
    samplePg_plain.2.2.2.2.1 samplePg_plain.2.2.2.2.2

namespace Uri

theorem cut_first (c : UInt8) (b : Bytes) : ∀ a : Bytes, c ∉ a → cut c (a ++ c :: b) = some (a, b)
  | [], _ => by simp [cut]
  | x :: a, h => by
    have hx : x ≠ c := fun e => h (by simp [e])
    simp only [List.cons_append, cut, if_neg hx, cut_first c b a (fun m => h (by simp [m]))]
    rfl

theorem cutLast_last (c : UInt8) (a b : Bytes) (h : c ∉ b) : cutLast c (a ++ c :: b) = some (a, b) := by
  unfold cutLast
  rw [show (a ++ c :: b).reverse = b.reverse ++ c :: a.reverse by simp, cut_first c _ _ (by simpa using h)]
  simp

theorem unescape_id : ∀ v : Bytes, 37 ∉ v → unescape v = some v
  | [], _ => rfl
  | c :: v, h => by
    have hc : c ≠ 37 := fun e => h (by simp [e])
    rw [unescape, unescape_id v (fun m => h (by simp [m]))]
    · rfl
    · intro a b s e _; exact hc e
    · intro e; exact hc e

end Uri

/-- a decidable property of one byte can be checked on all 256 of them -/
theorem byte_forall (P : UInt8 → Prop) (h : ∀ n : Fin 256, P (UInt8.ofNat n.val)) (c : UInt8) : P c := by
  have := h ⟨c.toNat, c.toNat_lt⟩
  simpa using this

theorem plainInfo_char (c : UInt8) (h : Uri.isAlnum c = true ∨ c ∈ ([45, 46, 95, 126, 33, 36, 38, 39, 40, 41, 42, 43, 44, 59, 61] : Bytes)) :
    Uri.userinfoChar c = true ∧ c ≠ 58 ∧ c ≠ 64 ∧ c ≠ 37 ∧ c ≠ 47 ∧ c ≠ 63 ∧ c ≠ 35 ∧ (c ≤ 32 || c = 127) = false := by
  revert h; revert c; refine byte_forall _ ?_; decide +kernel

theorem hostName_char (c : UInt8) (h : Uri.isAlnum c = true ∨ c = 46 ∨ c = 45) :
    c ≠ 58 ∧ c ≠ 64 ∧ c ≠ 47 ∧ c ≠ 63 ∧ c ≠ 35 ∧ (c ≤ 32 || c = 127) = false := by
  revert h; revert c; refine byte_forall _ ?_; decide +kernel

theorem port_char (c : UInt8) (h : Uri.isDigit c = true) :
    c ≠ 58 ∧ c ≠ 64 ∧ c ≠ 47 ∧ c ≠ 63 ∧ c ≠ 35 ∧ (c ≤ 32 || c = 127) = false := by
  revert h; revert c; refine byte_forall _ ?_; decide +kernel

/-- C76 (part): if user and password consist of letters, digits and characters without a meaning in URIs, and host and
port are a host name and a number, RabbitMQ is contacted with exactly the configured values. Missing: other characters (see
the next theorems). -/
theorem amqp_settings_partial (p : Params) (hu : Uri.PlainInfo (p.str "user")) (hw : Uri.PlainInfo (p.str "password"))
    (hh : Uri.HostName (p.str "host")) (hp : Uri.PortNumber (p.str "port")) :
    ∃ s, amqpUrl p = asc "amqp://" ++ s ∧
      Uri.parse s = some ⟨p.str "user", some (p.str "password"), p.str "host", p.str "port"⟩ := by
  refine ⟨p.str "user" ++ 58 :: (p.str "password") ++ 64 :: (p.str "host" ++ 58 :: p.str "port") ++ [47], ?_, ?_⟩
  · simp [amqpUrl, asc, List.append_assoc]
  · generalize p.str "user" = u at *
    generalize p.str "password" = w at *
    generalize p.str "host" = h at *
    generalize p.str "port" = q at *
    have hu' := fun c m => plainInfo_char c (hu c m)
    have hw' := fun c m => plainInfo_char c (hw c m)
    have hh' := fun c m => hostName_char c (hh c m)
    have hp' := fun c m => port_char c (hp c m)
    have ha : Uri.authorityText (u ++ 58 :: w ++ 64 :: (h ++ 58 :: q) ++ [47]) = u ++ 58 :: w ++ 64 :: (h ++ 58 :: q) := by
      unfold Uri.authorityText
      rw [List.takeWhile_append_of_pos]
      · simp
      · intro c hc
        simp only [List.mem_append, List.mem_cons] at hc
        rcases hc with (h1 | h1 | h1) | h1 | h1 | h1 | h1
        · simp [hu' c h1]
        · subst h1; rfl
        · simp [hw' c h1]
        · subst h1; rfl
        · simp [hh' c h1]
        · subst h1; rfl
        · simp [hp' c h1]
    have hs : (u ++ 58 :: w ++ 64 :: (h ++ 58 :: q) ++ [47]).any (fun c => c ≤ 32 || c = 127) = false := by
      rw [List.any_eq_false]
      intro c hc
      simp only [List.mem_append, List.mem_cons, List.not_mem_nil, or_false] at hc
      have n58 : ((58 : UInt8) ≤ 32 || (58 : UInt8) = 127) = false := by decide
      have n64 : ((64 : UInt8) ≤ 32 || (64 : UInt8) = 127) = false := by decide
      have n47 : ((47 : UInt8) ≤ 32 || (47 : UInt8) = 127) = false := by decide
      rcases hc with ((h1 | h1 | h1) | h1 | h1 | h1 | h1) | h1
      · simpa using (hu' c h1).2.2.2.2.2.2.2
      · subst h1; simp
      · simpa using (hw' c h1).2.2.2.2.2.2.2
      · subst h1; simp
      · simpa using (hh' c h1).2.2.2.2.2
      · subst h1; simp
      · simpa using (hp' c h1).2.2.2.2.2
      · subst h1; simp
    unfold Uri.parse
    rw [hs]
    simp only [Bool.false_eq_true, if_false, ha]
    rw [Uri.cutLast_last 64 (u ++ 58 :: w) (h ++ 58 :: q)]
    · have hi : (u ++ 58 :: w).all Uri.userinfoChar = true := by
        rw [List.all_eq_true]
        intro c hc
        simp only [List.mem_append, List.mem_cons] at hc
        rcases hc with h1 | h1 | h1
        · exact (hu' c h1).1
        · subst h1; rfl
        · exact (hw' c h1).1
      have hpo : Uri.hostPort (h ++ 58 :: q) = some (h, q) := by
        unfold Uri.hostPort
        rw [Uri.cutLast_last 58 h q (fun m => (hp' 58 m).1 rfl)]
        simp only
        rw [if_pos (List.all_eq_true.mpr hp)]
      simp only [hi, Bool.not_true, Bool.false_eq_true, if_false, hpo]
      rw [Uri.cut_first 58 w u (fun m => (hu' 58 m).2.1 rfl)]
      simp only [Uri.unescape_id u (fun m => (hu' 37 m).2.2.2.1 rfl), Uri.unescape_id w (fun m => (hw' 37 m).2.2.2.1 rfl)]
    · intro m
      simp only [List.mem_append, List.mem_cons] at m
      rcases m with h1 | h1 | h1
      · exact (hh' 64 h1).2.1 rfl
      · exact absurd h1 (by decide)
      · exact (hp' 64 h1).2.1 rfl

/-- the hypotheses are met: the sample configuration, configs/receiver.yaml:7-12 -/
def sampleAmqp : Params := [(asc "host", asc "localhost"), (asc "port", asc "5672"), (asc "user", asc "guest"),
    (asc "password", asc "guest"), (asc "exchange", asc "receiver")]
theorem sampleAmqp_plain : Uri.PlainInfo (sampleAmqp.str "user") ∧ Uri.PlainInfo (sampleAmqp.str "password") ∧
    Uri.HostName (sampleAmqp.str "host") ∧ Uri.PortNumber (sampleAmqp.str "port") := by
  simp only [Uri.PlainInfo, Uri.HostName, Uri.PortNumber]; decide
example : ∃ s, amqpUrl sampleAmqp = asc "amqp://" ++ s ∧
    Uri.parse s = some ⟨asc "guest", some (asc "guest"), asc "localhost", asc "5672"⟩ :=
  amqp_settings_partial sampleAmqp sampleAmqp_plain.1 sampleAmqp_plain.2.1 sampleAmqp_plain.2.2.1 sampleAmqp_plain.2.2.2

/-- C76 fails for a password with a slash: the authority ends there, and what precedes it is not a host and port. -/
theorem amqp_password_slash_wrong (p : Params) (a b : Bytes) (hu : Uri.PlainInfo (p.str "user")) (ha : Uri.PlainInfo a)
    (hd : a.all Uri.isDigit = false) (hw : p.str "password" = a ++ 47 :: b) (s : Bytes) (hs : amqpUrl p = asc "amqp://" ++ s) :
    Uri.parse s = none := by
  have hs' : s = p.str "user" ++ 58 :: a ++ 47 :: (b ++ 64 :: (p.str "host" ++ 58 :: (p.str "port" ++ [47]))) := by
    have : asc "amqp://" ++ s = asc "amqp://" ++ (p.str "user" ++ 58 :: a ++ 47 :: (b ++ 64 :: (p.str "host" ++ 58 :: (p.str "port" ++ [47])))) := by
      rw [← hs, amqpUrl, hw]
      simp [asc, List.append_assoc]
    exact List.append_cancel_left this
  rw [hs']
  generalize p.str "user" = u at *
  have hu' := fun c m => plainInfo_char c (hu c m)
  have ha' := fun c m => plainInfo_char c (ha c m)
  generalize b ++ 64 :: (p.str "host" ++ 58 :: (p.str "port" ++ [47])) = r
  have hat : Uri.authorityText (u ++ 58 :: a ++ 47 :: r) = u ++ 58 :: a := by
    unfold Uri.authorityText
    rw [List.takeWhile_append_of_pos]
    · simp
    · intro c hc
      simp only [List.mem_append, List.mem_cons] at hc
      rcases hc with h1 | h1 | h1
      · simp [hu' c h1]
      · subst h1; rfl
      · simp [ha' c h1]
  unfold Uri.parse
  split
  · rfl
  · rw [hat]
    have hn : (64 : UInt8) ∉ u ++ 58 :: a := by
      intro m
      simp only [List.mem_append, List.mem_cons] at m
      rcases m with h1 | h1 | h1
      · exact (hu' 64 h1).2.2.1 rfl
      · exact absurd h1 (by decide)
      · exact (ha' 64 h1).2.2.1 rfl
    have hc : ∀ l : Bytes, (64 : UInt8) ∉ l → Uri.cut 64 l = none := by
      intro l
      induction l with
      | nil => intro _; rfl
      | cons x l ih =>
        intro h
        rw [Uri.cut, if_neg (fun e => h (by simp [e])), ih (fun m => h (by simp [m]))]
        rfl
    have hcl : Uri.cutLast 64 (u ++ 58 :: a) = none := by
      unfold Uri.cutLast
      rw [hc _ (fun m => hn (List.mem_reverse.mp m))]
      rfl
    simp only [hcl]
    unfold Uri.hostPort
    rw [Uri.cutLast_last 58 u a (fun m => (ha' 58 m).2.1 rfl)]
    simp [hd]

/-- C76 fails for a password with a percent sign: another password is used. -/
theorem amqp_password_percent_wrong : ∃ (p : Params) (s : Bytes), amqpUrl p = asc "amqp://" ++ s ∧
    p.str "password" = asc "50%25" ∧ (Uri.parse s).bind (·.password) = some (asc "50%") :=
  ⟨[(asc "host", asc "mq"), (asc "port", asc "5672"), (asc "user", asc "guest"), (asc "password", asc "50%25")],
    asc "guest:50%25@mq:5672/", rfl, rfl, rfl⟩

end Egts
