import Verif.Props.PassOnEx
import Verif.Props.PackageEx
set_option autoImplicit false
/- C88: changing a decoded package and encoding it again; C89: encoding a package again. -/
namespace Egts
open Frame
variable [P : Platform]

/-! ### C89 -/

/-- what Encode needs to succeed -/
theorem encode_needs {p q : Package} {out : Bytes} (h : p.encode = .ok (out, q)) :
    ∃ fl b, parseFlags (p.Prefix ++ p.Route ++ p.EncryptionAlg ++ p.Compression ++ p.Priority) = .ok fl ∧ p.HasBody b := by
  revert h
  unfold Package.encode
  cases hf : parseFlags (p.Prefix ++ p.Route ++ p.EncryptionAlg ++ p.Compression ++ p.Priority) with
  | err e => intro h; exact absurd h (by simp [bind, Go.bind])
  | panic => intro h; exact absurd h (by simp [bind, Go.bind])
  | ok fl =>
    simp only [Go.ok_bind, hasBody_iff]
    cases hB : p.ServicesFrameData with
    | none => intro _; exact ⟨fl, [], rfl, rfl⟩
    | some body =>
      simp only
      cases hb : body.encode with
      | err e => intro h; exact absurd h (by simp [bind, Go.bind])
      | panic => intro h; exact absurd h (by simp [bind, Go.bind])
      | ok b => intro _; exact ⟨fl, b, rfl, rfl⟩

/-- C89: Encode changes nothing of the package but its HeaderLength, only if that is 0, and its FrameDataLength; encoding the package
again gives the same bytes and changes nothing at all. -/
theorem encode_again (p q : Package) (out : Bytes) (h : p.encode = .ok (out, q)) :
    q.encode = .ok (out, q) ∧ (p.HeaderLength ≠ 0 → q.HeaderLength = p.HeaderLength) ∧
      { q with
        HeaderLength := p.HeaderLength
        FrameDataLength := p.FrameDataLength } = p := by
  obtain ⟨fl, b, hf, hb⟩ := encode_needs h
  obtain ⟨hl, e1, e2⟩ := encode_eq p fl b hf hb
  have hne : hl ≠ 0 := by
    rw [e1]
    unfold Package.headerBytes
    split
    · split <;> decide
    · assumption
  rw [h] at e2
  have e3 := Go.ok.inj e2
  obtain ⟨rfl, rfl⟩ := Prod.mk.inj e3
  refine ⟨?_, fun h0 => by rw [if_neg h0] at e1; exact e1, rfl⟩
  obtain ⟨hl', e1', e2'⟩ := encode_eq { p with
    HeaderLength := hl
    FrameDataLength := len16 b } fl b hf hb
  rw [if_neg hne] at e1'
  subst e1'
  exact e2'

/-- a package of four subrecords, encoded: meets the hypothesis of `encode_again` -/
example : ∃ out q, exPackage.encode = .ok (out, q) := by
  obtain ⟨out, q, _, _, _, h, _⟩ := package_roundtrip exPackage exPackage_wf []
  exact ⟨out, q, h⟩

/-! ### C88 -/

/-- the header of a decoded package with another packet identifier -/
theorem header_renumbered {hdr b : Bytes} {t : UInt8} {pid : Nat} (hh : RightHeader hdr t pid b.length) {p q : Package} {spare : Bytes}
    {code : UInt8} {er : Option Err} (hq : Package.decode p (packet hdr b) spare = .ret code er q) (n : UInt16) (m : UInt16) :
    hdrOf { q with
      PacketIdentifier := n } (byteAt hdr 2) q.HeaderLength m = hdr.take 5 ++ le16 m ++ le16 n ++ hdr.drop 9 := by
  obtain ⟨-, -, h3, -⟩ := header_back hh hq
  have h10 := right_header_len hh
  have h := h3 m
  unfold hdrOf at h ⊢
  have two : ∀ v : UInt16, ∃ x y, le16 v = [x, y] := fun v => ⟨_, _, by rw [le16_eq]; rfl⟩
  obtain ⟨x1, y1, e1⟩ := two q.PacketIdentifier
  obtain ⟨x2, y2, e2⟩ := two m
  obtain ⟨x3, y3, e3⟩ := two n
  clear * - h h10 e1 e2 e3
  match hdr, h10 with
  | _ :: _ :: _ :: _ :: _ :: _ :: _ :: _ :: _ :: _ :: _, _ =>
    simp only [e1, e2, e3, List.cons_append, List.nil_append, List.take_succ_cons, List.take_zero, List.drop_succ_cons, List.drop_zero,
      List.cons.injEq] at h ⊢
    obtain ⟨h0, h1, h2, h3, h4, -, -, h7, h8, h9, h10⟩ := h
    exact ⟨h0, h1, h2, h3, h4, trivial, trivial, trivial, trivial, h9, h10⟩

/-- C88 (partial): a canonical packet decoded, given another identifier and encoded is the same packet with the new identifier and right
checksums. -/
theorem renumber_partial (hdr b : Bytes) (t : UInt8) (pid : Nat) (hh : RightHeader hdr t pid b.length) (hne : b ≠ [])
    (hlen : (packet hdr b).length < 65536) (hb : BodyWith Canonical t b) (p : Package) (spare : Bytes) (n : UInt16) :
    ∃ q out q', Package.decode p (packet hdr b) spare = .ret 0 none q ∧ ({ q with PacketIdentifier := n } : Package).encode = .ok (out, q') ∧
      out = packet (hdr.take 7 ++ leBytes 2 n.toNat ++ hdr.drop 9) b ∧
      RightHeader (hdr.take 7 ++ leBytes 2 n.toNat ++ hdr.drop 9) t n.toNat b.length := by
  obtain ⟨q, h1, h2⟩ := pass_on_partial hdr b t pid hh hne hlen hb p spare
  have h10 := right_header_len hh
  have hbl : b.length < 65536 := by simp [packet] at hlen; omega
  obtain ⟨g1, g2, g3, g4, g5⟩ := header_back hh h1
  obtain ⟨fl, b', k1, k2⟩ := encode_needs h2
  obtain rfl : fl = byteAt hdr 2 := Go.ok.inj (k1.symm.trans g2)
  obtain ⟨hl, e1, e2⟩ := encode_eq q _ b' k1 k2
  rw [if_neg g1] at e1
  subst e1
  rw [h2] at e2
  obtain ⟨e3, e4⟩ := Prod.mk.inj (Go.ok.inj e2)
  have e5 : q.FrameDataLength = len16 b' := congrArg Package.FrameDataLength e4
  have hback : hdr.take 5 ++ le16 q.FrameDataLength ++ hdr.drop 7 = hdr := by
    rw [g5]
    have e1 := List.take_append_drop 2 (hdr.drop 5)
    rw [List.drop_drop] at e1
    rw [List.append_assoc, e1, List.take_append_drop]
  rw [g3, ← e5, hback] at e3
  obtain rfl : b' = b := by
    unfold packet at e3
    simp only [List.append_assoc, List.append_cancel_left_eq] at e3
    split at e3
    · have := List.append_inj' e3 (by simp [le16_eq, leBytes_len])
      exact this.1.symm
    · have := congrArg List.length e3
      simp [leBytes_len] at this
  have hbody : ({ q with PacketIdentifier := n } : Package).HasBody b' := k2
  obtain ⟨hl, e6, e7⟩ := encode_eq { q with PacketIdentifier := n } (byteAt hdr 2) b' k1 hbody
  rw [if_neg g1] at e6
  subst e6
  have hH : hdrOf { q with PacketIdentifier := n } (byteAt hdr 2) q.HeaderLength (len16 b') =
      hdr.take 7 ++ leBytes 2 n.toNat ++ hdr.drop 9 := by
    rw [header_renumbered hh h1, ← e5, g5, le16_eq n]
    congr 2
    rw [show (7 : Nat) = 5 + 2 from rfl, List.take_add]
  refine ⟨q, _, _, h1, e7, ?_, ?_⟩
  · rw [hH, if_pos (len16_pos b' hbl hne)]
    unfold packet
    rw [le16_eq]
    simp only [List.append_assoc]
  · obtain ⟨x, y, hn⟩ : ∃ x y, leBytes 2 n.toNat = [x, y] := ⟨_, _, rfl⟩
    have hxy : leValue [x, y] = n.toNat := by
      rw [← hn]
      have := n.toNat_lt
      simp only [leBytes, leValue, UInt8.toNat_ofNat']
      omega
    have hv : word16At (hdr.take 7 ++ leBytes 2 n.toNat ++ hdr.drop 9) 7 = n.toNat := by
      rw [hn, ← hxy]
      clear * - h10
      match hdr, h10 with
      | _ :: _ :: _ :: _ :: _ :: _ :: _ :: _ :: _ :: _ :: _, _ => simp [word16At, byteAt, leValue]
    rw [hn] at hv ⊢
    clear * - hh h10 hv
    match hdr, h10 with
    | _ :: _ :: _ :: _ :: _ :: _ :: _ :: _ :: _ :: _ :: _, _ =>
      refine ⟨hh.version, ?_, hh.hl, hh.fdl, hv, hh.type⟩
      exact hh.size

/-- the package decoded from a packet with one counter (110, value 1) -/
def onePackage : Package := plainPackage 14 (crc8 (plainHead 14)) (crc16 [7, 0, 1, 0, 0, 2, 2, 25, 4, 0, 110, 1, 0, 0])
  (some (.appdata [countRecord]))

/-- the same with a second counter (111, value 512) added to the record; its length is to be filled in -/
def twoRecord : ServiceDataRecord := { countRecord with
  RecordDataSet := countRecord.RecordDataSet ++ [⟨25, 0, some (.absCntr { CounterNumber := 111, CounterValue := 512 })⟩] }

/-- a record with number 28416 that nobody sent -/
def inventedRecord : ServiceDataRecord := { cutRecord with
  RecordLength := 1049
  RecordNumber := 28416
  SourceServiceType := 2
  RecipientServiceType := 0
  RecordDataSet := [] }

/-- C88 is false of the code: a subrecord is added to a record of a decoded package; Encode writes the old record length, and the
receiver, who accepts the packet, gets the record without the new subrecord, and a second record that nobody sent. -/
theorem edit_wrong : Package.decode {} (packet (plainHead 14) [7, 0, 1, 0, 0, 2, 2, 25, 4, 0, 110, 1, 0, 0]) [] = .ret 0 none onePackage ∧
    ∃ out q q', ({ onePackage with ServicesFrameData := some (.appdata [twoRecord]) } : Package).encode = .ok (out, q) ∧
      Package.decode {} out [] = .ret 0 none q' ∧ q'.ServicesFrameData = some (.appdata [countRecord, inventedRecord]) := by
  exact ⟨by kernel_rfl, packet (plainHead 21) [7, 0, 1, 0, 0, 2, 2, 25, 4, 0, 110, 1, 0, 0, 25, 4, 0, 111, 0, 2, 0], { onePackage with
      FrameDataLength := 21
      ServicesFrameData := some (.appdata [twoRecord]) },
    plainPackage 21 (crc8 (plainHead 21)) (crc16 [7, 0, 1, 0, 0, 2, 2, 25, 4, 0, 110, 1, 0, 0, 25, 4, 0, 111, 0, 2, 0])
    (some (.appdata [countRecord, inventedRecord])), by kernel_rfl, by kernel_rfl, rfl⟩

/-- the flags of a decoded package have their widths -/
theorem decoded_flagsOk {p q : Package} {c spare : Bytes} (h : Package.decode p c spare = .ret 0 none q) : q.FlagsOk := by
  have hc : headerSize c ≤ c.length := by
    by_cases hc : headerSize c ≤ c.length
    · exact hc
    · obtain ⟨q', hq⟩ := decode_short p c spare (by omega)
      rw [hq] at h
      exact absurd h (by simp)
  obtain ⟨-, -, f2, f3, f4, f5, f6, -⟩ := decode_header_fields p q _ spare 0 none hc h
  have hb : ∀ i, IsBit (bitText (byteAt c 2) i) := by intro i; unfold bitText IsBit; split <;> simp
  unfold Package.FlagsOk
  rw [f2, f3, f4, f5, f6]
  exact ⟨⟨_, _, hb _, hb _, rfl⟩, hb _, ⟨_, _, hb _, hb _, rfl⟩, hb _, _, _, hb _, hb _, rfl⟩

/-- C88 (partial): any body of well-formed records may be put into a package decoded from any accepted packet. If the header length is reset
to 0 (and the record and subrecord lengths are 0 or right, see `ServiceDataRecord.WellFormed`), the encoded package is decoded to the
same header fields and the same new body. Missing: lengths that are not reset (`edit_wrong`). -/
theorem edit_partial (p q : Package) (c spare spare' : Bytes) (h : Package.decode p c spare = .ret 0 none q) (l : List ServiceDataRecord)
    (hne : l ≠ []) (hl : ∀ e ∈ l, e.WellFormed) (hfit : ∀ b, ServiceDataSet.encode l = .ok b → 16 + b.length < 65536) :
    ∃ out q2 q' l', ({ q with
        HeaderLength := 0
        PacketType := 1
        ServicesFrameData := some (.appdata l) } : Package).encode = .ok (out, q2) ∧
      Package.decode {} out spare' = .ret 0 none q' ∧
      q'.ServicesFrameData = some (.appdata l') ∧ List.Forall₂ ServiceDataRecord.Same l l' ∧
      q'.PacketIdentifier = q.PacketIdentifier ∧ q'.Priority = q.Priority ∧ q'.Route = q.Route ∧
      (q.Route = [49] → q'.PeerAddress = q.PeerAddress ∧ q'.RecipientAddress = q.RecipientAddress ∧ q'.TimeToLive = q.TimeToLive) := by
  have hfl : q.FlagsOk := decoded_flagsOk h
  obtain ⟨out, q2, b, body, body', h1, h2, h3, h4, h5⟩ := package_roundtrip ({ q with
        HeaderLength := 0
        PacketType := 1
        ServicesFrameData := some (.appdata l) } : Package) ⟨hfl, .inl rfl, .inl ⟨rfl, l, rfl, hne, hl⟩, by
      intro b hb
      have h16 : ∀ x : Package, x.headerBytes ≤ 16 := by intro x; unfold Package.headerBytes; split <;> omega
      exact Nat.lt_of_le_of_lt (Nat.add_le_add_right (h16 _) _) (hfit b hb)⟩ spare'
  obtain rfl := Option.some.inj h3
  obtain ⟨l', rfl, hs⟩ := h4
  refine ⟨out, q2, _, l', h1, h5, rfl, hs, rfl, rfl, rfl, fun hr => ?_⟩
  simp only [Package.received, hr, if_true, and_self]

/-- `edit_partial` applies to the package of `edit_wrong`, with the record length reset -/
example : ∃ out q2 q' l', ({ onePackage with
        HeaderLength := 0
        PacketType := 1
        ServicesFrameData := some (.appdata [{ twoRecord with RecordLength := 0 }]) } : Package).encode = .ok (out, q2) ∧
      Package.decode {} out [] = .ret 0 none q' ∧ q'.ServicesFrameData = some (.appdata l') ∧
      List.Forall₂ ServiceDataRecord.Same [{ twoRecord with RecordLength := 0 }] l' := by
  obtain ⟨out, q2, q', l', h1, h2, h3, h4, -⟩ := edit_partial {} onePackage _ [] [] edit_wrong.1 [{ twoRecord with RecordLength := 0 }]
    (by simp) (by
      intro e he
      obtain rfl := List.mem_singleton.mp he
      refine ⟨⟨isBit0, isBit0, isBit0, ⟨_, _, isBit0, isBit0, rfl⟩, isBit0, isBit0, isBit0⟩,
        ⟨[25, 4, 0, 110, 1, 0, 0, 25, 4, 0, 111, 0, 2, 0], by kernel_rfl, by decide, .inl rfl⟩, ?_⟩
      intro rd hrd
      simp only [twoRecord, countRecord, List.cons_append, List.nil_append, List.mem_cons, List.not_mem_nil, or_false] at hrd
      rcases hrd with rfl | rfl
      · exact ⟨⟨_, rfl, .inl rfl⟩, ⟨_, [110, 1, 0, 0], rfl, by kernel_rfl, by decide, .inr rfl⟩, _, rfl, by simp [SubData.WellFormed]⟩
      · exact ⟨⟨_, rfl, .inl rfl⟩, ⟨_, [111, 0, 2, 0], rfl, by kernel_rfl, by decide, .inl rfl⟩, _, rfl, by simp [SubData.WellFormed]⟩) (by
      intro b hb
      have h : ServiceDataSet.encode [{ twoRecord with RecordLength := 0 }] =
          .ok [14, 0, 1, 0, 0, 2, 2, 25, 4, 0, 110, 1, 0, 0, 25, 4, 0, 111, 0, 2, 0] := by kernel_rfl
      rw [← Go.ok.inj (h.symm.trans hb)]
      decide)
  exact ⟨out, q2, q', l', h1, h2, h3, h4⟩

end Egts
