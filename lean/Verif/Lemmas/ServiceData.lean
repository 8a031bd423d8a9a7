import Verif.Lemmas.Records
set_option autoImplicit false
namespace Egts
variable [P : Platform]

omit P in
theorem read_any {σ : Type} (n : Nat) (s : σ) (a r : Bytes) (h : a.length = n) (h0 : a ++ r ≠ []) :
    (Dec.read (zeros n) : Dec σ Bytes) s (a ++ r) = .ok a s r := by
  cases a with
  | nil =>
    simp only [List.length_nil] at h; subst h
    cases r with
    | nil => simp at h0
    | cons x r => simp [zeros]
  | cons x a => exact Dec.read_append (zeros n) (x :: a) r s (by simp [← h]) (by simp)

/-- the encoded form of a record and what it decodes to -/
def SdrRT (e e' : ServiceDataRecord) : Prop :=
  ∃ b, e.encode = .ok b ∧ b ≠ [] ∧ ∀ rest, sdrDecodeM nestedDecode {} (b ++ rest) = .ok () e' rest

theorem sdr_one (e : ServiceDataRecord) (hf : e.FlagsOk) (rd : Bytes) (rds : List RecordData)
    (hrd : RecordDataSet.encode e.RecordDataSet = .ok rd) (hl : rd.length < 65536)
    (hrl : e.RecordLength = 0 ∨ e.RecordLength.toNat = rd.length)
    (hdec : RecordDataSet.decode [] rd = .ok rds) : SdrRT e (e.received rd.length rds) := by
  obtain ⟨rl, rn, ssod, rsod, grp, rpp, tm, ev, ob, oid, evid, time, sst, rst, l⟩ := e
  obtain ⟨h1, h2, h3, ⟨r1, r2, h4, h5, hr⟩, h6, h7, h8⟩ := hf
  simp only at h1 h2 h3 hr h6 h7 h8 hrl hrd
  subst hr
  obtain ⟨ssod, rfl⟩ := isBit_iff.mp h1
  obtain ⟨rsod, rfl⟩ := isBit_iff.mp h2
  obtain ⟨grp, rfl⟩ := isBit_iff.mp h3
  obtain ⟨r1, rfl⟩ := isBit_iff.mp h4
  obtain ⟨r2, rfl⟩ := isBit_iff.mp h5
  obtain ⟨tm, rfl⟩ := isBit_iff.mp h6
  obtain ⟨ev, rfl⟩ := isBit_iff.mp h7
  obtain ⟨ob, rfl⟩ := isBit_iff.mp h8
  have hp : parseFlags (bitS ssod ++ bitS rsod ++ bitS grp ++ (bitS r1 ++ bitS r2) ++ bitS tm ++ bitS ev ++ bitS ob) =
      .ok (flagByte ssod rsod grp r1 r2 tm ev ob) := parse_bits _ _ _ _ _ _ _ _
  have hrl' : (if rl = 0 then len16 rd else rl) = UInt16.ofNat rd.length := by
    by_cases h0 : rl = 0
    · rw [if_pos h0]; rfl
    · rw [if_neg h0, ← hrl.resolve_left h0]; simp
  have hn : (UInt16.ofNat rd.length).toNat = rd.length := by
    rw [UInt16.toNat_ofNat']; exact Nat.mod_eq_of_lt hl
  refine ⟨_, by simp only [ServiceDataRecord.encode, hp, hrd, hrl', Go.ok_bind, bitS_eq_one]; rfl, by simp [le16], fun rest => ?_⟩
  unfold sdrDecodeM ServiceDataRecord.received
  simp only [List.append_assoc, List.cons_append, List.nil_append, bitS_eq49]
  refine Dec.step (Dec.read_le16 _ _ _ (UInt16.ofNat rd.length) rfl) ?_
  refine Dec.step (Dec.upd_apply _ _ _) ?_; try dsimp only
  refine Dec.step (Dec.read_le16 _ _ _ rn rfl) ?_
  refine Dec.step (Dec.upd_apply _ _ _) ?_; try dsimp only
  refine Dec.step (Dec.readByte_cons _ _ _) ?_
  rw [fmt_flagByte]
  refine Dec.step (Dec.upd_apply _ _ _) ?_; try dsimp only [sl, List.drop, List.take]
  refine Dec.step (Dec.optRead_step (·.ObjectIdentifier) ob (le32 oid)) ?_; try dsimp only
  refine Dec.step (Dec.optRead_step (·.EventIdentifier) ev (le32 evid)) ?_; try dsimp only
  refine Dec.step (Dec.optRead_step (·.Time) tm (le32 time)) ?_; try dsimp only
  refine Dec.step (Dec.readByteTo_cons _ _ _ _) ?_; try dsimp only
  refine Dec.step (Dec.readByteTo_cons _ _ _ _) ?_; try dsimp only
  refine Dec.step (Dec.unread_apply _ _) ?_; try dsimp only
  rw [u16_le16', u16_le16', u32_le32', u32_le32', u32_le32']
  by_cases hne : rd ++ rest = []
  · obtain ⟨rfl, rfl⟩ := List.append_eq_nil_iff.mp hne
    have hrds : rds = [] := by
      unfold RecordDataSet.decode rdsDecode Dec.run at hdec
      rw [rds_loop_unfold, if_pos rfl] at hdec
      exact (Out.ok.inj hdec).symm
    subst hrds
    simp [bitS]
  · have hlen : decide (List.length (rd ++ rest) ≠ 0) = true := by
      rw [decide_eq_true_eq]; exact fun h => hne (List.length_eq_zero_iff.mp h)
    rw [hlen, Dec.when_true]
    refine Dec.step (Dec.get_apply _ _) ?_; try dsimp only
    refine Dec.step (read_any _ _ rd rest hn.symm hne) ?_; try dsimp only
    unfold RecordDataSet.decode at hdec
    rw [hdec]
    refine Dec.step (a := rds) (m := Dec.call (.ok rds)) rfl ?_
    rfl

theorem sds_loop_list {l l' : List ServiceDataRecord} (h : List.Forall₂ SdrRT l l') :
    ∃ b, ServiceDataSet.encode l = .ok b ∧
      ∀ acc, Dec.whileUnread (sdsStep nestedDecode) acc b = .ok () (acc ++ l') [] := by
  induction h with
  | nil => exact ⟨[], rfl, fun acc => by rw [sds_loop_unfold]; simp⟩
  | @cons e e' l l' h1 h2 ih =>
    obtain ⟨b, hb, hloop⟩ := ih
    obtain ⟨b1, he, hne, hd⟩ := h1
    refine ⟨b1 ++ b, ?_, fun acc => ?_⟩
    · unfold ServiceDataSet.encode at hb ⊢
      simp only [encodeAll, he, hb, Go.ok_bind, Go.pure_def]
    · rw [sds_loop_unfold, if_neg (by simp [hne])]
      refine Dec.step (a := ()) (s1 := acc ++ [e']) (r1 := b) ?_ ?_
      · unfold sdsStep; rw [hd b]
      · rw [hloop]; simp

theorem sds_list {l l' : List ServiceDataRecord} (h : List.Forall₂ SdrRT l l') :
    ∃ b, ServiceDataSet.encode l = .ok b ∧ ServiceDataSet.decode [] b = .ok l' := by
  obtain ⟨b, hb, hl⟩ := sds_loop_list h
  exact ⟨b, hb, by have := Dec.run_of_ok (hl []); rw [List.nil_append] at this; exact this⟩

end Egts
