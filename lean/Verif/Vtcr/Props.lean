import Verif.Vtcr.Lemmas
import Verif.Rmm.PropLife
import Verif.Rmm.PropView

/-!
# The hardware walks the realm's own root tables (C51)

REC_CREATE gives VTCR_EL2 and VTTBR_EL2 of a REC the values of `Verif.Vtcr.Model`; `Verif.Vtcr.Spec` says what the
hardware makes of them.  `rootFor` and `idx` (`Verif.Rmm.State`) are where the RMM itself keeps the entry.
-/

namespace Verif.Vtcr

open Rmm
open Features (W field)

/-- The registers of a REC of realm `r` on platform `P`: rec.c:106-125. -/
def regs (P : Plat) (vmid16 : Bool) (r : Rd) : Option (W × W) :=
  (realmVtcr vmid16 P.hw.paWidth (3 - (r.d0 : Int)) r.ipaBits r.lpa2).map fun v => (v, vttbr r.root r.vmid r.lpa2)

/-- A platform as hardware has it: the physical address width is one of the architecture's, no memory is beyond it,
and the number of VMIDs is the one of vmid.c:37. -/
structure RealPlat (P : Plat) (vmid16 : Bool) : Prop where
  ok : PlatOk P
  width : P.hw.paWidth ∈ paWidths
  inside : ∀ a, P.tracked a = true → a < 2 ^ P.hw.paWidth
  vmids : P.vmidCount = if vmid16 then 2 ^ 16 else 2 ^ 8

/-- The walk the hardware performs with the two registers in memory `s`. -/
def walkFrom (s : State) (vtcr vttbr : W) (ipa : Nat) : Option (Entry × Nat) :=
  match Spec.firstDesc vtcr vttbr ipa, Spec.startLevel vtcr with
  | some pa, some l =>
    match getTab s (pa / 4096 * 4096) with
    | none => none
    | some t =>
      match (3 - l).toNat, t (pa % 4096 / 8) with
      | d + 1, .table c => hwWalk s ipa d c
      | d, e => some (e, d)
  | _, _ => none

section
variable {P : Plat} {s : State} {vmid16 : Bool} {rdA : Nat}

/-- C51: the registers of a realm's RECs describe the geometry that REALM_CREATE accepted. -/
theorem C51_geometry (hP : RealPlat P vmid16) (hr : Reach P s) (hrd : s.st rdA = .rd) :
    ∃ v t, regs P vmid16 (rdOf s rdA) = some (v, t) ∧ Spec.Sane v ∧
      Spec.startLevel v = some (3 - ((rdOf s rdA).d0 : Int)) ∧
      Spec.iaSize v = (rdOf s rdA).ipaBits ∧
      Spec.ds v = (rdOf s rdA).lpa2 ∧
      Spec.oaSize v = (if (rdOf s rdA).lpa2 then P.hw.paWidth else min P.hw.paWidth 48) ∧
      (field 19 1 v = 1 ↔ vmid16 = true) ∧
      t = vttbr (rdOf s rdA).root (rdOf s rdA).vmid (rdOf s rdA).lpa2 := by
  obtain ⟨ti, di, rl, h⟩ := hr.inv hP.ok
  have hg := (h.rds rdA hrd).geo
  generalize rdOf s rdA = r at hg
  have hd := hg.d0
  have hb := hg.bits
  have hb1 := hg.bits1
  have hb' : r.ipaBits - 32 < 21 := by split at hb <;> omega
  have hd' : r.d0 < 5 := by split at hd <;> omega
  obtain ⟨v, h1, h2, h3, h4, h5, h6, h7⟩ := vtcr_table vmid16 r.lpa2 P.hw.paWidth hP.width ⟨r.d0, hd'⟩
    ⟨r.ipaBits - 32, hb'⟩ hd
  have e : 32 + (r.ipaBits - 32) = r.ipaBits := by omega
  dsimp only at h1 h4 h5
  rw [e] at h1 h4
  exact ⟨v, vttbr r.root r.vmid r.lpa2, by unfold regs; rw [h1]; rfl, h2, h5, h4, h3, h6, h7, rfl⟩

/-- Number of root tables and bits of the starting level index. -/
theorem geo_bits {r : Rd} (hg : Geo r) : ∃ k, 1 ≤ k ∧ r.ipaBits = 12 + 9 * r.d0 + k ∧
    r.nroots = 2 ^ (k - 9) ∧ (r.d0 = 4 → k ≤ 4) := by
  obtain ⟨h, h1, _, h3, h4, h5, h6⟩ := hg.halves
  have hn := hg.roots1
  unfold Rd.ipaSize at h3
  rw [sz_eq] at h3
  obtain ⟨h7, h8⟩ := Geometry.pow_split h3
  refine ⟨r.ipaBits - (12 + 9 * r.d0), ?_, by omega, ?_, ?_⟩
  · rcases Nat.eq_zero_or_pos (r.ipaBits - (12 + 9 * r.d0)) with e | e
    · rw [e] at h8; omega
    · exact e
  · generalize r.ipaBits - (12 + 9 * r.d0) = k at h8
    rw [h8] at h4 h5
    rcases Nat.lt_or_ge k 9 with hk | hk
    · rw [Nat.sub_eq_zero_of_le (by omega)]
      have : 2 ^ k ≤ 2 ^ 9 := Nat.pow_le_pow_right (by omega) (by omega)
      omega
    · have e : 2 ^ k = 2 ^ (k - 9) * 512 := by
        rw [show (512 : Nat) = 2 ^ 9 from rfl, ← Nat.pow_add]; congr 1; omega
      have := Nat.two_pow_pos (k - 9)
      omega
  · intro hd
    have := h6 hd
    rw [h8] at this
    by_contra hc
    have : 2 ^ 5 ≤ 2 ^ (r.ipaBits - (12 + 9 * r.d0)) := Nat.pow_le_pow_right (by omega) (by omega)
    omega

/-- Where the RMM keeps the entry of the starting level, as one array. -/
theorem own_entry {r : Rd} (hg : Geo r) {ipa : Nat} (hi : ipa < r.ipaSize) :
    (rootFor r ipa).2 + 8 * idx r.d0 ipa = r.root + 8 * (ipa / sz r.d0) := by
  obtain ⟨k, hk, hb, hn, h4⟩ := geo_bits hg
  unfold rootFor idx
  dsimp only
  rw [Nat.mod_eq_of_lt hi]
  have hlt : ipa / sz r.d0 < 2 ^ k := by
    rw [Nat.div_lt_iff_lt_mul (sz_pos _), sz_eq, ← Nat.pow_add]
    unfold Rd.ipaSize at hi
    rw [hb, Nat.add_comm] at hi
    exact hi
  by_cases hd : r.d0 = 4
  · have : 2 ^ k ≤ 2 ^ 4 := Nat.pow_le_pow_right (by omega) (h4 hd)
    rw [if_neg (by omega), if_pos hd, Nat.mod_eq_of_lt (by omega)]; omega
  · rw [if_neg hd]
    split <;> omega

/-- The hardware's base address when the address fits in the register. -/
theorem base_eq (hP : RealPlat P vmid16) (hr : Reach P s) (hrd : s.st rdA = .rd) {v t : W}
    (e : regs P vmid16 (rdOf s rdA) = some (v, t)) :
    ∃ k n, 1 ≤ k ∧ (rdOf s rdA).ipaBits = 12 + 9 * (rdOf s rdA).d0 + k ∧ (rdOf s rdA).nroots = 2 ^ (k - 9) ∧
      (n = k + 3 ∨ (k + 3 ≤ 6 ∧ n = 6)) ∧
      Spec.base v t (3 - ((rdOf s rdA).d0 : Int)) =
        (if (rdOf s rdA).lpa2 then (rdOf s rdA).root else (rdOf s rdA).root % 2 ^ 48) / 2 ^ n * 2 ^ n := by
  obtain ⟨v', t', e', hs, hl, hia, hds, hoa, -, ht⟩ := C51_geometry hP hr hrd
  rw [e] at e'
  obtain ⟨rfl, rfl⟩ : v = v' ∧ t = t' := by cases e'; exact ⟨rfl, rfl⟩
  obtain ⟨ti, di, rl, h⟩ := hr.inv hP.ok
  have hg := (h.rds rdA hrd).geo
  have hroot := h.trk (rdOf s rdA).root (by
    have := ((h.rds rdA hrd).roots 0 hg.roots1).1
    rw [Nat.mul_zero, Nat.add_zero] at this
    rw [this]; exact fun h => by cases h)
  have hal := hP.ok.aligned _ hroot
  have h52 := hP.ok.small _ hroot
  have hpa := hP.inside _ hroot
  generalize rdOf s rdA = r at *
  obtain ⟨k, hk, hb, hn, h4⟩ := geo_bits hg
  have hlow : Spec.lowBits (3 - (r.d0 : Int)) = 12 + 9 * r.d0 := by unfold Spec.lowBits; omega
  have htb : Spec.tableBits v (3 - (r.d0 : Int)) = k + 3 := by unfold Spec.tableBits; rw [hlow, hia, hb]; omega
  unfold Spec.base
  rw [htb]
  dsimp only
  by_cases hc : Spec.ds v = true ∧ Spec.oaSize v = 52
  · rw [if_pos hc]
    rw [hds] at hc
    rw [if_pos hc.1]
    refine ⟨k, max (k + 3) 6, hk, hb, hn, by omega, ?_⟩
    have ht1 : t = vttbr r.root r.vmid true := by rw [ht, hc.1]
    rw [ht1, vttbr_msb, vttbr_lsb]
    congr 2
    have := h52
    omega
  · rw [if_neg hc]
    refine ⟨k, k + 3, hk, hb, hn, Or.inl rfl, ?_⟩
    have h48 : r.lpa2 = true → r.root < 2 ^ 48 := by
      intro hl2
      have h1 : Spec.oaSize v ≠ 52 := fun h => hc ⟨hds.trans hl2, h⟩
      rw [hoa, if_pos hl2] at h1
      have h2 : P.hw.paWidth ≤ 48 := by
        have := hP.width
        simp only [paWidths, List.mem_cons, List.not_mem_nil, or_false] at this
        omega
      exact Nat.lt_of_lt_of_le hpa (Nat.pow_le_pow_right (by omega) h2)
    rw [ht, vttbr_addr _ _ _ h48 (by omega)]
    congr 2
    split
    · rename_i hl2; have := h48 hl2; omega
    · omega

/-- C51: the hardware finds the first descriptor of every IPA exactly where the RMM keeps it, precisely when the
root tables start at a multiple of their total size and VTTBR_EL2 can hold their address.  This is `_partial` because
REALM_CREATE does not check either (`C51_root_of_another`, `C51_truncated`). -/
theorem C51_first_iff_partial (hP : RealPlat P vmid16) (hr : Reach P s) (hrd : s.st rdA = .rd) {v t : W}
    (e : regs P vmid16 (rdOf s rdA) = some (v, t)) :
    (∀ ipa < 2 ^ (rdOf s rdA).ipaBits, Spec.firstDesc v t ipa =
      some ((rootFor (rdOf s rdA) ipa).2 + 8 * idx (rdOf s rdA).d0 ipa)) ↔
    (rdOf s rdA).root % (4096 * (rdOf s rdA).nroots) = 0 ∧ ((rdOf s rdA).lpa2 = false → (rdOf s rdA).root < 2 ^ 48) := by
  obtain ⟨k, n, hk, hb, hn, hnk, hbase⟩ := base_eq hP hr hrd e
  obtain ⟨v', t', e', -, hl, hia, -, -, -, -⟩ := C51_geometry hP hr hrd
  rw [e] at e'
  obtain ⟨rfl, rfl⟩ : v = v' ∧ t = t' := by cases e'; exact ⟨rfl, rfl⟩
  obtain ⟨ti, di, rl, h⟩ := hr.inv hP.ok
  have hg := (h.rds rdA hrd).geo
  have hroot := h.trk (rdOf s rdA).root (by
    have := ((h.rds rdA hrd).roots 0 hg.roots1).1
    rw [Nat.mul_zero, Nat.add_zero] at this
    rw [this]; exact fun h => by cases h)
  have hal := hP.ok.aligned _ hroot
  generalize rdOf s rdA = r at *
  have hfirst : ∀ ipa < 2 ^ r.ipaBits, Spec.firstDesc v t ipa =
      some (Spec.base v t (3 - (r.d0 : Int)) + 8 * (ipa / sz r.d0)) := by
    intro ipa hi
    unfold Spec.firstDesc
    rw [hl]
    dsimp only
    rw [hia, if_pos hi, hbase]
    have hlow : Spec.lowBits (3 - (r.d0 : Int)) = 12 + 9 * r.d0 := by unfold Spec.lowBits; omega
    rw [hlow, ← sz_eq]
    have hlt : ipa / sz r.d0 < 2 ^ k := by
      rw [Nat.div_lt_iff_lt_mul (sz_pos _), sz_eq, ← Nat.pow_add]
      rw [hb, Nat.add_comm] at hi
      exact hi
    have hlt2 : ipa / sz r.d0 * 8 < 2 ^ n := by
      have h1 : 2 ^ (k + 3) ≤ 2 ^ n := Nat.pow_le_pow_right (by omega) (by omega)
      have h2 : 2 ^ (k + 3) = 2 ^ k * 8 := by rw [Nat.pow_add]
      omega
    rw [Nat.mul_comm _ (2 ^ n), ← Nat.two_pow_add_eq_or_of_lt hlt2, Nat.mul_comm 8]
  have hiff : (∀ ipa < 2 ^ r.ipaBits, Spec.firstDesc v t ipa = some ((rootFor r ipa).2 + 8 * idx r.d0 ipa)) ↔
      Spec.base v t (3 - (r.d0 : Int)) = r.root := by
    constructor
    · intro hh
      have h0 := hh 0 (Nat.two_pow_pos _)
      rw [hfirst 0 (Nat.two_pow_pos _), own_entry hg (Nat.two_pow_pos _)] at h0
      simp only [Option.some.injEq] at h0
      omega
    · intro hh ipa hi
      rw [hfirst ipa hi, own_entry hg hi, hh]
  rw [hiff, hbase]
  have hdvd : r.root % (4096 * r.nroots) = 0 ↔ r.root % 2 ^ n = 0 := by
    rw [hn]
    by_cases h9 : k ≤ 9
    · rw [Nat.sub_eq_zero_of_le h9]
      have h1 : r.root % (4096 * 2 ^ 0) = 0 := by omega
      have h2 : 2 ^ n ∣ 2 ^ 12 := Nat.pow_dvd_pow _ (by omega)
      have h3 : r.root % 2 ^ n = 0 := Nat.mod_eq_zero_of_dvd (Nat.dvd_trans h2 (Nat.dvd_of_mod_eq_zero hal))
      simp only [h1, h3]
    · have : n = 12 + (k - 9) := by omega
      rw [this, Nat.pow_add]
  rw [hdvd]
  have hmul : ∀ x N : Nat, x / N * N = x ↔ x % N = 0 := by
    intro x N
    have := Nat.div_add_mod x N
    rw [Nat.mul_comm] at this
    omega
  cases hl2 : r.lpa2
  · simp only [Bool.false_eq_true, if_false, true_implies]
    constructor
    · intro hh
      have h1 : r.root % 2 ^ 48 / 2 ^ n * 2 ^ n ≤ r.root % 2 ^ 48 := Nat.div_mul_le_self _ _
      have h2 : r.root < 2 ^ 48 := by omega
      rw [Nat.mod_eq_of_lt h2] at hh
      exact ⟨(hmul _ _).1 hh, h2⟩
    · rintro ⟨h1, h2⟩
      rw [Nat.mod_eq_of_lt h2]
      exact (hmul _ _).2 h1
  · simp only [if_true, hmul, Bool.true_eq_false, false_implies, and_true]

/-- C51: with an aligned base the hardware's whole walk ends where the RMM's view of the address space says
(`leaf`, which the isolation properties C01-C04 are about). -/
theorem C51_walk_partial (hP : RealPlat P vmid16) (hr : Reach P s) (hrd : s.st rdA = .rd) {v t : W}
    (e : regs P vmid16 (rdOf s rdA) = some (v, t))
    (hal : (rdOf s rdA).root % (4096 * (rdOf s rdA).nroots) = 0)
    (hfit : (rdOf s rdA).lpa2 = false → (rdOf s rdA).root < 2 ^ 48) (ipa : Nat) :
    walkFrom s v t ipa = leaf s rdA ipa := by
  have hfirst := (C51_first_iff_partial hP hr hrd e).2 ⟨hal, hfit⟩
  obtain ⟨v', t', e', -, hl, hia, -, -, -, -⟩ := C51_geometry hP hr hrd
  rw [e] at e'
  obtain ⟨rfl, rfl⟩ : v = v' ∧ t = t' := by cases e'; exact ⟨rfl, rfl⟩
  obtain ⟨ti, di, rl, h⟩ := hr.inv hP.ok
  by_cases hi : ipa < 2 ^ (rdOf s rdA).ipaBits
  · obtain ⟨h1, h2, h3, h4⟩ := root_spec h hrd (a := ipa) hi
    have hra := hP.ok.aligned _ (h.trk _ (by rw [h3]; exact fun h => by cases h))
    have hlt := idx_lt (rdOf s rdA).d0 ipa
    unfold walkFrom leaf
    rw [hfirst ipa hi, hl, getRd_eq h hrd]
    dsimp only
    rw [if_pos (show ipa < (rdOf s rdA).ipaSize from hi)]
    have e1 : ((rootFor (rdOf s rdA) ipa).2 + 8 * idx (rdOf s rdA).d0 ipa) / 4096 * 4096 = (rootFor (rdOf s rdA) ipa).2 := by
      omega
    have e2 : ((rootFor (rdOf s rdA) ipa).2 + 8 * idx (rdOf s rdA).d0 ipa) % 4096 / 8 = idx (rdOf s rdA).d0 ipa := by
      omega
    have e3 : (3 - (3 - ((rdOf s rdA).d0 : Int))).toNat = (rdOf s rdA).d0 := by omega
    rw [e1, e2, e3]
    cases hd : (rdOf s rdA).d0 with
    | zero =>
      unfold hwWalk
      cases getTab s (rootFor (rdOf s rdA) ipa).2 <;> rfl
    | succ d =>
      conv_rhs => unfold hwWalk
      cases getTab s (rootFor (rdOf s rdA) ipa).2 with
      | none => rfl
      | some tb =>
        dsimp only
        cases tb (idx (d + 1) ipa) <;> rfl
  · rw [leaf_none h hrd (Nat.not_lt.1 hi)]
    unfold walkFrom Spec.firstDesc
    rw [hl]
    dsimp only
    rw [hia, if_neg hi]

/-- C51: with a misaligned base the hardware starts below the realm's first root table: the first descriptor
of IPA 0 is in none of them. -/
theorem C51_misaligned (hP : RealPlat P vmid16) (hr : Reach P s) (hrd : s.st rdA = .rd) {v t : W}
    (e : regs P vmid16 (rdOf s rdA) = some (v, t))
    (hal : (rdOf s rdA).root % (4096 * (rdOf s rdA).nroots) ≠ 0) :
    ∃ pa, Spec.firstDesc v t 0 = some pa ∧ pa < (rdOf s rdA).root := by
  obtain ⟨k, n, hk, hb, hn, hnk, hbase⟩ := base_eq hP hr hrd e
  obtain ⟨v', t', e', -, hl, hia, -, -, -, -⟩ := C51_geometry hP hr hrd
  rw [e] at e'
  obtain ⟨rfl, rfl⟩ : v = v' ∧ t = t' := by cases e'; exact ⟨rfl, rfl⟩
  obtain ⟨ti, di, rl, h⟩ := hr.inv hP.ok
  have hg := (h.rds rdA hrd).geo
  have hroot := h.trk (rdOf s rdA).root (by
    have := ((h.rds rdA hrd).roots 0 hg.roots1).1
    rw [Nat.mul_zero, Nat.add_zero] at this
    rw [this]; exact fun h => by cases h)
  have h4096 := hP.ok.aligned _ hroot
  refine ⟨Spec.base v t (3 - ((rdOf s rdA).d0 : Int)), ?_, ?_⟩
  · unfold Spec.firstDesc
    rw [hl]
    dsimp only
    rw [if_pos (Nat.two_pow_pos _), Nat.zero_div, Nat.zero_mul, Nat.or_zero]
  · rw [hbase]
    generalize rdOf s rdA = r at *
    have h1 : (if r.lpa2 = true then r.root else r.root % 2 ^ 48) / 2 ^ n * 2 ^ n ≤
        (if r.lpa2 = true then r.root else r.root % 2 ^ 48) := Nat.div_mul_le_self _ _
    have h2 : (if r.lpa2 = true then r.root else r.root % 2 ^ 48) ≤ r.root := by
      split
      · exact Nat.le_refl _
      · exact Nat.mod_le _ _
    refine Nat.lt_of_le_of_ne (Nat.le_trans h1 h2) fun heq => hal ?_
    have hd : 2 ^ n ∣ r.root := by rw [← heq]; exact Nat.dvd_mul_left _ _
    rw [hn]
    by_cases h9 : k ≤ 9
    · rw [Nat.sub_eq_zero_of_le h9]; omega
    · have : n = 12 + (k - 9) := by omega
      rw [this, Nat.pow_add] at hd
      exact Nat.mod_eq_zero_of_dvd hd

/-- C51: the hardware tags a realm's translations with the VMID of the realm, so those of two live realms
have different tags. -/
theorem C51_vmid (hP : RealPlat P vmid16) (hr : Reach P s) (hrd : s.st rdA = .rd) {v t : W}
    (e : regs P vmid16 (rdOf s rdA) = some (v, t)) : Spec.vmid v t = (rdOf s rdA).vmid := by
  obtain ⟨v', t', e', -, -, -, -, -, hvs, ht⟩ := C51_geometry hP hr hrd
  rw [e] at e'
  obtain ⟨rfl, rfl⟩ : v = v' ∧ t = t' := by cases e'; exact ⟨rfl, rfl⟩
  obtain ⟨ti, di, rl, h⟩ := hr.inv hP.ok
  have hv := (h.rds rdA hrd).vmid.1
  rw [hP.vmids] at hv
  unfold Spec.vmid
  rw [ht, vttbr_vmid16, vttbr_vmid8]
  cases vmid16
  · rw [if_neg (fun hc => by have := hvs.1 hc; cases this)]
    exact Nat.mod_eq_of_lt hv
  · rw [if_pos (hvs.2 rfl)]
    exact Nat.mod_eq_of_lt hv

theorem C51_vmid_distinct (hP : RealPlat P vmid16) (hr : Reach P s) {rd1 rd2 : Nat} (h1 : s.st rd1 = .rd)
    (h2 : s.st rd2 = .rd) (hne : rd1 ≠ rd2) {v1 t1 v2 t2 : W} (e1 : regs P vmid16 (rdOf s rd1) = some (v1, t1))
    (e2 : regs P vmid16 (rdOf s rd2) = some (v2, t2)) : Spec.vmid v1 t1 ≠ Spec.vmid v2 t2 := by
  rw [C51_vmid hP hr h1 e1, C51_vmid hP hr h2 e2]
  exact C22_unique hP.ok hr h1 h2 hne

end

/-- C51: a realm without a PMU traps on every PMU register, one with a PMU does not and has exactly its counters
in the range it owns; the rest of MDCR_EL2 is the RMM's own setting. -/
theorem C51_pmu (m : W) (pmu : Bool) (ctrs : Nat) (hc : ctrs < 32) :
    (pmu = false → (mdcr m pmu ctrs).getLsbD 6 = true ∧ (mdcr m pmu ctrs).getLsbD 5 = true ∧
      field 0 5 (mdcr m pmu ctrs) = field 0 5 m) ∧
    (pmu = true → (mdcr m pmu ctrs).getLsbD 6 = false ∧ (mdcr m pmu ctrs).getLsbD 5 = false ∧
      field 0 5 (mdcr m pmu ctrs) = ctrs) ∧
    ∀ i, 7 ≤ i → (mdcr m pmu ctrs).getLsbD i = m.getLsbD i := by
  have hct : ∀ j, 5 ≤ j → ctrs.testBit j = false := fun j hj =>
    Nat.testBit_lt_two_pow (Nat.lt_of_lt_of_le hc (Nat.pow_le_pow_right (by omega) hj : 2 ^ 5 ≤ 2 ^ j))
  have htp : ∀ k : Fin 64, (1#64 <<< 6 ||| 1#64 <<< 5).getLsbD k = decide (k.val = 5 ∨ k.val = 6) := by decide
  have key : ∀ i < 64, (mdcr m pmu ctrs).getLsbD i =
      if pmu then (if i < 5 then ctrs.testBit i else if i < 7 then false else m.getLsbD i)
      else (m.getLsbD i || decide (i = 5 ∨ i = 6)) := by
    intro i hi
    have h1 := htp ⟨i, hi⟩
    dsimp only at h1
    unfold mdcr
    cases pmu
    · simp only [Bool.false_eq_true, if_false]
      rw [BitVec.getLsbD_or, h1]
    · simp only [if_true]
      rw [BitVec.getLsbD_or, BitVec.getLsbD_and, BitVec.getLsbD_and, BitVec.getLsbD_not, BitVec.getLsbD_not, h1,
        Features.bit_mask _ _ _ (by omega), bit_inplace _ _ _ hi]
      by_cases h5 : i < 5
      · have a : ¬ (i = 5 ∨ i = 6) := by omega
        simp [h5, hi]
      · have b := hct i (by omega)
        by_cases h7 : i < 7
        · have a : (i = 5 ∨ i = 6) := by omega
          simp [h5, h7, a, b]
        · have a : ¬ (i = 5 ∨ i = 6) := by omega
          simp [h5, h7, a, b, hi]
  refine ⟨?_, ?_, ?_⟩
  · rintro rfl
    refine ⟨by rw [key 6 (by omega)]; simp, by rw [key 5 (by omega)]; simp, ?_⟩
    apply Nat.eq_of_testBit_eq
    intro i
    rw [field_bits, field_bits]
    by_cases h : i < 5
    · rw [key _ (by omega)]
      have a : ¬ (0 + i = 5 ∨ 0 + i = 6) := by omega
      simp only [a, decide_false, Bool.or_false, Bool.false_eq_true, if_false]
    · simp [h]
  · rintro rfl
    refine ⟨by rw [key 6 (by omega)]; simp, by rw [key 5 (by omega)]; simp, ?_⟩
    apply Nat.eq_of_testBit_eq
    intro i
    rw [field_bits]
    by_cases h : i < 5
    · rw [key _ (by omega)]
      simp [h]
    · simp [h, hct i (by omega)]
  · intro i hi
    by_cases h : i < 64
    · rw [key i h]
      have a : ¬ (i = 5 ∨ i = 6) := by omega
      have b : ¬ i < 5 := by omega
      have c : ¬ i < 7 := by omega
      simp only [a, b, c, decide_false, Bool.or_false, if_false, ite_self]
    · rw [BitVec.getLsbD_of_ge _ _ (by omega), BitVec.getLsbD_of_ge _ _ (by omega)]

/-! ## Concrete cases -/

open Demo

/-- The platform of the examples, with memory up to 2^52. -/
def bigPlat : Plat := { plat with tracked := fun a => a % 4096 == 0 && decide (a < 2 ^ 52) }

theorem plat_real : RealPlat plat false where
  ok := plat_ok
  width := by decide
  inside := fun a h => Nat.lt_of_lt_of_le (plat_ok.small a h) (by decide)
  vmids := by decide

theorem bigPlat_real : RealPlat bigPlat false where
  ok := by
    constructor
    · intro a h; simp only [bigPlat, Bool.and_eq_true, beq_iff_eq, decide_eq_true_eq] at h; exact h.1
    · intro a h; simp only [bigPlat, Bool.and_eq_true, beq_iff_eq, decide_eq_true_eq] at h; exact h.2
    · exact plat_ok.hw
  width := by decide
  inside := fun a h => by
    simp only [bigPlat, Bool.and_eq_true, beq_iff_eq, decide_eq_true_eq] at h; exact h.2
  vmids := by decide

/-- Parameters of a realm with a 40 bit IPA space that starts at level 1 with 2 concatenated tables. -/
def rparams40 (root vmid : Nat) : RealmParams :=
  { rparams root vmid with p := { (rparams root vmid).p with s2sz := 40, rttNumStart := 2 } }

/-- A realm with a data page (22), and another one with root tables 23 and 24. -/
def oddRoot : List Op :=
  mkRealm ++ delegates 22 4 ++ [.rttInitRipas (G 16) 0 16384, .dataCreate (G 16) (G 22) 0 (G 5) 1,
    .realmCreate (G 25) (G 1) (rparams40 (G 23) 8)]

/-- A realm with root tables 24 and 25. -/
def evenRoot : List Op := delegates 24 3 ++ [.realmCreate (G 26) (G 1) (rparams40 (G 24) 8)]

/-- A realm with a data page (22), and another one without LPA2 and with a root table at 2^48 + 22 pages. -/
def highRoot : List Op :=
  mkRealm ++ delegates 22 4 ++ [.rttInitRipas (G 16) 0 16384, .dataCreate (G 16) (G 22) 0 (G 5) 1,
    .granuleDelegate (2 ^ 48 + G 22), .realmCreate (G 25) (G 1) (rparams (2 ^ 48 + G 22) 8)]

/-- C51 fails: REALM_CREATE accepts root tables that do not start at a multiple of their size, and the hardware
then walks the memory of another realm as a root table (realm.c:234-477 has no check). -/
theorem C51_root_of_another : ∃ s rd1 rd2 v t pa, Reach plat s ∧ s.st rd1 = .rd ∧ s.st rd2 = .rd ∧ rd1 ≠ rd2 ∧
    regs plat false (rdOf s rd1) = some (v, t) ∧ Spec.firstDesc v t 0 = some pa ∧
    view s rd2 0 = some (.assigned .ram (pa / 4096 * 4096)) := by
  obtain ⟨s, hr, h⟩ := Demo.ex oddRoot (fun s => decide (s.st (G 25) = .rd) && decide (s.st (G 16) = .rd) &&
    (regs plat false (rdOf s (G 25))).any fun x => (Spec.firstDesc x.1 x.2 0).any fun pa =>
      decide (view s (G 16) 0 = some (.assigned .ram (pa / 4096 * 4096)))) (by decide +kernel)
  simp only [Bool.and_eq_true, decide_eq_true_eq, Option.any_eq_true] at h
  obtain ⟨⟨h1, h2⟩, ⟨v, t⟩, h3, pa, h4, h5⟩ := h
  exact ⟨s, _, _, v, t, pa, hr, h1, h2, by decide, h3, h4, h5⟩

/-- C51 fails: REALM_CREATE without LPA2 accepts root tables beyond 48 bits, VTTBR_EL2 holds the low 48 bits of
their address, and the hardware walks the memory of another realm. -/
theorem C51_truncated : ∃ s rd1 rd2 v t pa, Reach bigPlat s ∧ s.st rd1 = .rd ∧ s.st rd2 = .rd ∧ rd1 ≠ rd2 ∧
    regs bigPlat false (rdOf s rd1) = some (v, t) ∧ Spec.firstDesc v t 0 = some pa ∧
    view s rd2 0 = some (.assigned .ram (pa / 4096 * 4096)) := by
  have h : (run bigPlat boot highRoot).any (fun s => decide (s.st (G 25) = .rd) && decide (s.st (G 16) = .rd) &&
    (regs bigPlat false (rdOf s (G 25))).any fun x => (Spec.firstDesc x.1 x.2 0).any fun pa =>
      decide (view s (G 16) 0 = some (.assigned .ram (pa / 4096 * 4096)))) = true := by decide +kernel
  rw [Option.any_eq_true] at h
  obtain ⟨s, hs, h⟩ := h
  have hr : Reach bigPlat s := run_reach _ (.init (by constructor <;> intro a <;> simp [boot])) hs
  simp only [Bool.and_eq_true, decide_eq_true_eq, Option.any_eq_true] at h
  obtain ⟨⟨h1, h2⟩, ⟨v, t⟩, h3, pa, h4, h5⟩ := h
  exact ⟨s, _, _, v, t, pa, hr, h1, h2, by decide, h3, h4, h5⟩

/-- The hypotheses of the positive theorems are met by a realm with two root tables. -/
example : ∃ s rdA v t, Reach plat s ∧ s.st rdA = .rd ∧ regs plat false (rdOf s rdA) = some (v, t) ∧
    (rdOf s rdA).nroots = 2 ∧ (rdOf s rdA).root % (4096 * (rdOf s rdA).nroots) = 0 ∧ (rdOf s rdA).root < 2 ^ 48 ∧
    Spec.firstDesc v t (2 ^ 39 + 2 ^ 30 + 5) = some (G 25 + 8) := by
  obtain ⟨s, hr, h⟩ := Demo.ex evenRoot (fun s => decide (s.st (G 26) = .rd) &&
    (decide ((rdOf s (G 26)).nroots = 2) && decide ((rdOf s (G 26)).root % (4096 * (rdOf s (G 26)).nroots) = 0) &&
    decide ((rdOf s (G 26)).root < 2 ^ 48)) && (regs plat false (rdOf s (G 26))).any fun x =>
      decide (Spec.firstDesc x.1 x.2 (2 ^ 39 + 2 ^ 30 + 5) = some (G 25 + 8))) (by decide +kernel)
  simp only [Bool.and_eq_true, decide_eq_true_eq, Option.any_eq_true] at h
  obtain ⟨⟨h1, ⟨h2, h3⟩, h4⟩, ⟨v, t⟩, h5, h6⟩ := h
  exact ⟨s, _, v, t, hr, h1, h5, h2, h3, h4, h6⟩

/-- The hypothesis of `C51_misaligned` is met. -/
example : ∃ s rdA v t, Reach plat s ∧ s.st rdA = .rd ∧ regs plat false (rdOf s rdA) = some (v, t) ∧
    (rdOf s rdA).root % (4096 * (rdOf s rdA).nroots) ≠ 0 := by
  obtain ⟨s, hr, h⟩ := Demo.ex oddRoot (fun s => decide (s.st (G 25) = .rd) &&
    decide ((rdOf s (G 25)).root % (4096 * (rdOf s (G 25)).nroots) ≠ 0) &&
    (regs plat false (rdOf s (G 25))).any fun _ => true) (by decide +kernel)
  simp only [Bool.and_eq_true, decide_eq_true_eq, Option.any_eq_true] at h
  obtain ⟨⟨h1, h2⟩, ⟨v, t⟩, h3, _⟩ := h
  exact ⟨s, _, v, t, hr, h1, h3, h2⟩

example : field 0 5 (mdcr 0xffffffffffffffff true 4) = 4 := by decide

end Verif.Vtcr
