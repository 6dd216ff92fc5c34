import Verif.Desc.SimRtt

/-!
# Simulation: mapping, reading, data granules, RIPAS
-/

namespace Verif.Desc

open Rmm (State Plat Ret Rd GSt Walk Content Tlbi upd lk getRd getRec getTab idx sz rootFor dOf Entry InvG rdOf tabOf)
open Rmm (splitEntry uniform mapsAssigned mapsNs foldEntry scan skipNonLive PlatOk)
open Rmm (validateMapAddr validateStruct validateMap validateEntry errInput errRtt errRealm errRec)
open S2tte

section
variable {P : Plat} {a : State} {c : CState} {lp : Nat → Bool} {dp : Nat → Nat}
variable {ti : Nat → Rmm.TabInfo} {di : Nat → Nat × Nat} {rl : Nat → List Nat}

/-! ## Unprotected mappings -/

theorem rttMapUnprotected_sim (h : InvG P a ti di rl) (R : Rel a c lp dp) (rdA x : Nat) (lvl : Int) (hd : W) :
    Sim (Rmm.rttMapUnprotected P a rdA x lvl hd) (rttMapUnprotectedW P c rdA x lvl hd) := by
  unfold Rmm.rttMapUnprotected rttMapUnprotectedW
  rw [R.same, lk_strip, getRd_strip]
  by_cases h0 : 1 ≤ lvl ∧ lvl ≤ 3
  swap
  · rw [if_neg h0, if_neg h0]; exact R.refl _
  rw [if_pos h0, if_pos h0]
  by_cases h1 : lk P a rdA .rd = true
  swap
  · rw [if_neg h1, if_neg h1]; exact R.refl _
  rw [if_pos h1, if_pos h1]
  have hrd := ((Rmm.lk_iff _ _ _ _).mp h1).2
  rw [Rmm.getRd_eq h hrd]
  dsimp only
  cases hv : hostNsIsValid (rdOf a rdA).lpa2 hd lvl with
  | none => exact Sim.none
  | some b =>
  cases b with
  | false => exact R.refl _
  | true =>
  dsimp only
  by_cases h2 : validateMap (rdOf a rdA) x lvl = true
  swap
  · rw [if_neg h2, if_neg h2]; exact R.refl _
  rw [if_pos h2, if_pos h2]
  obtain ⟨d, rfl, hd2, _⟩ := (Rmm.validateMap_iff _ _ _).mp h2
  by_cases h3 : (rdOf a rdA).inPar x = true
  · rw [if_pos h3, if_pos h3]; exact R.refl _
  rw [if_neg h3, if_neg h3, Rmm.dOf_sub]
  obtain ⟨hw, hws⟩ := walk_eq h R hrd x d
  rw [hw]
  cases hw' : Rmm.walk a (rdOf a rdA) x d with
  | none => exact Sim.none
  | some w =>
  obtain ⟨k, ki⟩ := hws w hw'
  dsimp only
  by_cases h4 : w.d = d
  swap
  · rw [if_neg h4, if_neg h4]; exact R.refl _
  rw [if_pos h4, if_pos h4, Rmm.getTab_of_mem k.mem, k.tw]
  dsimp only
  have ke := k.enc _ ki
  rw [ke.un]
  obtain ⟨v, hv1, hv2⟩ := enc_host (rdOf a rdA) hd hd2 hv
  rw [hv1]
  cases he : tabOf a w.g w.i with
  | unassignedNs =>
    refine Sim.some ⟨lp, dp, R.put k.mem w.i ?_ ?_⟩ rfl
    · rw [k.lp, k.dp, h4]; exact hv2
    · intro q hq; cases hq
  | unassigned r => cases r <;> exact R.refl _
  | assigned r _ => cases r <;> exact R.refl _
  | assignedNs _ _ => exact R.refl _
  | table _ => exact R.refl _

theorem rttUnmapUnprotected_sim (h : InvG P a ti di rl) (R : Rel a c lp dp) (rdA x : Nat) (lvl : Int) :
    Sim (Rmm.rttUnmapUnprotected P a rdA x lvl) (rttUnmapUnprotectedW P c rdA x lvl) := by
  unfold Rmm.rttUnmapUnprotected rttUnmapUnprotectedW
  rw [R.same, lk_strip, getRd_strip]
  by_cases h0 : 1 ≤ lvl ∧ lvl ≤ 3
  swap
  · rw [if_neg h0, if_neg h0]; exact R.refl _
  rw [if_pos h0, if_pos h0]
  by_cases h1 : lk P a rdA .rd = true
  swap
  · rw [if_neg h1, if_neg h1]; exact R.refl _
  rw [if_pos h1, if_pos h1]
  have hrd := ((Rmm.lk_iff _ _ _ _).mp h1).2
  rw [Rmm.getRd_eq h hrd]
  dsimp only
  by_cases h2 : validateMap (rdOf a rdA) x lvl = true
  swap
  · rw [if_neg h2, if_neg h2]; exact R.refl _
  rw [if_pos h2, if_pos h2]
  obtain ⟨d, rfl, hd2, _⟩ := (Rmm.validateMap_iff _ _ _).mp h2
  by_cases h3 : (rdOf a rdA).inPar x = true
  · rw [if_pos h3, if_pos h3]; exact R.refl _
  rw [if_neg h3, if_neg h3, Rmm.dOf_sub]
  obtain ⟨hw, hws⟩ := walk_eq h R hrd x d
  rw [hw]
  cases hw' : Rmm.walk a (rdOf a rdA) x d with
  | none => exact Sim.none
  | some w =>
  obtain ⟨k, ki⟩ := hws w hw'
  dsimp only
  rw [Rmm.getTab_of_mem k.mem, k.tw]
  dsimp only
  have ke := k.enc _ ki
  rw [ke.an, skipW_eq k.enc ki x]
  have hns : Enc (rdOf a rdA).lpa2 w.d .unassignedNs createUnassignedNs := ⟨trivial, rfl⟩
  rw [skipW_eq (EncT.upd k.enc w.i hns) ki x]
  by_cases h4 : w.d = d
  swap
  · rw [if_neg h4, if_pos (Or.inl h4)]; exact R.refl _
  rw [if_pos h4]
  by_cases ht : 7 = kind (tabOf a w.g w.i)
  · have p1 : ¬ (w.d ≠ d ∨ decide (7 = kind (tabOf a w.g w.i)) = false) := by simp [ht, h4]
    rw [if_neg p1]
    obtain ⟨at_, pa, he⟩ := kind_ns.1 ht
    rw [he]
    refine Sim.some ⟨lp, dp, R.put k.mem w.i ?_ ?_⟩ rfl
    · rw [k.lp, k.dp]; exact hns
    · intro q hq; cases hq
  · have p1 : w.d ≠ d ∨ decide (7 = kind (tabOf a w.g w.i)) = false := by simp [ht]
    rw [if_pos p1]
    cases he : tabOf a w.g w.i with
    | assignedNs _ _ => rw [he] at ht; exact absurd rfl ht
    | _ => exact R.refl _

/-! ## RTT_READ_ENTRY -/

theorem readRegs_eq (r : Rd) {d : Nat} {e : Entry} {w : W} (h : Enc r.lpa2 d e w) :
    readRegsW r.lpa2 w (3 - (d : Int)) = some (Rmm.readRegs r e) := by
  unfold readRegsW
  rw [h.ue, h.ur, h.ud, h.ae, h.ar, h.ad, h.un, h.an, h.tb]
  cases e with
  | unassigned q => cases q <;> rfl
  | unassignedNs => rfl
  | assigned q pa =>
    have h1 := h.pa rfl
    have h2 := (h.lt (pa := pa) rfl).2
    rw [h1]
    cases q <;> simp [kind, Rmm.readRegs, h2] <;> rfl
  | assignedNs at_ pa => rw [h.host]; simp [kind, Rmm.readRegs]
  | table pa =>
    have h1 := h.pa rfl
    have h2 := (h.lt (pa := pa) rfl).2
    rw [h1]
    simp [kind, Rmm.readRegs, h2]

theorem rttReadEntry_sim (h : InvG P a ti di rl) (R : Rel a c lp dp) (rdA x : Nat) (lvl : Int) :
    Sim (Rmm.rttReadEntry P a rdA x lvl) (rttReadEntryW P c rdA x lvl) := by
  unfold Rmm.rttReadEntry rttReadEntryW
  rw [R.same, lk_strip, getRd_strip]
  by_cases h1 : lk P a rdA .rd = true
  swap
  · rw [if_neg h1, if_neg h1]; exact R.refl _
  rw [if_pos h1, if_pos h1]
  have hrd := ((Rmm.lk_iff _ _ _ _).mp h1).2
  rw [Rmm.getRd_eq h hrd]
  dsimp only
  by_cases h2 : validateEntry (rdOf a rdA) x lvl = true
  swap
  · rw [if_neg h2, if_neg h2]; exact R.refl _
  rw [if_pos h2, if_pos h2]
  obtain ⟨hw, hws⟩ := walk_eq h R hrd x (dOf lvl)
  rw [hw]
  cases hw' : Rmm.walk a (rdOf a rdA) x (dOf lvl) with
  | none => exact Sim.none
  | some w =>
  obtain ⟨k, ki⟩ := hws w hw'
  dsimp only
  rw [Rmm.getTab_of_mem k.mem, k.tw]
  dsimp only
  rw [readRegs_eq (rdOf a rdA) (k.enc _ ki)]
  exact R.refl _

/-! ## Data granules -/

theorem dataCreateSt_rel (R : Rel a c lp dp) {data g i : Nat} {t : Nat → Entry} {rp : Ripas} {v : W}
    (hm : a.mem g = .table t) (hv : Enc (lp g) (dp g) (.assigned rp data) v) :
    Refines (Rmm.dataCreateSt a data g i t rp) (dataCreateStW c data g i (c.tw g) v) := by
  have R1 := R.put hm i hv (by intro q hq; cases hq)
  refine ⟨lp, dp, R1.of_mem rfl ?_ rfl⟩
  have hs := R1.same
  have e1 : c.s.st = a.st := by rw [R.same]; rfl
  have e2 : c.s.rc = a.rc := by rw [R.same]; rfl
  unfold dataCreateStW Rmm.dataCreateSt
  dsimp only
  rw [hs, e1, e2]
  rfl

theorem dataCreateUnknown_sim (hP : PlatOk P) (h : InvG P a ti di rl) (R : Rel a c lp dp) (rdA data x : Nat) :
    Sim (Rmm.dataCreateUnknown P a rdA data x) (dataCreateUnknownW P c rdA data x) := by
  unfold Rmm.dataCreateUnknown dataCreateUnknownW
  rw [R.same, lk_strip, lk_strip, getRd_strip]
  by_cases h1 : (lk P a data .delegated && lk P a rdA .rd) = true
  swap
  · rw [if_neg h1, if_neg h1]; exact R.refl _
  rw [if_pos h1, if_pos h1]
  simp only [Bool.and_eq_true, Rmm.lk_iff] at h1
  obtain ⟨⟨htr, hdt⟩, _, hrd⟩ := h1
  rw [Rmm.getRd_eq h hrd]
  dsimp only
  by_cases h2 : ((rdOf a rdA).inPar x && validateMapAddr (rdOf a rdA) x 0) = true
  swap
  · rw [if_neg h2, if_neg h2]; exact R.refl _
  rw [if_pos h2, if_pos h2]
  simp only [Bool.and_eq_true] at h2
  by_cases h3 : (rdOf a rdA).lpa2 = false ∧ 2 ^ 48 ≤ data
  · rw [if_pos h3, if_pos h3]; exact R.refl _
  rw [if_neg h3, if_neg h3]
  obtain ⟨hlt, _, _⟩ := (Rmm.validateMapAddr_iff _ _ _).mp h2.2
  obtain ⟨hw, hws⟩ := walk_eq h R hrd x 0
  rw [hw]
  obtain ⟨g, dw, hw', hat, _, _⟩ := Rmm.walk_at h hrd hlt (Nat.zero_le _)
  obtain ⟨k, ki⟩ := hws _ hw'
  rw [hw']
  dsimp only at k ki ⊢
  by_cases h4 : dw = 0
  swap
  · rw [if_neg h4, if_neg h4]; exact R.refl _
  rw [if_pos h4, if_pos h4]
  subst h4
  rw [Rmm.getTab_of_mem k.mem, k.tw]
  dsimp only
  have ke := k.enc _ ki
  rw [ke.un_any]
  have hpa := pa_lt (lpa2 := (rdOf a rdA).lpa2) hP htr (by intro hl; by_contra hc; exact h3 ⟨hl, by omega⟩)
  cases he : tabOf a g (idx 0 x) with
  | unassigned rp =>
    rw [he] at ke
    obtain ⟨v, hv1, hv2⟩ := ke.unchanged (hP.aligned _ htr) hpa
    rw [hv1]
    exact Sim.some (dataCreateSt_rel R k.mem (by rw [k.lp, k.dp]; exact hv2)) rfl
  | unassignedNs =>
    have := hat.ent h
    rw [he] at this
    exfalso
    have hp : x < (rdOf a rdA).parSize := by simpa [Rmm.Rd.inPar] using h2.1
    have h5 := this.1
    have h6 := Nat.div_mul_le_self x (sz 0)
    omega
  | assigned _ _ => exact R.refl _
  | assignedNs _ _ => exact R.refl _
  | table _ => exact R.refl _

theorem dataCreate_sim (hP : PlatOk P) (h : InvG P a ti di rl) (R : Rel a c lp dp) (rdA data x src flags : Nat) :
    Sim (Rmm.dataCreate P a rdA data x src flags) (dataCreateW P c rdA data x src flags) := by
  unfold Rmm.dataCreate dataCreateW
  by_cases h01 : flags ≠ 0 ∧ flags ≠ 1
  · rw [if_pos h01, if_pos h01]; exact R.refl _
  rw [if_neg h01, if_neg h01]
  rw [R.same, lk_strip, lk_strip, lk_strip, getRd_strip]
  by_cases h02 : lk P a src .ns = true
  swap
  · rw [if_neg h02, if_neg h02]; exact R.refl _
  rw [if_pos h02, if_pos h02]
  have hsrc := ((Rmm.lk_iff _ _ _ _).mp h02).2
  by_cases h1 : (lk P a data .delegated && lk P a rdA .rd) = true
  swap
  · rw [if_neg h1, if_neg h1]; exact R.refl _
  rw [if_pos h1, if_pos h1]
  simp only [Bool.and_eq_true, Rmm.lk_iff] at h1
  obtain ⟨⟨htr, hdt⟩, _, hrd⟩ := h1
  rw [Rmm.getRd_eq h hrd]
  dsimp only
  by_cases h03 : (rdOf a rdA).state ≠ .new
  · rw [if_pos h03, if_pos h03]; exact R.refl _
  rw [if_neg h03, if_neg h03]
  by_cases h2 : ((rdOf a rdA).inPar x && validateMapAddr (rdOf a rdA) x 0) = true
  swap
  · rw [if_neg h2, if_neg h2]; exact R.refl _
  rw [if_pos h2, if_pos h2]
  simp only [Bool.and_eq_true] at h2
  by_cases h3 : (rdOf a rdA).lpa2 = false ∧ 2 ^ 48 ≤ data
  · rw [if_pos h3, if_pos h3]; exact R.refl _
  rw [if_neg h3, if_neg h3]
  obtain ⟨hlt, _, _⟩ := (Rmm.validateMapAddr_iff _ _ _).mp h2.2
  obtain ⟨hw, hws⟩ := walk_eq h R hrd x 0
  rw [hw]
  obtain ⟨g, dw, hw', hat, _, _⟩ := Rmm.walk_at h hrd hlt (Nat.zero_le _)
  obtain ⟨k, ki⟩ := hws _ hw'
  rw [hw']
  dsimp only at k ki ⊢
  by_cases h4 : dw = 0
  swap
  · rw [if_neg h4, if_neg h4]; exact R.refl _
  rw [if_pos h4, if_pos h4]
  subst h4
  rw [Rmm.getTab_of_mem k.mem, k.tw]
  dsimp only
  have ke := k.enc _ ki
  rw [ke.un_any]
  have hpa := pa_lt (lpa2 := (rdOf a rdA).lpa2) hP htr (by intro hl; by_contra hc; exact h3 ⟨hl, by omega⟩)
  cases he : tabOf a g (idx 0 x) with
  | unassigned rp =>
    simp only [isUn, if_true]
    have ep : (strip a).pas = a.pas := rfl
    rw [ep]
    by_cases h5 : a.pas src = .ns
    swap
    · rw [if_neg h5, if_neg h5]
      have := R.page data 0
      rw [R.same] at this
      exact Sim.some ⟨lp, dp, this⟩ rfl
    rw [if_pos h5, if_pos h5]
    obtain ⟨p, hp⟩ := h.nsPage src hsrc
    have hp2 : (strip a).mem src = .page p := by unfold strip; dsimp only; rw [hp]; rfl
    rw [hp2, hp]
    dsimp only
    have hg : Good (rdOf a rdA).lpa2 0 (.assigned .ram data) :=
      ⟨by omega, by rw [Rmm.sz_zero]; exact hP.aligned _ htr, hpa⟩
    obtain ⟨v, hv⟩ := hg.enc
    have hv1 : createAssignedRam (rdOf a rdA).lpa2 (BitVec.ofNat 64 data) 3 = some v := hv.word
    rw [hv1]
    dsimp only
    have n1 : rdA ≠ data := by intro hh; subst hh; rw [hrd] at hdt; cases hdt
    have n2 : g ≠ data := by intro hh; subst hh; rw [k.st] at hdt; cases hdt
    have n3 : g ≠ rdA := by intro hh; subst hh; rw [k.st] at hrd; cases hrd
    have hm := (h.rds rdA hrd).mem
    have R1 := R.page data p
    have R2 := R1.rd rdA (r := rdOf a rdA)
      (r' := { rdOf a rdA with rim := (rdOf a rdA).rim ++ [.data x (if flags = 1 then some p else none)] })
      (by dsimp only; rw [Rmm.upd_ne _ _ _ n1]; exact hm) ⟨rfl, rfl, rfl, rfl⟩
    have R3 := dataCreateSt_rel R2 (data := data) (g := g) (i := idx 0 x) (t := tabOf a g) (rp := .ram) (v := v)
      (by dsimp only; rw [Rmm.upd_ne _ _ _ n3, Rmm.upd_ne _ _ _ n2]; exact k.mem)
      (by rw [k.lp, k.dp]; exact hv)
    refine Sim.some ?_ rfl
    rw [R.same] at R3
    exact R3
  | unassignedNs =>
    have := hat.ent h
    rw [he] at this
    exfalso
    have hp : x < (rdOf a rdA).parSize := by simpa [Rmm.Rd.inPar] using h2.1
    have h5 := this.1
    have h6 := Nat.div_mul_le_self x (sz 0)
    omega
  | assigned _ _ => exact R.refl _
  | assignedNs _ _ => exact R.refl _
  | table _ => exact R.refl _

/-- What the tests of `smc_data_destroy` find for an entry. -/
def unmapE : Entry → (W × W × Bool) ⊕ Unit
  | .assigned .ram pa => .inl (BitVec.ofNat 64 pa, createUnassignedDestroyed, true)
  | .assigned .empty pa => .inl (BitVec.ofNat 64 pa, createUnassignedEmpty, false)
  | .assigned .destroyed pa => .inl (BitVec.ofNat 64 pa, createUnassignedDestroyed, false)
  | _ => .inr ()

theorem unmapW_eq {lpa2 : Bool} {e : Entry} {w : W} (h : Enc lpa2 0 e w) : unmapW lpa2 w = some (unmapE e) := by
  unfold unmapW
  have h1 := h.ar
  have h2 := h.ae
  have h3 := h.ad
  simp only [Nat.cast_zero, Int.sub_zero] at h1 h2 h3
  rw [h1, h2, h3]
  cases e with
  | unassigned q => cases q <;> rfl
  | unassignedNs => rfl
  | assignedNs _ _ => rfl
  | table _ => rfl
  | assigned q pa =>
    have h4 := h.pa rfl
    simp only [Nat.cast_zero, Int.sub_zero] at h4
    rw [h4]
    cases q <;> rfl

theorem dataDestroy_sim (h : InvG P a ti di rl) (R : Rel a c lp dp) (rdA x : Nat) :
    Sim (Rmm.dataDestroy P a rdA x) (dataDestroyW P c rdA x) := by
  unfold Rmm.dataDestroy dataDestroyW
  rw [R.same, lk_strip, getRd_strip]
  by_cases h1 : lk P a rdA .rd = true
  swap
  · rw [if_neg h1, if_neg h1]; exact R.refl _
  rw [if_pos h1, if_pos h1]
  have hrd := ((Rmm.lk_iff _ _ _ _).mp h1).2
  rw [Rmm.getRd_eq h hrd]
  dsimp only
  by_cases h2 : ((rdOf a rdA).inPar x && validateMapAddr (rdOf a rdA) x 0) = true
  swap
  · rw [if_neg h2, if_neg h2]; exact R.refl _
  rw [if_pos h2, if_pos h2]
  simp only [Bool.and_eq_true] at h2
  obtain ⟨hlt, _, _⟩ := (Rmm.validateMapAddr_iff _ _ _).mp h2.2
  obtain ⟨hw, hws⟩ := walk_eq h R hrd x 0
  rw [hw]
  obtain ⟨g, dw, hw', hat, _, _⟩ := Rmm.walk_at h hrd hlt (Nat.zero_le _)
  obtain ⟨k, ki⟩ := hws _ hw'
  rw [hw']
  dsimp only at k ki ⊢
  rw [Rmm.getTab_of_mem k.mem, k.tw]
  dsimp only
  have hsk : skipW (c.tw g) ⟨g, dw, idx dw x⟩ x = skipNonLive (tabOf a g) ⟨g, dw, idx dw x⟩ x :=
    skipW_eq (w := ⟨g, dw, idx dw x⟩) k.enc ki x
  rw [hsk]
  by_cases h4 : dw = 0
  swap
  · rw [if_neg h4, if_neg h4]; exact R.refl _
  rw [if_pos h4, if_pos h4]
  subst h4
  have ke := k.enc _ ki
  rw [unmapW_eq ke]
  have e1 : c.s.st = a.st := by rw [R.same]; rfl
  have e2 : c.s.rc = a.rc := by rw [R.same]; rfl
  cases he : tabOf a g (idx 0 x) with
  | unassigned q => cases q <;> exact R.refl _
  | unassignedNs => exact R.refl _
  | assignedNs _ _ => exact R.refl _
  | table _ => exact R.refl _
  | assigned q pa =>
    rw [he] at ke
    have hn := (ke.lt (pa := pa) rfl).2
    have key : ∀ (e : Entry) (v : W), Enc (rdOf a rdA).lpa2 0 e v → (∀ q, e ≠ .table q) → ∀ (l : List Tlbi),
        Sim (if 1 ≤ a.rc g ∧ lk P a pa .data then
          some ({ a with
            st := upd a.st pa .delegated
            mem := upd (upd a.mem g (.table (upd (tabOf a g) (idx 0 x) e))) pa (.page 0)
            rc := upd a.rc g (a.rc g - 1) },
            { x1 := pa, x2 := skipNonLive (upd (tabOf a g) (idx 0 x) e) ⟨g, 0, idx 0 x⟩ x, tlbi := l })
          else none)
        (if 1 ≤ (strip a).rc g ∧ lk P (strip a) (BitVec.ofNat 64 pa).toNat .data then
          some (let c1 := setTab c g (upd (c.tw g) (idx 0 x) v)
            { c1 with s := { c1.s with
                      st := upd (strip a).st (BitVec.ofNat 64 pa).toNat .delegated
                      mem := upd c1.s.mem (BitVec.ofNat 64 pa).toNat (.page 0)
                      rc := upd (strip a).rc g ((strip a).rc g - 1) } },
                    { x1 := (BitVec.ofNat 64 pa).toNat
                      x2 := skipW (upd (c.tw g) (idx 0 x) v) ⟨g, 0, idx 0 x⟩ x
                      tlbi := l })
          else none) := by
      intro e v hv hnt l
      rw [hn, lk_strip]
      have e3 : (strip a).rc = a.rc := rfl
      rw [e3]
      by_cases h5 : 1 ≤ a.rc g ∧ lk P a pa .data = true
      swap
      · rw [if_neg h5, if_neg h5]; exact Sim.none
      rw [if_pos h5, if_pos h5]
      have R1 := R.put k.mem (idx 0 x) (by rw [k.lp, k.dp]; exact hv) hnt
      have R2 := R1.page pa 0
      refine Sim.some ⟨lp, dp, R2.of_mem rfl ?_ rfl⟩ ?_
      · have hs := R2.same
        dsimp only
        have hm : upd (setTab c g (upd (c.tw g) (idx 0 x) v)).s.mem pa (.page 0) = _ := (congrArg State.mem hs :)
        have hp : (setTab c g (upd (c.tw g) (idx 0 x) v)).s.pas = a.pas := (congrArg State.pas hs :)
        have hvm : (setTab c g (upd (c.tw g) (idx 0 x) v)).s.vmid = a.vmid := (congrArg State.vmid hs :)
        rw [hm, hp, hvm]
        rfl
      · rw [skipW_eq (w := ⟨g, 0, idx 0 x⟩) (EncT.upd k.enc _ hv) ki x]
    cases q with
    | empty => exact key (.unassigned .empty) _ ⟨trivial, rfl⟩ (by simp) []
    | ram => exact key (.unassigned .destroyed) _ ⟨trivial, rfl⟩ (by simp) [⟨(rdOf a rdA).vmid, x, 4096⟩]
    | destroyed => exact key (.unassigned .destroyed) _ ⟨trivial, rfl⟩ (by simp) []

/-! ## RIPAS -/

/-- `update_ripas` on words and on entries. -/
theorem updateRipasW_spec {lpa2 : Bool} {d : Nat} {e : Entry} {w : W} (h : Enc lpa2 d e w) (v : Ripas) (chg : Bool) :
    (Rmm.updateRipas e v chg = none ∧ updateRipasW lpa2 w (3 - (d : Int)) v chg = some none) ∨
    ∃ e' w' tl, Rmm.updateRipas e v chg = some (e', tl) ∧
      updateRipasW lpa2 w (3 - (d : Int)) v chg = some (some (w', tl)) ∧ Enc lpa2 d e' w' ∧ ∀ k, e' ≠ .table k := by
  unfold updateRipasW
  rw [h.has_ripas, h.ue, h.ur, h.ud, h.ae, h.ar, h.ad]
  cases e with
  | unassignedNs => exact Or.inl ⟨rfl, rfl⟩
  | assignedNs _ _ => exact Or.inl ⟨rfl, rfl⟩
  | table _ => exact Or.inl ⟨rfl, rfl⟩
  | unassigned r =>
    have hE : Enc lpa2 d (.unassigned .empty) createUnassignedEmpty := ⟨trivial, rfl⟩
    have hR : Enc lpa2 d (.unassigned .ram) createUnassignedRam := ⟨trivial, rfl⟩
    cases v <;> cases r <;> cases chg <;>
      first
        | exact Or.inl ⟨rfl, rfl⟩
        | exact Or.inr ⟨_, _, _, rfl, rfl, h, by simp⟩
        | exact Or.inr ⟨_, _, _, rfl, rfl, hE, by simp⟩
        | exact Or.inr ⟨_, _, _, rfl, rfl, hR, by simp⟩
  | assigned r pa =>
    rw [h.pa rfl]
    have hg := h.good
    obtain ⟨wE, hE⟩ := (show Good lpa2 d (.assigned .empty pa) from hg).enc
    obtain ⟨wR, hR⟩ := (show Good lpa2 d (.assigned .ram pa) from hg).enc
    have hE1 : createAssignedEmpty lpa2 (BitVec.ofNat 64 pa) (3 - (d : Int)) = some wE := hE.word
    have hR1 : createAssignedRam lpa2 (BitVec.ofNat 64 pa) (3 - (d : Int)) = some wR := hR.word
    simp only [hE1, hR1]
    cases v <;> cases r <;> cases chg <;>
      first
        | exact Or.inl ⟨rfl, rfl⟩
        | exact Or.inr ⟨_, _, _, rfl, rfl, h, by simp⟩
        | exact Or.inr ⟨_, _, _, rfl, rfl, hE, by simp⟩
        | exact Or.inr ⟨_, _, _, rfl, rfl, hR, by simp⟩

/-- Two tables agree, entry by entry; the tables below are those of `t0`. -/
structure TabRel (lpa2 : Bool) (d : Nat) (t0 t : Nat → Entry) (tw : Nat → W) : Prop where
  enc : EncT lpa2 d t tw
  sub : ∀ i < 512, ∀ k, t i = .table k → t0 i = .table k

theorem TabRel.upd {lpa2 : Bool} {d : Nat} {t0 t : Nat → Entry} {tw : Nat → W} (h : TabRel lpa2 d t0 t tw) (i : Nat)
    {e : Entry} {v : W} (he : Enc lpa2 d e v) (hn : ∀ k, e ≠ .table k) :
    TabRel lpa2 d t0 (Rmm.upd t i e) (Rmm.upd tw i v) := by
  refine ⟨EncT.upd h.enc i he, ?_⟩
  intro j hj k hk
  by_cases hji : j = i
  · subst hji; rw [Rmm.upd_same] at hk; exact absurd hk (hn k)
  · rw [Rmm.upd_ne _ _ _ hji] at hk; exact h.sub j hj k hk

theorem initLoop_spec {lpa2 : Bool} {d : Nat} (top : Nat) (t0 : Nat → Entry) : ∀ n i addr t tw log, i + n ≤ 512 →
    TabRel lpa2 d t0 t tw →
    TabRel lpa2 d t0 (Rmm.initLoop d top n i addr t log).1 (initRipasLoopW d top n i addr tw log).1 ∧
    (Rmm.initLoop d top n i addr t log).2 = (initRipasLoopW d top n i addr tw log).2 := by
  intro n
  induction n with
  | zero => intro i addr t tw log _ h; exact ⟨h, rfl⟩
  | succ n ih =>
    intro i addr t tw log hn h
    unfold Rmm.initLoop initRipasLoopW
    by_cases h1 : top < addr + sz d
    · rw [if_pos h1, if_pos h1]; exact ⟨h, rfl⟩
    rw [if_neg h1, if_neg h1]
    have he := h.enc i (by omega)
    rw [he.ue, he.ur]
    have hR : Enc lpa2 d (.unassigned .ram) createUnassignedRam := ⟨trivial, rfl⟩
    cases hc : t i with
    | unassigned r =>
      cases r with
      | empty => exact ih _ _ _ _ _ (by omega) (h.upd i hR (by simp))
      | ram => exact ih _ _ _ _ _ (by omega) h
      | destroyed => exact ⟨h, rfl⟩
    | unassignedNs => exact ⟨h, rfl⟩
    | assigned r _ => cases r <;> exact ⟨h, rfl⟩
    | assignedNs _ _ => exact ⟨h, rfl⟩
    | table _ => exact ⟨h, rfl⟩

theorem setLoop_spec {lpa2 : Bool} {d : Nat} (vmid top : Nat) (v : Ripas) (chg : Bool) (t0 : Nat → Entry) :
    ∀ n i addr t tw l, i + n ≤ 512 → TabRel lpa2 d t0 t tw →
    ∃ tw', setRipasLoopW lpa2 vmid d top v chg n i addr tw l =
        some (tw', (Rmm.setLoop vmid d top v chg n i addr t l).2) ∧
      TabRel lpa2 d t0 (Rmm.setLoop vmid d top v chg n i addr t l).1 tw' := by
  intro n
  induction n with
  | zero => intro i addr t tw l _ h; exact ⟨tw, rfl, h⟩
  | succ n ih =>
    intro i addr t tw l hn h
    unfold Rmm.setLoop setRipasLoopW
    by_cases h1 : top < addr + sz d
    · rw [if_pos h1, if_pos h1]; exact ⟨tw, rfl, h⟩
    rw [if_neg h1, if_neg h1]
    have he := h.enc i (by omega)
    rcases updateRipasW_spec he v chg with ⟨h2, h3⟩ | ⟨e', w', tl, h2, h3, h4, h5⟩
    · rw [h2, h3]; exact ⟨tw, rfl, h⟩
    · rw [h2, h3]; exact ih _ _ _ _ _ (by omega) (h.upd i h4 h5)

/-- A table whose sub-tables are among the old ones. -/
theorem Rel.tabSub (R : Rel a c lp dp) {g d : Nat} {l : Bool} (k : Site a c lp dp l d g) {t : Nat → Entry}
    {tw : Nat → W} (h : TabRel l d (tabOf a g) t tw) :
    Rel { a with mem := upd a.mem g (.table t) } (setTab c g tw) lp dp := by
  apply R.tab
  · intro i hi; rw [k.lp, k.dp]; exact h.enc i hi
  · intro i hi q hq; exact R.link g _ k.mem i hi q (h.sub i hi q hq)

theorem rttInitRipas_sim (h : InvG P a ti di rl) (R : Rel a c lp dp) (rdA base top : Nat) :
    Sim (Rmm.rttInitRipas P a rdA base top) (rttInitRipasW P c rdA base top) := by
  unfold Rmm.rttInitRipas rttInitRipasW
  rw [R.same, lk_strip, getRd_strip]
  by_cases h0 : top ≤ base
  · rw [if_pos h0, if_pos h0]; exact R.refl _
  rw [if_neg h0, if_neg h0]
  by_cases h1 : lk P a rdA .rd = true
  swap
  · rw [if_neg h1, if_neg h1]; exact R.refl _
  rw [if_pos h1, if_pos h1]
  have hrd := ((Rmm.lk_iff _ _ _ _).mp h1).2
  rw [Rmm.getRd_eq h hrd]
  dsimp only
  by_cases h2 : (validateMapAddr (rdOf a rdA) base 0 && validateMapAddr (rdOf a rdA) top 0 &&
      (rdOf a rdA).inPar base && (rdOf a rdA).inPar (top - 4096)) = true
  swap
  · rw [if_neg h2, if_neg h2]; exact R.refl _
  rw [if_pos h2, if_pos h2]
  by_cases h3 : (rdOf a rdA).state ≠ .new
  · rw [if_pos h3, if_pos h3]; exact R.refl _
  rw [if_neg h3, if_neg h3]
  obtain ⟨hw, hws⟩ := walk_eq h R hrd base 0
  rw [hw]
  cases hw' : Rmm.walk a (rdOf a rdA) base 0 with
  | none => exact Sim.none
  | some w =>
  obtain ⟨k, ki⟩ := hws w hw'
  dsimp only
  rw [Rmm.getTab_of_mem k.mem, k.tw]
  dsimp only
  by_cases h4 : base / sz w.d * sz w.d ≠ base
  · rw [if_pos h4, if_pos h4]; exact R.refl _
  rw [if_neg h4, if_neg h4]
  have hn : w.i + (Rmm.perTab w.d - w.i) ≤ 512 := by unfold Rmm.perTab; split <;> omega
  obtain ⟨L1, L2⟩ := initLoop_spec (lpa2 := (rdOf a rdA).lpa2) (d := w.d) top (tabOf a w.g) (Rmm.perTab w.d - w.i) w.i base
    (tabOf a w.g) (c.tw w.g) (rdOf a rdA).rim hn ⟨k.enc, fun _ _ _ hk => hk⟩
  generalize initRipasLoopW w.d top (Rmm.perTab w.d - w.i) w.i base (c.tw w.g) (rdOf a rdA).rim = rw at L1 L2 ⊢
  generalize Rmm.initLoop w.d top (Rmm.perTab w.d - w.i) w.i base (tabOf a w.g) (rdOf a rdA).rim = ra at L1 L2 ⊢
  rw [← L2]
  have R1 := R.tabSub k L1
  have hne : rdA ≠ w.g := by intro hh; have := k.st; rw [← hh, hrd] at this; cases this
  have R2 := R1.rd rdA (r := rdOf a rdA) (r' := { rdOf a rdA with rim := ra.2.2 })
    (by dsimp only; rw [Rmm.upd_ne _ _ _ hne]; exact (h.rds rdA hrd).mem) ⟨rfl, rfl, rfl, rfl⟩
  by_cases h5 : base < ra.2.1
  · rw [if_pos h5, if_pos h5]; exact Sim.some ⟨lp, dp, R2⟩ rfl
  · rw [if_neg h5, if_neg h5]; exact Sim.some ⟨lp, dp, R2⟩ rfl

theorem rttSetRipas_sim (h : InvG P a ti di rl) (R : Rel a c lp dp) (rdA recA base top : Nat) :
    Sim (Rmm.rttSetRipas P a rdA recA base top) (rttSetRipasW P c rdA recA base top) := by
  unfold Rmm.rttSetRipas rttSetRipasW
  rw [R.same, lk_strip, lk_strip, getRd_strip, getRec_strip]
  by_cases h0 : top ≤ base
  · rw [if_pos h0, if_pos h0]; exact R.refl _
  rw [if_neg h0, if_neg h0]
  by_cases h1 : (lk P a rdA .rd && lk P a recA .recd) = true
  swap
  · rw [if_neg h1, if_neg h1]; exact R.refl _
  rw [if_pos h1, if_pos h1]
  simp only [Bool.and_eq_true, Rmm.lk_iff] at h1
  obtain ⟨⟨_, hrd⟩, _, hrec⟩ := h1
  have e3 : (strip a).rc = a.rc := rfl
  rw [e3]
  by_cases h2 : a.rc recA ≠ 0
  · rw [if_pos h2, if_pos h2]; exact R.refl _
  rw [if_neg h2, if_neg h2]
  cases hq : getRec a recA with
  | none => exact Sim.none
  | some q =>
  dsimp only
  by_cases h3 : q.rd ≠ rdA
  · rw [if_pos h3, if_pos h3]; exact R.refl _
  rw [if_neg h3, if_neg h3]
  by_cases h4 : base ≠ q.sr.addr ∨ q.sr.top < top
  · rw [if_pos h4, if_pos h4]; exact R.refl _
  rw [if_neg h4, if_neg h4, Rmm.getRd_eq h hrd]
  dsimp only
  by_cases h5 : validateMapAddr (rdOf a rdA) base 0 = true
  swap
  · rw [if_neg h5, if_neg h5]; exact Sim.none
  rw [if_pos h5, if_pos h5]
  obtain ⟨hw, hws⟩ := walk_eq h R hrd base 0
  rw [hw]
  cases hw' : Rmm.walk a (rdOf a rdA) base 0 with
  | none => exact Sim.none
  | some w =>
  obtain ⟨k, ki⟩ := hws w hw'
  dsimp only
  by_cases h6 : validateMapAddr (rdOf a rdA) base w.d = true
  swap
  · rw [if_neg h6, if_neg h6]; exact R.refl _
  rw [if_pos h6, if_pos h6, Rmm.getTab_of_mem k.mem, k.tw]
  dsimp only
  by_cases h7 : base / sz w.d * sz w.d ≠ base
  · rw [if_pos h7, if_pos h7]; exact R.refl _
  rw [if_neg h7, if_neg h7]
  obtain ⟨tw', L1, L2⟩ := setLoop_spec (lpa2 := (rdOf a rdA).lpa2) (d := w.d) (rdOf a rdA).vmid top q.sr.ripas q.sr.chg
    (tabOf a w.g) (512 - w.i) w.i base (tabOf a w.g) (c.tw w.g) [] (by omega) ⟨k.enc, fun _ _ _ hk => hk⟩
  rw [L1]
  dsimp only
  generalize Rmm.setLoop (rdOf a rdA).vmid w.d top q.sr.ripas q.sr.chg (512 - w.i) w.i base (tabOf a w.g) [] = ra at L2 ⊢
  have R1 := R.tabSub k L2
  have R2 := R1.recd recA { q with sr := { q.sr with addr := ra.2.1 } }
  by_cases h8 : base < ra.2.1
  · rw [if_pos h8, if_pos h8]; exact Sim.some ⟨lp, dp, R2⟩ rfl
  · rw [if_neg h8, if_neg h8]; exact Sim.some ⟨lp, dp, R1⟩ rfl

end

end Verif.Desc
