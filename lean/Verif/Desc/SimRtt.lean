import Verif.Desc.Tab

/-!
# Simulation: creating, folding and destroying tables

Each command on words and the same command on entries: from related states both
fail an assertion, or both answer with the same registers and lead to related
states.
-/

namespace Verif.Desc

open Rmm (State Plat Ret Rd GSt Walk Content Tlbi upd lk getRd getRec getTab idx sz rootFor dOf Entry InvG rdOf tabOf)
open Rmm (splitEntry uniform mapsAssigned mapsNs foldEntry scan skipNonLive PlatOk)
open Rmm (validateMapAddr validateStruct validateMap validateEntry errInput errRtt)
open S2tte

section
variable {P : Plat} {a : State} {c : CState} {lp : Nat → Bool} {dp : Nat → Nat}
variable {ti : Nat → Rmm.TabInfo} {di : Nat → Nat × Nat} {rl : Nat → List Nat}

theorem tab_st (h : InvG P a ti di rl) {g : Nat} {t : Nat → Entry} (hg : a.mem g = .table t) : a.st g = .rtt := by
  cases hs : a.st g with
  | rtt => rfl
  | ns => obtain ⟨p, hp⟩ := h.nsPage g hs; rw [hp] at hg; cases hg
  | delegated => rw [h.delPage g hs] at hg; cases hg
  | data => obtain ⟨p, hp⟩ := h.dataPage g hs; rw [hp] at hg; cases hg
  | recAux => obtain ⟨p, hp⟩ := h.auxPage g hs; rw [hp] at hg; cases hg
  | rd => rw [(h.rds g hs).mem] at hg; cases hg
  | recd => rw [(h.recs g hs).mem] at hg; cases hg

theorem rd_st (h : InvG P a ti di rl) {g : Nat} {r : Rd} (hg : a.mem g = .rd r) : a.st g = .rd := by
  cases hs : a.st g with
  | rd => rfl
  | ns => obtain ⟨p, hp⟩ := h.nsPage g hs; rw [hp] at hg; cases hg
  | delegated => rw [h.delPage g hs] at hg; cases hg
  | data => obtain ⟨p, hp⟩ := h.dataPage g hs; rw [hp] at hg; cases hg
  | recAux => obtain ⟨p, hp⟩ := h.auxPage g hs; rw [hp] at hg; cases hg
  | rtt => rw [(h.tab g hs).mem] at hg; cases hg
  | recd => rw [(h.recs g hs).mem] at hg; cases hg

/-- The child of a table is a table. -/
theorem child_st (h : InvG P a ti di rl) {g i k : Nat} {t : Nat → Entry} (hg : a.mem g = .table t) (hi : i < 512)
    (hk : t i = .table k) : a.st k = .rtt := by
  have hs := tab_st h hg
  have ht := Rmm.tabOf_of_mem hg
  have := (h.tab g hs).ent i hi
  rw [ht, hk] at this
  exact this.2.2.1

/-- The root tables of a realm are tables. -/
theorem root_st (h : InvG P a ti di rl) {x j : Nat} {r : Rd} (hx : a.mem x = .rd r) (hj : j < r.nroots) :
    a.st (r.root + 4096 * j) = .rtt := by
  have hs := rd_st h hx
  have hr := Rmm.rdOf_of_mem hx
  have := ((h.rds x hs).roots j (by rw [hr]; exact hj)).1
  rw [hr] at this
  exact this

/-- Addresses RMM accepts fit the descriptor format. -/
theorem pa_lt (hP : PlatOk P) {x : Nat} {lpa2 : Bool} (ht : P.tracked x = true) (h : lpa2 = false → x < 2 ^ 48) :
    x < 2 ^ Spec.paBits lpa2 := by
  cases lpa2
  · exact h rfl
  · exact hP.small x ht

/-- Ghost data may change where there is no table. -/
theorem Rel.ghost (h : InvG P a ti di rl) (R : Rel a c lp dp) {g : Nat} (hg : a.st g ≠ .rtt) (l : Bool) (d : Nat) :
    Rel a c (upd lp g l) (upd dp g d) := by
  have ne : ∀ x, a.st x = .rtt → x ≠ g := by intro x hx hh; subst hh; exact hg hx
  refine ⟨R.same, ?_, ?_, ?_⟩
  · intro x t hx i hi
    rw [Rmm.upd_ne _ _ _ (ne x (tab_st h hx)), Rmm.upd_ne _ _ _ (ne x (tab_st h hx))]
    exact R.ent x t hx i hi
  · intro x r hx j hj
    have := ne _ (root_st h hx hj)
    rw [Rmm.upd_ne _ _ _ this, Rmm.upd_ne _ _ _ this]
    exact R.root x r hx j hj
  · intro x t hx i hi k hk
    have h1 := ne x (tab_st h hx)
    have h2 := ne k (child_st h hx hi hk)
    rw [Rmm.upd_ne _ _ _ h1, Rmm.upd_ne _ _ _ h1, Rmm.upd_ne _ _ _ h2, Rmm.upd_ne _ _ _ h2]
    exact R.link x t hx i hi k hk

theorem Rel.refl (R : Rel a c lp dp) (r : Ret) : Sim (some (a, r)) (some (c, r)) := Sim.some ⟨lp, dp, R⟩ rfl

/-! ## RTT_CREATE -/

theorem rttCreateSt_rel (h : InvG P a ti di rl) (R : Rel a c lp dp) {rtt g i d dpar dch : Nat} {e : Entry} {l : Bool}
    {v : W} {nt : Nat → W} (hrtt : a.st rtt = .delegated) (k : Site a c lp dp l (d + 1) g)
    (hn : ∀ k, e ≠ .table k) (hnt : EncT l d (splitEntry e d) nt) (hv : Enc l (d + 1) (.table rtt) v) :
    Refines (Rmm.rttCreateSt a rtt g i (tabOf a g) e d dpar dch) (rttCreateStW c rtt g i (c.tw g) nt v dpar dch) := by
  have hne : g ≠ rtt := by intro hh; subst hh; rw [k.st] at hrtt; cases hrtt
  have R1 := Rel.ghost h R (g := rtt) (by rw [hrtt]; decide) l d
  have R2 := R1.tab rtt (splitEntry e d) nt
    (by intro j hj; rw [Rmm.upd_same, Rmm.upd_same]; exact hnt j hj)
    (by
      intro j _ x hx
      cases e <;> simp [splitEntry] at hx
      exact absurd rfl (hn _))
  have R3 := R2.tab g (upd (tabOf a g) i (.table rtt)) (upd (c.tw g) i v)
    (by
      intro j hj
      rw [Rmm.upd_ne _ _ _ hne, Rmm.upd_ne _ _ _ hne, k.lp, k.dp]
      exact EncT.upd k.enc i hv j hj)
    (by
      intro j hj x hx
      rw [Rmm.upd_ne _ _ _ hne, Rmm.upd_ne _ _ _ hne, k.lp, k.dp]
      by_cases hji : j = i
      · subst hji
        rw [Rmm.upd_same] at hx
        cases hx
        rw [Rmm.upd_same, Rmm.upd_same]
        exact ⟨rfl, rfl⟩
      · rw [Rmm.upd_ne _ _ _ hji] at hx
        have hc := child_st h k.mem hj hx
        have hcn : x ≠ rtt := by intro hh; subst hh; rw [hc] at hrtt; cases hrtt
        rw [Rmm.upd_ne _ _ _ hcn, Rmm.upd_ne _ _ _ hcn, ← k.lp, ← k.dp]
        exact R.link g _ k.mem j hj x hx)
  refine ⟨_, _, R3.of_mem rfl ?_ rfl⟩
  have hs := R3.same
  unfold rttCreateStW Rmm.rttCreateSt
  have e1 : c.s.st = a.st := by rw [R.same]; rfl
  have e2 : c.s.rc = a.rc := by rw [R.same]; rfl
  dsimp only
  rw [hs, e1, e2]
  rfl

theorem rttCreate_sim (hP : PlatOk P) (h : InvG P a ti di rl) (R : Rel a c lp dp) (rdA rtt x : Nat) (lvl : Int) :
    Sim (Rmm.rttCreate P a rdA rtt x lvl) (rttCreateW P c rdA rtt x lvl) := by
  unfold Rmm.rttCreate rttCreateW
  rw [R.same, lk_strip, lk_strip, getRd_strip]
  by_cases h1 : (lk P a rtt .delegated && lk P a rdA .rd) = true
  swap
  · rw [if_neg h1, if_neg h1]; exact R.refl _
  rw [if_pos h1, if_pos h1]
  simp only [Bool.and_eq_true, Rmm.lk_iff] at h1
  obtain ⟨⟨htr, hrtt⟩, _, hrd⟩ := h1
  rw [Rmm.getRd_eq h hrd]
  dsimp only
  by_cases h2 : validateStruct (rdOf a rdA) x lvl = true
  swap
  · rw [if_neg h2, if_neg h2]; exact R.refl _
  rw [if_pos h2, if_pos h2]
  obtain ⟨d, rfl, hd, hv⟩ := (Rmm.validateStruct_iff _ _ _).mp h2
  obtain ⟨hlt, hal, _⟩ := (Rmm.validateMapAddr_iff _ _ _).mp hv
  rw [Rmm.dOf_sub]
  by_cases h3 : (rdOf a rdA).lpa2 = false ∧ 2 ^ 48 ≤ rtt
  · rw [if_pos h3, if_pos h3]; exact R.refl _
  rw [if_neg h3, if_neg h3]
  obtain ⟨hw, hws⟩ := walk_eq h R hrd x (d + 1)
  rw [hw]
  obtain ⟨g, dw, hw', _, _, _⟩ := Rmm.walk_at h hrd hlt (show d + 1 ≤ _ by omega)
  obtain ⟨k, ki⟩ := hws _ hw'
  rw [hw']
  dsimp only at k ki ⊢
  by_cases h4 : dw = d + 1
  swap
  · rw [if_neg h4, if_neg h4]; exact R.refl _
  rw [if_pos h4, if_pos h4]
  subst h4
  rw [Rmm.getTab_of_mem k.mem, k.tw]
  dsimp only
  have ke := k.enc _ ki
  have hgeo := (h.rds rdA hrd).geo.d0
  have hg : Good (rdOf a rdA).lpa2 (d + 1) (.table rtt) := by
    refine ⟨by omega, by omega, hP.aligned _ htr, pa_lt hP htr ?_⟩
    intro hl; by_contra hc; exact h3 ⟨hl, by omega⟩
  obtain ⟨v, hv⟩ := hg.enc
  have hv1 : createTable (rdOf a rdA).lpa2 (BitVec.ofNat 64 rtt) (3 - (d : Int) - 1) = some v := by
    rw [lvl_pred]; exact hv.word
  rcases splitW_spec ke (c.tw rtt) with ⟨q, he, hs⟩ | ⟨hn, nt, hs, hnt⟩
  · rw [hs, he]; exact R.refl _
  · rw [hs]
    dsimp only
    rw [hv1]
    dsimp only
    have hst := fun dpar dch => rttCreateSt_rel (dpar := dpar) (dch := dch) h R (i := idx (d + 1) x) hrtt k hn hnt hv
    have hg2 := ke.good
    cases he : tabOf a g (idx (d + 1) x) with
    | table q => exact absurd he (hn q)
    | unassigned rp => rw [he] at hst; exact Sim.some (hst 1 0) rfl
    | unassignedNs => rw [he] at hst; exact Sim.some (hst 1 0) rfl
    | assigned rp pa =>
      rw [he] at hst hg2
      have : d < 2 := by have := hg2.1; omega
      dsimp only
      rw [if_pos this]
      refine Sim.some (hst 0 512) ?_
      cases rp <;> rfl
    | assignedNs at_ pa =>
      rw [he] at hst hg2
      have : d < 2 := by have := hg2.1; omega
      dsimp only
      rw [if_pos this]
      exact Sim.some (hst 1 0) rfl

/-! ## RTT_FOLD and RTT_DESTROY -/

theorem dropTableSt_rel (R : Rel a c lp dp) {x g i d dpar dch : Nat} {e : Entry} {l : Bool} {v : W}
    (k : Site a c lp dp l d g) (hn : ∀ k, e ≠ .table k) (hv : Enc l d e v) :
    Refines (Rmm.dropTableSt a x g i (tabOf a g) e dpar dch) (dropTableStW c x g i (c.tw g) v dpar dch) := by
  have R1 := R.put k.mem i (by rw [k.lp, k.dp]; exact hv) hn
  have R2 := R1.page x 0
  refine ⟨_, _, R2.of_mem rfl ?_ rfl⟩
  have hs := R2.same
  have e1 : c.s.st = a.st := by rw [R.same]; rfl
  have e2 : c.s.rc = a.rc := by rw [R.same]; rfl
  unfold dropTableStW Rmm.dropTableSt
  dsimp only
  rw [e1, e2]
  have hm : upd (setTab c g (upd (c.tw g) i v)).s.mem x (.page 0) = _ := (congrArg State.mem hs :)
  have hp : (setTab c g (upd (c.tw g) i v)).s.pas = a.pas := (congrArg State.pas hs :)
  have hvm : (setTab c g (upd (c.tw g) i v)).s.vmid = a.vmid := (congrArg State.vmid hs :)
  rw [hm, hp, hvm]
  rfl

theorem rttFold_sim (h : InvG P a ti di rl) (R : Rel a c lp dp) (rdA x : Nat) (lvl : Int) :
    Sim (Rmm.rttFold P a rdA x lvl) (rttFoldW P c rdA x lvl) := by
  unfold Rmm.rttFold rttFoldW
  rw [R.same, lk_strip, getRd_strip]
  by_cases h1 : lk P a rdA .rd = true
  swap
  · rw [if_neg h1, if_neg h1]; exact R.refl _
  rw [if_pos h1, if_pos h1]
  have hrd := ((Rmm.lk_iff _ _ _ _).mp h1).2
  rw [Rmm.getRd_eq h hrd]
  dsimp only
  by_cases h2 : validateStruct (rdOf a rdA) x lvl = true
  swap
  · rw [if_neg h2, if_neg h2]; exact R.refl _
  rw [if_pos h2, if_pos h2]
  obtain ⟨d, rfl, hd, hv⟩ := (Rmm.validateStruct_iff _ _ _).mp h2
  obtain ⟨hlt, hal, _⟩ := (Rmm.validateMapAddr_iff _ _ _).mp hv
  rw [Rmm.dOf_sub]
  obtain ⟨hw, hws⟩ := walk_eq h R hrd x (d + 1)
  rw [hw]
  obtain ⟨g, dw, hw', _, _, _⟩ := Rmm.walk_at h hrd hlt (show d + 1 ≤ _ by omega)
  obtain ⟨k, ki⟩ := hws _ hw'
  rw [hw']
  dsimp only at k ki ⊢
  by_cases h4 : dw = d + 1
  swap
  · rw [if_neg h4, if_neg h4]; exact R.refl _
  rw [if_pos h4, if_pos h4]
  subst h4
  rw [Rmm.getTab_of_mem k.mem, k.tw]
  dsimp only
  have ke := k.enc _ ki
  have hgeo := (h.rds rdA hrd).geo.d0
  rw [lvl_pred, ke.tb]
  by_cases ht : 8 = kind (tabOf a g (idx (d + 1) x))
  swap
  · simp only [ht, decide_false, Bool.false_eq_true, if_false]
    have : ∀ q, tabOf a g (idx (d + 1) x) ≠ .table q := fun q hq => ht (kind_tab.2 ⟨q, hq⟩)
    cases he : tabOf a g (idx (d + 1) x) with
    | table q => exact absurd he (this q)
    | _ => exact R.refl _
  simp only [ht, decide_true, if_true]
  obtain ⟨q, he⟩ := kind_tab.1 ht
  rw [he] at ke ⊢
  rw [ke.pa rfl]
  dsimp only
  rw [(ke.lt rfl).2]
  rw [lk_strip]
  by_cases h5 : lk P a q .rtt = true
  swap
  · rw [if_neg h5, if_neg h5]; exact Sim.none
  rw [if_pos h5, if_pos h5]
  have hq := ((Rmm.lk_iff _ _ _ _).mp h5).2
  have kq := Site.of h R hq
  have hl := R.link g _ k.mem _ ki q he
  rw [hl.1, k.lp, show dp q = d by have := k.dp; omega] at kq
  rw [Rmm.getTab_of_mem kq.mem, kq.tw]
  dsimp only
  have e2 : (strip a).rc = a.rc := rfl
  rw [e2]
  have hf := foldW_spec (t := tabOf a q) (tw := c.tw q) kq.enc (by split at hgeo <;> omega) (a.rc q)
  generalize foldEntry (tabOf a q) (a.rc q) d = fe at hf ⊢
  generalize foldW (rdOf a rdA).lpa2 (c.tw q) (a.rc q) (3 - (d : Int)) = fw at hf ⊢
  match fe, fw, hf with
  | none, none, _ => exact Sim.none
  | some (.inr x), some (.inr y), hf => cases hf; exact R.refl _
  | some (.inl (e, p, r)), some (.inl (v, p', r')), hf =>
    obtain ⟨rfl, rfl, hv2, hn⟩ := hf
    dsimp only
    by_cases h6 : p ≤ a.rc g
    swap
    · rw [if_neg h6, if_neg h6]; exact Sim.none
    rw [if_pos h6, if_pos h6]
    refine Sim.some (dropTableSt_rel R k hn hv2) ?_
    rw [hv2.ar, hv2.an]
    cases e with
    | unassigned r => cases r <;> rfl
    | assigned r _ => cases r <;> rfl
    | _ => rfl

theorem rttDestroy_sim (h : InvG P a ti di rl) (R : Rel a c lp dp) (rdA x : Nat) (lvl : Int) :
    Sim (Rmm.rttDestroy P a rdA x lvl) (rttDestroyW P c rdA x lvl) := by
  unfold Rmm.rttDestroy rttDestroyW
  rw [R.same, lk_strip, getRd_strip]
  by_cases h1 : lk P a rdA .rd = true
  swap
  · rw [if_neg h1, if_neg h1]; exact R.refl _
  rw [if_pos h1, if_pos h1]
  have hrd := ((Rmm.lk_iff _ _ _ _).mp h1).2
  rw [Rmm.getRd_eq h hrd]
  dsimp only
  by_cases h2 : validateStruct (rdOf a rdA) x lvl = true
  swap
  · rw [if_neg h2, if_neg h2]; exact R.refl _
  rw [if_pos h2, if_pos h2]
  obtain ⟨d, rfl, hd, hv⟩ := (Rmm.validateStruct_iff _ _ _).mp h2
  obtain ⟨hlt, hal, _⟩ := (Rmm.validateMapAddr_iff _ _ _).mp hv
  rw [Rmm.dOf_sub]
  obtain ⟨hw, hws⟩ := walk_eq h R hrd x (d + 1)
  rw [hw]
  obtain ⟨g, dw, hw', _, _, _⟩ := Rmm.walk_at h hrd hlt (show d + 1 ≤ _ by omega)
  obtain ⟨k, ki⟩ := hws _ hw'
  rw [hw']
  dsimp only at k ki ⊢
  rw [Rmm.getTab_of_mem k.mem, k.tw]
  dsimp only
  have hsk : skipW (c.tw g) ⟨g, dw, idx dw x⟩ x = skipNonLive (tabOf a g) ⟨g, dw, idx dw x⟩ x :=
    skipW_eq (w := ⟨g, dw, idx dw x⟩) k.enc ki x
  rw [hsk]
  by_cases h4 : dw = d + 1
  swap
  · rw [if_neg h4, if_pos (Or.inl h4)]; exact R.refl _
  rw [if_pos h4]
  subst h4
  have ke := k.enc _ ki
  rw [lvl_pred, ke.tb]
  by_cases ht : 8 = kind (tabOf a g (idx (d + 1) x))
  swap
  · have p1 : d + 1 ≠ d + 1 ∨ decide (8 = kind (tabOf a g (idx (d + 1) x))) = false := Or.inr (by simp [ht])
    rw [if_pos p1]
    have : ∀ q, tabOf a g (idx (d + 1) x) ≠ .table q := fun q hq => ht (kind_tab.2 ⟨q, hq⟩)
    cases he : tabOf a g (idx (d + 1) x) with
    | table q => exact absurd he (this q)
    | _ => exact R.refl _
  have p1 : ¬ (d + 1 ≠ d + 1 ∨ decide (8 = kind (tabOf a g (idx (d + 1) x))) = false) := by simp [ht]
  rw [if_neg p1]
  obtain ⟨q, he⟩ := kind_tab.1 ht
  rw [he] at ke ⊢
  rw [ke.pa rfl]
  dsimp only
  rw [(ke.lt rfl).2]
  rw [lk_strip]
  by_cases h5 : lk P a q .rtt = true
  swap
  · rw [if_neg h5, if_neg h5]; exact Sim.none
  rw [if_pos h5, if_pos h5]
  have e2 : (strip a).rc = a.rc := rfl
  rw [e2]
  by_cases h6 : a.rc q = 0
  swap
  · rw [if_neg h6, if_pos h6]; exact R.refl _
  have p2 : ¬ (a.rc q ≠ 0) := fun hh => hh h6
  rw [if_pos h6, if_neg p2]
  by_cases h7 : 1 ≤ a.rc g
  swap
  · rw [if_neg h7, if_neg h7]; exact Sim.none
  rw [if_pos h7, if_pos h7]
  by_cases hp : (rdOf a rdA).inPar x = true
  · simp only [hp, if_true]
    have hv2 : Enc (rdOf a rdA).lpa2 (d + 1) (.unassigned .destroyed) createUnassignedDestroyed := ⟨trivial, rfl⟩
    refine Sim.some (dropTableSt_rel R k (by simp) hv2) ?_
    rw [skipW_eq (w := ⟨g, d + 1, idx (d + 1) x⟩) (EncT.upd k.enc _ hv2) ki x]
  · simp only [hp, Bool.false_eq_true, if_false]
    have hv2 : Enc (rdOf a rdA).lpa2 (d + 1) .unassignedNs createUnassignedNs := ⟨trivial, rfl⟩
    refine Sim.some (dropTableSt_rel R k (by simp) hv2) ?_
    rw [skipW_eq (w := ⟨g, d + 1, idx (d + 1) x⟩) (EncT.upd k.enc _ hv2) ki x]

end

end Verif.Desc
