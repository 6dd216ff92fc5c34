import Verif.Rmm.SpecMem

/-!
# The RMM machine: the invariant is kept by commands that change entries only
-/

namespace Verif.Rmm

section
variable {P : Plat} {s : State} {ti : Nat → TabInfo} {di : Nat → Nat × Nat} {rl : Nat → List Nat}

theorem upd_table_ne {t : Nat → Entry} {i j : Nat} {e : Entry} (h : upd t i e j ≠ t j) : j = i := by
  by_contra hc
  exact h (upd_ne _ _ _ hc)

/-- The address described by entry `j` of the table for `a`. -/
theorem At.addr {rdA a d g} (k : At s ti rdA a d g) (h : InvG P s ti di rl) (hal : a % sz d = 0) (j : Nat) :
    al d a + (idx d a + j) * sz d = a + j * sz d := by
  have := al_add d a (k.lt52 h)
  rw [div_mul_of_mod hal] at this
  rw [Nat.add_mul]; omega

/-- One entry changes. -/
theorem inv_ent (h : InvG P s ti di rl) {rdA a d g : Nat} (k : At s ti rdA a d g) (e : Entry)
    (hc : e.counted = (tabOf s g (idx d a)).counted)
    (ht : ∀ c, e = .table c ↔ tabOf s g (idx d a) = .table c)
    (ha : ∀ rp pa, tabOf s g (idx d a) = .assigned rp pa → ∃ rp', e = .assigned rp' pa)
    (hok : EntryOk s ti di rdA (rdOf s rdA) d (a / sz d * sz d) e) :
    InvG P { s with mem := upd s.mem g (.table (upd (tabOf s g) (idx d a) e)) } ti di rl := by
  apply inv_tab h g _ k.st
  intro i hi hne
  have : i = idx d a := upd_table_ne hne
  subst this
  rw [upd_same]
  refine ⟨hc, ht, ha, ?_⟩
  rw [k.ti]
  dsimp only
  rw [al_add _ _ (k.lt52 h)]
  exact hok

theorem MapOk.inv (h : InvG P s ti di rl) {rdA a d g hd s' ret} (k : MapOk s ti rdA a d g hd s' ret) :
    InvG P s' ti di rl := by
  rw [k.st]
  apply inv_ent h k.at_
  · rw [k.ent]; rfl
  · intro c; rw [k.ent]; simp [hostEntry]
  · intro rp pa hx; rw [k.ent] at hx; simp at hx
  · rw [div_mul_of_mod k.al]
    exact ⟨k.par, k.at_.lt, k.d2, hostEntry_ok _ _ _ k.d2 k.valid⟩

theorem UnmapOk.inv (h : InvG P s ti di rl) {rdA a d g s' ret} (k : UnmapOk s ti rdA a d g s' ret) :
    InvG P s' ti di rl := by
  rw [k.st]
  obtain ⟨at_, pa, he⟩ := k.ent
  apply inv_ent h k.at_
  · rw [he]; rfl
  · intro c; rw [he]; simp
  · intro rp pa hx; rw [he] at hx; simp at hx
  · rw [div_mul_of_mod k.al]
    exact ⟨k.par, k.at_.lt⟩

theorem initable_cases {e : Entry} (h : e.initable = true) :
    e = .unassigned .empty ∨ e = .unassigned .ram := by
  unfold Entry.initable at h
  split at h <;> simp_all

theorem perTab_le (d : Nat) : perTab d ≤ 512 := by unfold perTab; split <;> omega

theorem ne_of_st {s : State} {a b : Nat} {x y : GSt} (ha : s.st a = x) (hb : s.st b = y) (h : x ≠ y) : a ≠ b := by
  rintro rfl; rw [ha] at hb; exact h hb

theorem InitOk.inv (h : InvG P s ti di rl) {rdA base top d g m s' ret}
    (k : InitOk s ti rdA base top d g m s' ret) : InvG P s' ti di rl := by
  have hp := sz_pos d
  have hper := perTab_le d
  have hm2 := k.m2
  have h1 := inv_tab h g (fun j => if idx d base ≤ j ∧ j < idx d base + m then .unassigned .ram
    else tabOf s g j) k.at_.st (by
      intro i hi hne
      by_cases hr : idx d base ≤ i ∧ i < idx d base + m
      · rw [if_pos hr] at hne ⊢
        have hin := k.was i hr.1 hr.2
        refine ⟨?_, ?_, ?_, ?_⟩
        · rcases initable_cases hin with e | e <;> rw [e] <;> rfl
        · intro c
          rcases initable_cases hin with e | e <;> rw [e] <;> simp
        · intro rp pa hx
          rcases initable_cases hin with e | e <;> rw [e] at hx <;> simp at hx
        · left
          rw [k.at_.ti]
          dsimp only
          obtain ⟨j, hj⟩ := Nat.exists_eq_add_of_le hr.1
          rw [hj, k.at_.addr h k.al]
          have h2 : (j + 1) * sz d ≤ m * sz d := Nat.mul_le_mul_right _ (by omega)
          rw [Nat.add_mul] at h2
          have := k.le
          have := k.par
          omega
      · rw [if_neg hr] at hne
        exact absurd rfl hne)
  have hne : rdA ≠ g := ne_of_st k.at_.rd k.at_.st (by simp)
  have h2 := inv_rd h1 rdA { rdOf s rdA with rim := (rdOf s rdA).rim ++ ripasEvs d base m } k.at_.rd
  have e : rdOf { s with mem := upd s.mem g (.table fun j =>
      if idx d base ≤ j ∧ j < idx d base + m then .unassigned .ram else tabOf s g j) } rdA = rdOf s rdA := by
    unfold rdOf getRd; dsimp only; rw [upd_ne _ _ _ hne]
  rw [e] at h2
  rw [k.st]
  exact h2 ⟨rfl, rfl, rfl, rfl, rfl, rfl, rfl⟩ (Nat.le_refl _) id

theorem updateRipas_shape {e e' : Entry} {v : Ripas} {chg tl : Bool} (h : updateRipas e v chg = some (e', tl)) :
    (∃ r r', e = .unassigned r ∧ e' = .unassigned r') ∨
    (∃ r r' pa, e = .assigned r pa ∧ e' = .assigned r' pa) := by
  unfold updateRipas at h
  grind

theorem setRipas_shape {e : Entry} {v : Ripas} {chg : Bool} (h : (updateRipas e v chg).isSome = true) :
    (∃ r r', e = .unassigned r ∧ e.setRipas v chg = .unassigned r') ∨
    (∃ r r' pa, e = .assigned r pa ∧ e.setRipas v chg = .assigned r' pa) := by
  obtain ⟨⟨e', tl⟩, hx⟩ := Option.isSome_iff_exists.mp h
  have : e.setRipas v chg = e' := by unfold Entry.setRipas; rw [hx]; rfl
  rw [this]
  exact updateRipas_shape hx

theorem SetOk.inv (h : InvG P s ti di rl) {rdA recA base top d g m s' ret}
    (k : SetOk s ti rdA recA base top d g m s' ret) : InvG P s' ti di rl := by
  have hp := sz_pos d
  have hm2 := k.m2
  have hsr := (h.recs recA k.rst).sr
  rw [k.own] at hsr
  have hpar := hsr.par
  have htop := k.topLe
  have hle := k.le
  have h1 := inv_tab h g (fun j => if idx d base ≤ j ∧ j < idx d base + m
    then (tabOf s g j).setRipas (recOf s recA).sr.ripas (recOf s recA).sr.chg else tabOf s g j) k.at_.st (by
      intro i hi hne
      by_cases hr : idx d base ≤ i ∧ i < idx d base + m
      · rw [if_pos hr] at hne ⊢
        have hent := (h.tab g k.at_.st).ent i hi
        rcases setRipas_shape (k.can i hr.1 hr.2) with ⟨r, r', e1, e2⟩ | ⟨r, r', pa, e1, e2⟩
        · rw [e1] at hent
          rw [e1] at e2
          rw [e1, e2]
          refine ⟨rfl, by simp, by simp, ?_⟩
          left
          rw [k.at_.ti]
          dsimp only
          obtain ⟨j, hj⟩ := Nat.exists_eq_add_of_le hr.1
          rw [hj, k.at_.addr h k.al]
          have h2 : (j + 1) * sz d ≤ m * sz d := Nat.mul_le_mul_right _ (by omega)
          rw [Nat.add_mul] at h2
          omega
        · rw [e1] at hent
          rw [e1] at e2
          rw [e1, e2]
          exact ⟨rfl, by simp, by simp, hent⟩
      · rw [if_neg hr] at hne
        exact absurd rfl hne)
  have hne : recA ≠ g := ne_of_st k.rst k.at_.st (by simp)
  have hne2 : rdA ≠ g := ne_of_st k.at_.rd k.at_.st (by simp)
  have h2 := inv_rec h1 recA { recOf s recA with sr := { (recOf s recA).sr with addr := base + m * sz d } } 0 k.rst
  have e : recOf { s with mem := upd s.mem g (.table fun j =>
      if idx d base ≤ j ∧ j < idx d base + m
      then (tabOf s g j).setRipas (recOf s recA).sr.ripas (recOf s recA).sr.chg else tabOf s g j) } recA =
      recOf s recA := by
    unfold recOf getRec; dsimp only; rw [upd_ne _ _ _ hne]
  have e2 : rdOf { s with mem := upd s.mem g (.table fun j =>
      if idx d base ≤ j ∧ j < idx d base + m
      then (tabOf s g j).setRipas (recOf s recA).sr.ripas (recOf s recA).sr.chg else tabOf s g j) } rdA =
      rdOf s rdA := by
    unfold rdOf getRd; dsimp only; rw [upd_ne _ _ _ hne2]
  rw [e, k.own, e2] at h2
  have h3 := h2 rfl rfl rfl ⟨?_, ?_, hsr.par, hsr.ripas⟩ (by omega) (by simp)
  · rw [k.st]
    dsimp only at h3
    rw [show upd s.rc recA 0 = s.rc by rw [← k.idle, upd_self]] at h3
    exact h3
  · refine ⟨?_, hsr.al.2⟩
    dsimp only
    have h4 : sz d % 4096 = 0 := Nat.mod_eq_zero_of_dvd (by unfold sz; exact Dvd.intro _ rfl)
    have h5 := hsr.al.1
    rw [← k.addr] at h5
    rw [Nat.add_mod, h5, Nat.mul_mod, h4]
    simp
  · intro hne
    dsimp only
    have := hsr.le hne
    rw [← k.addr] at this
    omega

/-- The invariant when realm descriptors, RECs, auxiliary granules and VMIDs are
not touched. -/
theorem inv_tabs {s' : State} {ti' : Nat → TabInfo} {di' : Nat → Nat × Nat} (h : InvG P s ti di rl)
    (hst : ∀ a, (s'.st a = .rd ↔ s.st a = .rd) ∧ (s'.st a = .recd ↔ s.st a = .recd) ∧
      (s'.st a = .recAux ↔ s.st a = .recAux))
    (hmem : ∀ a, s.st a = .rd ∨ s.st a = .recd ∨ s.st a = .recAux →
      s'.mem a = s.mem a ∧ s'.rc a = s.rc a)
    (hv : s'.vmid = s.vmid)
    (hroot : ∀ g, s.st g = .rtt → (ti g).d = (rdOf s (ti g).rd).d0 → s'.st g = .rtt ∧ ti' g = ti g)
    (trk : ∀ a, s'.st a ≠ .ns → P.tracked a = true)
    (gpt : ∀ a, P.tracked a = true → (s'.st a ≠ .ns ↔ s'.pas a = .realm))
    (nsPage : ∀ a, s'.st a = .ns → ∃ p, s'.mem a = .page p)
    (delPage : ∀ a, s'.st a = .delegated → s'.mem a = .page 0)
    (dataPage : ∀ a, s'.st a = .data → ∃ p, s'.mem a = .page p)
    (rc0 : ∀ a, s'.st a = .ns ∨ s'.st a = .delegated ∨ s'.st a = .data → s'.rc a = 0)
    (tab : ∀ g, s'.st g = .rtt → TabOk s' ti' di' g)
    (data : ∀ x, s'.st x = .data → s'.st (di' x).1 = .rd ∧ (di' x).2 % 4096 = 0 ∧
      ∃ g d rp pa, s'.st g = .rtt ∧ ti' g = ⟨(di' x).1, d, al d (di' x).2⟩ ∧
        tabOf s' g (idx d (di' x).2) = .assigned rp pa ∧ x = pa + (di' x).2 % sz d) :
    InvG P s' ti' di' rl := by
  have hrd : ∀ a, s.st a = .rd → rdOf s' a = rdOf s a := by
    intro a ha; unfold rdOf getRd; rw [(hmem a (Or.inl ha)).1]
  have hrec : ∀ a, s.st a = .recd → recOf s' a = recOf s a := by
    intro a ha; unfold recOf getRec; rw [(hmem a (Or.inr (Or.inl ha))).1]
  have hrec' : ∀ a, s'.st a = .recd → s.st a = .recd := fun a => (hst a).2.1.mp
  have hrd' : ∀ a, s'.st a = .rd → s.st a = .rd := fun a => (hst a).1.mp
  have haux' : ∀ a, s'.st a = .recAux → s.st a = .recAux := fun a => (hst a).2.2.mp
  refine ⟨trk, gpt, nsPage, delPage, dataPage, ?_, ?_, tab, ?_, ?_, ?_, ?_, ?_, data, ?_, ?_⟩
  · intro a ha
    rw [(hmem a (Or.inr (Or.inr (haux' a ha)))).1]
    exact h.auxPage a (haux' a ha)
  · intro a ha
    rcases ha with h1 | h1 | h1 | h1
    · exact rc0 a (Or.inl h1)
    · exact rc0 a (Or.inr (Or.inl h1))
    · exact rc0 a (Or.inr (Or.inr h1))
    · rw [(hmem a (Or.inr (Or.inr (haux' a h1)))).2]
      exact h.rc0 a (Or.inr (Or.inr (Or.inr (haux' a h1))))
  · intro a ha
    have ha' := hrd' a ha
    have hR := h.rds a ha'
    obtain ⟨m1, m2⟩ := hmem a (Or.inl ha')
    refine ⟨?_, ?_, ?_, ?_, ?_, ?_, ?_, ?_, ?_⟩
    · rw [m1, hrd a ha']; exact hR.mem
    · rw [hrd a ha']; exact hR.geo
    · intro j hj
      rw [hrd a ha'] at hj ⊢
      obtain ⟨h1, h2⟩ := hR.roots j hj
      obtain ⟨h3, h4⟩ := hroot _ h1 (by rw [h2])
      exact ⟨h3, by rw [h4]; exact h2⟩
    · rw [hrd a ha']; exact hR.aux
    · rw [hrd a ha', hv]; exact hR.vmid
    · exact hR.nodup
    · intro x
      rw [hR.recs x, (hst x).2.1]
      constructor
      · rintro ⟨h1, h2⟩; exact ⟨h1, by rw [hrec x h1]; exact h2⟩
      · rintro ⟨h1, h2⟩; exact ⟨h1, by rw [hrec x h1] at h2; exact h2⟩
    · rw [m2]; exact hR.rc
    · rw [m2]; exact hR.max
  · intro a ha
    have ha' := hrec' a ha
    have hC := h.recs a ha'
    obtain ⟨m1, m2⟩ := hmem a (Or.inr (Or.inl ha'))
    have e := hrec a ha'
    have e2 := hrd _ hC.rd
    refine ⟨?_, ?_, ?_, ?_, ?_, ?_, ?_, ?_, ?_⟩
    · rw [m1, e]; exact hC.mem
    · rw [e, (hst _).1]; exact hC.rd
    · rw [m2]; exact hC.rc
    · rw [e, e2]; exact hC.idx
    · rw [e]; intro x hx; rw [(hst x).2.2]; exact hC.auxSt x hx
    · rw [e]; exact hC.auxNodup
    · rw [e]; exact hC.auxLen
    · rw [e, e2]; exact hC.sr
    · rw [e, e2, m2]; exact hC.run
  · intro a b ha hb h1 h2
    have ha' := hrec' a ha
    have hb' := hrec' b hb
    rw [hrec a ha', hrec b hb'] at h1 h2
    exact h.recIdx a b ha' hb' h1 h2
  · intro x hx
    obtain ⟨a, h1, h2⟩ := h.auxOwner x (haux' x hx)
    exact ⟨a, (hst a).2.1.mpr h1, by rw [hrec a h1]; exact h2⟩
  · intro a b x ha hb h1 h2
    have ha' := hrec' a ha
    have hb' := hrec' b hb
    rw [hrec a ha'] at h1
    rw [hrec b hb'] at h2
    exact h.auxDisj a b x ha' hb' h1 h2
  · intro a b ha hb h1
    have ha' := hrd' a ha
    have hb' := hrd' b hb
    rw [hrd a ha', hrd b hb'] at h1
    exact h.vmidInj a b ha' hb' h1
  · intro v hvv
    rw [hv] at hvv
    obtain ⟨a, h1, h2⟩ := h.vmidOwner v hvv
    exact ⟨a, (hst a).1.mpr h1, by rw [hrd a h1]; exact h2⟩

/-- A table whose contents change. -/
theorem TabOk.change {s' : State} {ti' : Nat → TabInfo} {di' : Nat → Nat × Nat} {g : Nat} {t' : Nat → Entry}
    (h : TabOk s ti di g) (hm : s'.mem g = .table t') (hti : ti' g = ti g)
    (hrd : s'.st (ti g).rd = .rd) (hgeo : SameGeo (rdOf s (ti g).rd) (rdOf s' (ti g).rd))
    (hup : ∀ p, s.st p = .rtt → tabOf s p (idx ((ti g).d + 1) (ti g).base) = .table g →
      s'.st p = .rtt ∧ ti' p = ti p ∧ tabOf s' p (idx ((ti g).d + 1) (ti g).base) = .table g)
    (hent : ∀ i < 512, EntryOk s' ti' di' (ti g).rd (rdOf s' (ti g).rd) (ti g).d
      ((ti g).base + i * sz (ti g).d) (t' i))
    (hrc : s'.rc g = cnt t' 512) : TabOk s' ti' di' g := by
  have htab : tabOf s' g = t' := tabOf_of_mem hm
  refine ⟨?_, ?_, ?_, ?_, ?_, ?_, ?_, ?_⟩
  · rw [htab]; exact hm
  · rw [hti]; exact hrd
  · rw [hti, hgeo.d0]; exact h.depth
  · rw [hti]; exact h.base
  · rw [hti, hgeo.ipa]; exact h.lt
  · rw [hti, hgeo.d0, hgeo.nroots, hgeo.root]
    rcases h.up with h1 | ⟨h1, p, hp, htp, hep⟩
    · exact Or.inl h1
    · obtain ⟨a, b, c⟩ := hup p hp hep
      exact Or.inr ⟨h1, p, a, by rw [b, htp], c⟩
  · intro i hi
    rw [hti, htab]
    exact hent i hi
  · rw [hrc, htab]

end

end Verif.Rmm
