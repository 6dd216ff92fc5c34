import Verif.Rmm.PresMem

/-!
# The RMM machine: the invariant is kept by commands that add or remove tables and data
-/

namespace Verif.Rmm

section
variable {P : Plat} {s : State} {ti : Nat → TabInfo} {di : Nat → Nat × Nat} {rl : Nat → List Nat}

/-! ## Uniqueness -/

theorem entry_addr {d base i : Nat} (hb : base % sz (d + 1) = 0) (hi : i < 512) (h : base + i * sz d < 2 ^ 52) :
    al d (base + i * sz d) = base ∧ idx d (base + i * sz d) = i ∧ (base + i * sz d) % sz d = 0 := by
  have h1 := (in_entry d base i (base + i * sz d) hb hi h).mp ⟨Nat.le_refl _, by have := sz_pos d; omega⟩
  refine ⟨h1.1, h1.2, ?_⟩
  rw [Nat.add_mul_mod_self_right]
  exact mod_sz_of_dvd (by omega) hb

/-- A table has one place. -/
theorem child_unique (h : InvG P s ti di rl) {p p' i i' c : Nat} (hp : s.st p = .rtt) (hp' : s.st p' = .rtt)
    (hi : i < 512) (hi' : i' < 512) (he : tabOf s p i = .table c) (he' : tabOf s p' i' = .table c) :
    p = p' ∧ i = i' := by
  have h1 := (h.tab p hp).ent i hi
  have h2 := (h.tab p' hp').ent i' hi'
  rw [he] at h1
  rw [he'] at h2
  obtain ⟨a1, a2, _, a4, _⟩ := h1
  obtain ⟨b1, b2, _, b4, _⟩ := h2
  rw [a4] at b4
  injection b4 with e1 e2 e3
  have e4 : (ti p).d = (ti p').d := by omega
  have hg := (h.rds _ (h.tab p hp).rd).geo
  have h52 : (ti p).base + i * sz (ti p).d < 2 ^ 52 := lt_of_lt_of_le a1 hg.ipa_lt
  have c1 := entry_addr (h.tab p hp).base hi h52
  have c2 := entry_addr (h.tab p' hp').base hi' (by rw [← e3]; exact h52)
  rw [← e3, ← e4] at c2
  refine ⟨?_, by rw [← c1.2.1, c2.2.1]⟩
  apply tab_unique h _ p p' hp hp' _ rfl
  have e5 : (ti p).base = (ti p').base := by rw [← c1.1, c2.1]
  have : ti p = ⟨(ti p).rd, (ti p).d, (ti p).base⟩ := rfl
  rw [this, e1, e4, e5]

/-- The IPA of page `k` of an assigned entry: the entry describes it. -/
theorem assigned_addr (h : InvG P s ti di rl) {g i pa k : Nat} {rp : Ripas} (hg : s.st g = .rtt) (hi : i < 512)
    (he : tabOf s g i = .assigned rp pa) (hk : k < 512 ^ (ti g).d) :
    let x := (ti g).base + i * sz (ti g).d + 4096 * k
    x < (rdOf s (ti g).rd).parSize ∧ al (ti g).d x = (ti g).base ∧ idx (ti g).d x = i ∧
      x % sz (ti g).d = 4096 * k ∧ s.st (pa + 4096 * k) = .data ∧ di (pa + 4096 * k) = ((ti g).rd, x) := by
  intro x
  have hT := h.tab g hg
  have h1 := hT.ent i hi
  rw [he] at h1
  obtain ⟨a1, a2, a3, a4, a5⟩ := h1
  have hG := (h.rds _ hT.rd).geo
  have hk2 : 4096 * k < sz (ti g).d := by unfold sz; omega
  have hxlt : x < (ti g).base + i * sz (ti g).d + sz (ti g).d := by omega
  have hal : ((ti g).base + i * sz (ti g).d) % sz (ti g).d = 0 := by
    rw [Nat.add_mul_mod_self_right]; exact mod_sz_of_dvd (by omega) hT.base
  have hpar : x < (rdOf s (ti g).rd).parSize :=
    region_below (dvd_trans (sz_dvd hT.depth) hG.par_dvd) hal a1 hxlt
  have h52 : x < 2 ^ 52 := lt_of_lt_of_le (lt_of_lt_of_le hpar hG.par_le) hG.ipa_lt
  have h3 := (in_entry (ti g).d (ti g).base i x hT.base hi h52).mp ⟨by omega, hxlt⟩
  refine ⟨hpar, h3.1, h3.2, ?_, a5 k hk⟩
  show ((ti g).base + i * sz (ti g).d + 4096 * k) % sz (ti g).d = 4096 * k
  rw [Nat.add_mod, hal, Nat.zero_add, Nat.mod_mod, Nat.mod_eq_of_lt hk2]

/-- A data granule is mapped by one entry. -/
theorem data_unique (h : InvG P s ti di rl) {g g' i i' pa pa' k k' : Nat} {rp rp' : Ripas}
    (hg : s.st g = .rtt) (hg' : s.st g' = .rtt) (hi : i < 512) (hi' : i' < 512)
    (he : tabOf s g i = .assigned rp pa) (he' : tabOf s g' i' = .assigned rp' pa')
    (hk : k < 512 ^ (ti g).d) (hk' : k' < 512 ^ (ti g').d) (hx : pa + 4096 * k = pa' + 4096 * k') :
    g = g' ∧ i = i' := by
  obtain ⟨a1, a2, a3, _, a4, a5⟩ := assigned_addr h hg hi he hk
  obtain ⟨b1, b2, b3, _, b4, b5⟩ := assigned_addr h hg' hi' he' hk'
  rw [← hx, a5] at b5
  have e1 : (ti g).rd = (ti g').rd := congrArg Prod.fst b5
  have e2 : (ti g).base + i * sz (ti g).d + 4096 * k = (ti g').base + i' * sz (ti g').d + 4096 * k' :=
    congrArg Prod.snd b5
  rw [← e2] at b1 b2 b3
  have hG := (h.rds _ (h.tab g hg).rd).geo
  have h52 := lt_of_lt_of_le (lt_of_lt_of_le a1 hG.par_le) hG.ipa_lt
  have : g = g' := by
    apply leaf_unique h hg hg' h52 e1 a2.symm b2.symm
    · rw [a3, he]; simp
    · rw [b3, he']; simp
  subst this
  exact ⟨rfl, by rw [← a3, b3]⟩

/-! ## Mapping a data granule -/

/-- State after a data granule is mapped. -/
def mapDataSt (s : State) (data g i p : Nat) (rp : Ripas) : State :=
  { s with
    st := upd s.st data .data
    mem := upd (upd s.mem data (.page p)) g (.table (upd (tabOf s g) i (.assigned rp data)))
    rc := upd s.rc g (s.rc g + 1) }

theorem inv_mapData (hP : PlatOk P) (h : InvG P s ti di rl) {rdA data a g : Nat} {rp0 : Ripas}
    (k : DataOk s ti rdA data a g rp0) (rp : Ripas) (p : Nat) :
    InvG P (mapDataSt s data g (idx 0 a) p rp) ti (upd di data (rdA, a)) rl := by
  have hg := k.at_.st
  have hdg : data ≠ g := ne_of_st k.del hg (by simp)
  have htrk : P.tracked data = true := h.trk data (by rw [k.del]; simp)
  have st_ne : ∀ x, x ≠ data → (mapDataSt s data g (idx 0 a) p rp).st x = s.st x := fun x hx => upd_ne _ _ _ hx
  have st_eq : (mapDataSt s data g (idx 0 a) p rp).st data = .data := upd_same _ _ _
  have st_of : ∀ x y, s.st x = y → y ≠ .delegated → (mapDataSt s data g (idx 0 a) p rp).st x = y := by
    intro x y hx hy
    rw [st_ne x (ne_of_st hx k.del hy)]; exact hx
  have mem_of : ∀ x y, s.st x = y → y ≠ .delegated → y ≠ .rtt →
      (mapDataSt s data g (idx 0 a) p rp).mem x = s.mem x := by
    intro x y hx hy hy2
    unfold mapDataSt
    dsimp only
    rw [upd_ne _ _ _ (ne_of_st hx hg hy2), upd_ne _ _ _ (ne_of_st hx k.del hy)]
  have tab_ne : ∀ x, s.st x = .rtt → x ≠ g → (mapDataSt s data g (idx 0 a) p rp).mem x = s.mem x := by
    intro x hx hne
    unfold mapDataSt
    dsimp only
    rw [upd_ne _ _ _ hne, upd_ne _ _ _ (ne_of_st hx k.del (by simp))]
  have tab_g : (mapDataSt s data g (idx 0 a) p rp).mem g =
      .table (upd (tabOf s g) (idx 0 a) (.assigned rp data)) := upd_same _ _ _
  have rd_eq : ∀ x, s.st x = .rd → rdOf (mapDataSt s data g (idx 0 a) p rp) x = rdOf s x := by
    intro x hx; unfold rdOf getRd; rw [mem_of x _ hx (by simp) (by simp)]
  have up : ∀ q i c, s.st q = .rtt → tabOf s q i = .table c →
      (mapDataSt s data g (idx 0 a) p rp).st q = .rtt ∧ ti q = ti q ∧
      tabOf (mapDataSt s data g (idx 0 a) p rp) q i = .table c := by
    intro q i c hq he
    refine ⟨st_of q _ hq (by simp), rfl, ?_⟩
    by_cases hqg : q = g
    · subst hqg
      rw [tabOf_of_mem tab_g, upd_ne]
      · exact he
      · rintro rfl; rw [k.ent] at he; simp at he
    · unfold tabOf getTab; rw [tab_ne q hq hqg]; exact he
  have assigned : ∀ q i rp' pa, s.st q = .rtt → tabOf s q i = .assigned rp' pa →
      tabOf (mapDataSt s data g (idx 0 a) p rp) q i = .assigned rp' pa := by
    intro q i rp' pa hq he
    by_cases hqg : q = g
    · subst hqg
      rw [tabOf_of_mem tab_g, upd_ne]
      · exact he
      · rintro rfl; rw [k.ent] at he; simp at he
    · unfold tabOf getTab; rw [tab_ne q hq hqg]; exact he
  have dfr : ∀ x, s.st x = .data → (mapDataSt s data g (idx 0 a) p rp).st x = .data ∧
      upd di data (rdA, a) x = di x := by
    intro x hx
    exact ⟨st_of x _ hx (by simp), upd_ne _ _ _ (ne_of_st hx k.del (by simp))⟩
  refine inv_tabs h ?_ ?_ rfl ?_ ?_ ?_ ?_ ?_ ?_ ?_ ?_ ?_
  · intro x
    by_cases hx : x = data
    · subst hx; rw [st_eq, k.del]; simp
    · rw [st_ne x hx]; simp
  · intro x hx
    refine ⟨?_, ?_⟩
    · rcases hx with hx | hx | hx <;> exact mem_of x _ hx (by simp) (by simp)
    · apply upd_ne
      rcases hx with hx | hx | hx <;> exact ne_of_st hx hg (by simp)
  · intro q hq _; exact ⟨st_of q _ hq (by simp), rfl⟩
  · intro x hx
    by_cases hxd : x = data
    · subst hxd; exact htrk
    · rw [st_ne x hxd] at hx; exact h.trk x hx
  · intro x hx
    have := h.gpt x hx
    show _ ↔ s.pas x = .realm
    by_cases hxd : x = data
    · subst hxd; rw [st_eq]; rw [k.del] at this; simpa using this
    · rw [st_ne x hxd]; exact this
  · intro x hx
    by_cases hxd : x = data
    · subst hxd; rw [st_eq] at hx; simp at hx
    · rw [st_ne x hxd] at hx; rw [mem_of x _ hx (by simp) (by simp)]; exact h.nsPage x hx
  · intro x hx
    by_cases hxd : x = data
    · subst hxd; rw [st_eq] at hx; simp at hx
    · rw [st_ne x hxd] at hx
      have hxg : x ≠ g := ne_of_st hx hg (by simp)
      show upd (upd s.mem data (.page p)) g _ x = _
      rw [upd_ne _ _ _ hxg, upd_ne _ _ _ hxd]; exact h.delPage x hx
  · intro x hx
    by_cases hxd : x = data
    · subst hxd
      refine ⟨p, ?_⟩
      show upd (upd s.mem x (.page p)) g _ x = _
      rw [upd_ne _ _ _ hdg, upd_same]
    · rw [st_ne x hxd] at hx; rw [mem_of x _ hx (by simp) (by simp)]; exact h.dataPage x hx
  · intro x hx
    have hxg : x ≠ g := by
      rintro rfl
      rw [st_ne _ hdg.symm, hg] at hx
      simp at hx
    show upd s.rc g _ x = 0
    rw [upd_ne _ _ _ hxg]
    by_cases hxd : x = data
    · subst hxd; exact h.rc0 x (Or.inr (Or.inl k.del))
    · rw [st_ne x hxd] at hx
      exact h.rc0 x (by rcases hx with h1 | h1 | h1 <;> simp [h1])
  · intro q hq
    have hqd : q ≠ data := by rintro rfl; rw [st_eq] at hq; simp at hq
    rw [st_ne q hqd] at hq
    have hT := h.tab q hq
    have hrd : (mapDataSt s data g (idx 0 a) p rp).st (ti q).rd = .rd := st_of _ _ hT.rd (by simp)
    have hgeo : SameGeo (rdOf s (ti q).rd) (rdOf (mapDataSt s data g (idx 0 a) p rp) (ti q).rd) := by
      rw [rd_eq _ hT.rd]; exact SameGeo.refl _
    by_cases hqg : q = g
    · subst hqg
      apply hT.change tab_g rfl hrd hgeo (fun q' hq' he => up q' _ _ hq' he)
      · intro i hi
        by_cases hii : i = idx 0 a
        · subst hii
          rw [upd_same, rd_eq _ hT.rd, k.at_.ti]
          dsimp only
          rw [al_add _ _ (k.at_.lt52 h), sz_zero, div_mul_of_mod k.al]
          refine ⟨k.par, by omega, ?_, k.pa, ?_⟩
          · rw [sz_zero]; exact hP.aligned data htrk
          · intro j hj
            simp only [Nat.pow_zero, Nat.lt_one_iff] at hj
            subst hj
            rw [Nat.mul_zero, Nat.add_zero, Nat.add_zero]
            exact ⟨st_eq, upd_same _ _ _⟩
        · rw [upd_ne _ _ _ hii]
          exact (hT.ent i hi).frame hgeo (fun c _ hc => ⟨st_of _ _ hc (by simp), rfl⟩)
            (fun rp' pa _ j _ hj => dfr _ hj)
      · show upd s.rc q (s.rc q + 1) q = _
        rw [upd_same, hT.rc]
        have := cnt_upd (tabOf s q) (idx 0 a) (.assigned rp data) 512 (idx_lt _ _)
        rw [k.ent] at this
        simp [Entry.counted] at this
        exact this.symm
    · exact hT.frame (tab_ne q hq hqg) rfl (upd_ne _ _ _ hqg) hrd hgeo (fun q' hq' he => up q' _ _ hq' he)
        (fun i _ c _ hc => ⟨st_of _ _ hc (by simp), rfl⟩) (fun i _ rp' pa _ j _ hj => dfr _ hj)
  · intro x hx
    by_cases hxd : x = data
    · subst hxd
      rw [upd_same]
      refine ⟨st_of _ _ k.at_.rd (by simp), k.al, g, 0, rp, x, st_of _ _ hg (by simp), k.at_.ti, ?_, ?_⟩
      · rw [tabOf_of_mem tab_g, upd_same]
      · dsimp only; rw [sz_zero, k.al]; rfl
    · rw [st_ne x hxd] at hx
      rw [upd_ne _ _ _ hxd]
      obtain ⟨h1, h2, q, d, rp', pa, h3, h4, h5, h6⟩ := h.data x hx
      exact ⟨st_of _ _ h1 (by simp), h2, q, d, rp', pa, st_of _ _ h3 (by simp), h4, assigned q _ rp' pa h3 h5, h6⟩

theorem inv_dataCreateUnknown (hP : PlatOk P) (h : InvG P s ti di rl) {rdA data a g : Nat} {rp : Ripas}
    (k : DataOk s ti rdA data a g rp) :
    InvG P (dataCreateSt s data g (idx 0 a) (tabOf s g) rp) ti (upd di data (rdA, a)) rl := by
  have := inv_mapData hP h k rp 0
  unfold mapDataSt at this
  rw [upd_mem_self s (h.delPage data k.del)] at this
  exact this

theorem inv_dataCreate (hP : PlatOk P) (h : InvG P s ti di rl) {rdA data a g p flags : Nat} {rp : Ripas}
    (k : DataOk s ti rdA data a g rp) :
    InvG P (dataCreatedSt s rdA data a g p flags) ti (upd di data (rdA, a)) rl := by
  have h1 := inv_mapData hP h k .ram p
  have hne : rdA ≠ g := ne_of_st k.at_.rd k.at_.st (by simp)
  have hne2 : rdA ≠ data := ne_of_st k.at_.rd k.del (by simp)
  have e : rdOf (mapDataSt s data g (idx 0 a) p .ram) rdA = rdOf s rdA := by
    unfold rdOf getRd mapDataSt; dsimp only; rw [upd_ne _ _ _ hne, upd_ne _ _ _ hne2]
  have hst : (mapDataSt s data g (idx 0 a) p .ram).st rdA = .rd := by
    show upd s.st data .data rdA = _
    rw [upd_ne _ _ _ hne2]; exact k.at_.rd
  have h2 := inv_rd h1 rdA { rdOf s rdA with
      rim := (rdOf s rdA).rim ++ [MeasEv.data a (if flags = 1 then some p else none)] } hst
    (by rw [e]; exact ⟨rfl, rfl, rfl, rfl, rfl, rfl, rfl⟩) (by rw [e]) (by rw [e]; exact id)
  have e2 : dataCreatedSt s rdA data a g p flags =
      { mapDataSt s data g (idx 0 a) p .ram with
        mem := upd (mapDataSt s data g (idx 0 a) p .ram).mem rdA (.rd { rdOf s rdA with
          rim := (rdOf s rdA).rim ++ [MeasEv.data a (if flags = 1 then some p else none)] }) } := by
    unfold dataCreatedSt dataCreateSt mapDataSt
    dsimp only
    congr 1
    funext x
    unfold upd
    grind
  rw [e2]
  exact h2

/-! ## DATA_DESTROY -/

theorem DataDestroyOk.inv (h : InvG P s ti di rl) {rdA a g pa : Nat} {rp : Ripas} {s' : State} {ret : Ret}
    (k : DataDestroyOk s ti rdA a g pa rp s' ret) : InvG P s' ti di rl := by
  have hg := k.at_.st
  have hent := k.at_.ent h
  rw [k.ent] at hent
  have hpa : s.st pa = .data := by
    have := (hent.2.2.2.2 0 (by simp)).1
    simpa using this
  have hti := k.at_.ti
  have hdg : pa ≠ g := ne_of_st hpa hg (by simp)
  generalize he' : Entry.unassigned (if rp = .empty then .empty else .destroyed) = e' at *
  have hs' := k.st
  rw [he'] at hs'
  have st_ne : ∀ x, x ≠ pa → s'.st x = s.st x := fun x hx => by rw [hs']; exact upd_ne _ _ _ hx
  have st_eq : s'.st pa = .delegated := by rw [hs']; exact upd_same _ _ _
  have st_of : ∀ x y, s.st x = y → y ≠ .data → s'.st x = y := by
    intro x y hx hy
    rw [st_ne x (ne_of_st hx hpa hy)]; exact hx
  have mem_of : ∀ x, x ≠ pa → x ≠ g → s'.mem x = s.mem x := by
    intro x hx hy
    rw [hs']
    dsimp only
    rw [upd_ne _ _ _ hx, upd_ne _ _ _ hy]
  have mem_st : ∀ x y, s.st x = y → y ≠ .data → y ≠ .rtt → s'.mem x = s.mem x := by
    intro x y hx hy hy2
    exact mem_of x (ne_of_st hx hpa hy) (ne_of_st hx hg hy2)
  have tab_g : s'.mem g = .table (upd (tabOf s g) (idx 0 a) e') := by
    rw [hs']; dsimp only; rw [upd_ne _ _ _ hdg.symm, upd_same]
  have rc_ne : ∀ x, x ≠ g → s'.rc x = s.rc x := by intro x hx; rw [hs']; exact upd_ne _ _ _ hx
  have rd_eq : ∀ x, s.st x = .rd → rdOf s' x = rdOf s x := by
    intro x hx; unfold rdOf getRd; rw [mem_st x _ hx (by simp) (by simp)]
  have up : ∀ q i c, s.st q = .rtt → tabOf s q i = .table c →
      s'.st q = .rtt ∧ ti q = ti q ∧ tabOf s' q i = .table c := by
    intro q i c hq he
    refine ⟨st_of q _ hq (by simp), rfl, ?_⟩
    by_cases hqg : q = g
    · subst hqg
      rw [tabOf_of_mem tab_g, upd_ne]
      · exact he
      · rintro rfl; rw [k.ent] at he; simp at he
    · unfold tabOf getTab; rw [mem_of q (ne_of_st hq hpa (by simp)) hqg]; exact he
  -- granules mapped by another entry are not `pa`
  have dfr : ∀ q i rp' pa' j, s.st q = .rtt → i < 512 → tabOf s q i = .assigned rp' pa' →
      j < 512 ^ (ti q).d → ¬ (q = g ∧ i = idx 0 a) → pa' + 4096 * j ≠ pa := by
    intro q i rp' pa' j hq hi he hj hne hx
    apply hne
    have := data_unique h (k := j) (k' := 0) hq hg hi (idx_lt 0 a) he k.ent hj
      (by rw [hti]; simp) (by rw [hx]; simp)
    exact this
  refine inv_tabs h ?_ ?_ (by rw [hs']) ?_ ?_ ?_ ?_ ?_ ?_ ?_ ?_ ?_
  · intro x
    by_cases hx : x = pa
    · subst hx; rw [st_eq, hpa]; simp
    · rw [st_ne x hx]; simp
  · intro x hx
    refine ⟨?_, ?_⟩
    · rcases hx with hx | hx | hx <;> exact mem_st x _ hx (by simp) (by simp)
    · apply rc_ne
      rcases hx with hx | hx | hx <;> exact ne_of_st hx hg (by simp)
  · intro q hq _; exact ⟨st_of q _ hq (by simp), rfl⟩
  · intro x hx
    by_cases hxd : x = pa
    · subst hxd; exact h.trk x (by rw [hpa]; simp)
    · rw [st_ne x hxd] at hx; exact h.trk x hx
  · intro x hx
    have hh := h.gpt x hx
    have hp : s'.pas x = s.pas x := by rw [hs']
    rw [hp]
    by_cases hxd : x = pa
    · subst hxd; rw [st_eq]; rw [hpa] at hh; simpa using hh
    · rw [st_ne x hxd]; exact hh
  · intro x hx
    by_cases hxd : x = pa
    · subst hxd; rw [st_eq] at hx; simp at hx
    · rw [st_ne x hxd] at hx; rw [mem_st x _ hx (by simp) (by simp)]; exact h.nsPage x hx
  · intro x hx
    by_cases hxd : x = pa
    · subst hxd; rw [hs']; exact upd_same _ _ _
    · rw [st_ne x hxd] at hx; rw [mem_st x _ hx (by simp) (by simp)]; exact h.delPage x hx
  · intro x hx
    by_cases hxd : x = pa
    · subst hxd; rw [st_eq] at hx; simp at hx
    · rw [st_ne x hxd] at hx
      rw [mem_of x hxd (ne_of_st hx hg (by simp))]; exact h.dataPage x hx
  · intro x hx
    by_cases hxd : x = pa
    · subst hxd; rw [rc_ne x hdg]; exact h.rc0 x (by simp [hpa])
    · rw [st_ne x hxd] at hx
      have hxg : x ≠ g := by rintro rfl; rw [hg] at hx; simp at hx
      rw [rc_ne x hxg]
      exact h.rc0 x (by rcases hx with h1 | h1 | h1 <;> simp [h1])
  · intro q hq
    have hqd : q ≠ pa := by rintro rfl; rw [st_eq] at hq; simp at hq
    rw [st_ne q hqd] at hq
    have hT := h.tab q hq
    have hrd : s'.st (ti q).rd = .rd := st_of _ _ hT.rd (by simp)
    have hgeo : SameGeo (rdOf s (ti q).rd) (rdOf s' (ti q).rd) := by
      rw [rd_eq _ hT.rd]; exact SameGeo.refl _
    by_cases hqg : q = g
    · subst hqg
      apply hT.change tab_g rfl hrd hgeo (fun q' hq' he => up q' _ _ hq' he)
      · intro i hi
        by_cases hii : i = idx 0 a
        · subst hii
          rw [upd_same, rd_eq _ hT.rd, hti]
          dsimp only
          rw [al_add _ _ (k.at_.lt52 h), sz_zero, div_mul_of_mod k.al, ← he']
          exact Or.inl k.par
        · rw [upd_ne _ _ _ hii]
          refine (hT.ent i hi).frame hgeo (fun c _ hc => ⟨st_of _ _ hc (by simp), rfl⟩) ?_
          intro rp' pa' he j hj hst
          refine ⟨?_, rfl⟩
          rw [st_ne _ (dfr q i rp' pa' j hq hi he hj (by simp [hii]))]; exact hst
      · have : s'.rc q = s.rc q - 1 := by rw [hs']; exact upd_same _ _ _
        rw [this, hT.rc]
        have := cnt_upd (tabOf s q) (idx 0 a) e' 512 (idx_lt _ _)
        rw [k.ent, ← he'] at this
        simp [Entry.counted] at this
        rw [← he']
        omega
    · refine hT.frame (mem_of q hqd hqg) rfl (rc_ne q hqg) hrd hgeo (fun q' hq' he => up q' _ _ hq' he)
        (fun i _ c _ hc => ⟨st_of _ _ hc (by simp), rfl⟩) ?_
      intro i hi rp' pa' he j hj hst
      refine ⟨?_, rfl⟩
      rw [st_ne _ (dfr q i rp' pa' j hq hi he hj (by simp [hqg]))]; exact hst
  · intro x hx
    have hxd : x ≠ pa := by rintro rfl; rw [st_eq] at hx; simp at hx
    rw [st_ne x hxd] at hx
    obtain ⟨h1, h2, q, d, rp', pa', h3, h4, h5, h6⟩ := h.data x hx
    refine ⟨st_of _ _ h1 (by simp), h2, q, d, rp', pa', st_of _ _ h3 (by simp), h4, ?_, h6⟩
    by_cases hqg : q = g
    · subst hqg
      rw [tabOf_of_mem tab_g, upd_ne]
      · exact h5
      · intro hii
        rw [hti] at h4
        have hd : d = 0 := (congrArg TabInfo.d h4).symm
        subst hd
        rw [hii, k.ent] at h5
        simp only [Entry.assigned.injEq] at h5
        rw [sz_zero, h2, ← h5.2] at h6
        exact hxd h6
    · unfold tabOf getTab; rw [mem_of q (ne_of_st h3 hpa (by simp)) hqg]; exact h5

end

end Verif.Rmm
