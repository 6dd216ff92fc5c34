import Verif.Rmm.PresTab

/-!
# The RMM machine: the invariant is kept by RTT_CREATE, RTT_FOLD and RTT_DESTROY
-/

namespace Verif.Rmm

section
variable {P : Plat} {s : State} {ti : Nat → TabInfo} {di : Nat → Nat × Nat} {rl : Nat → List Nat}

theorem pow_dvd_lim {d : Nat} (hd : d ≤ 4) (b : Bool) (h : b = false → d ≤ 3) :
    sz d ∣ 2 ^ (if b then 52 else 48) := by
  rw [sz_eq]
  apply Nat.pow_dvd_pow
  cases b
  · have := h rfl; simp; omega
  · simp; omega

theorem split_page (d k : Nat) : ∃ i k', i = k / 512 ^ d ∧ k' = k % 512 ^ d ∧
    4096 * k = i * sz d + 4096 * k' ∧ k' < 512 ^ d ∧ (k < 512 ^ (d + 1) → i < 512) := by
  refine ⟨k / 512 ^ d, k % 512 ^ d, rfl, rfl, ?_, Nat.mod_lt _ (by positivity), ?_⟩
  · unfold sz
    have := Nat.div_add_mod k (512 ^ d)
    generalize k / 512 ^ d = q at *
    generalize k % 512 ^ d = r at *
    generalize 512 ^ d = n at *
    rw [← this]; ring
  · intro hk
    rw [Nat.div_lt_iff_lt_mul (by positivity)]
    rw [Nat.pow_succ] at hk
    omega

/-- The entries of a fresh child are right. -/
theorem splitEntry_ok {rdA d a i : Nat} {r : Rd} {e : Entry} (hr : Geo r) (hd : d < r.d0) (hi : i < 512)
    (hal : a % sz (d + 1) = 0) (hn : ∀ c, e ≠ .table c) (ht : a < r.ipaSize)
    (h : EntryOk s ti di rdA r (d + 1) a e) :
    EntryOk s ti di rdA r d (a + i * sz d) (splitEntry e d i) := by
  have hp := sz_pos d
  have hi1 : i * sz d + sz d ≤ sz (d + 1) := by
    rw [sz_succ]
    have : (i + 1) * sz d ≤ 512 * sz d := Nat.mul_le_mul_right _ (by omega)
    rw [Nat.add_mul] at this; omega
  have below : ∀ b, sz r.d0 ∣ b → a < b → a + i * sz d < b := by
    intro b hb hab
    exact region_below (dvd_trans (sz_dvd (by omega)) hb) hal hab (by omega)
  cases e with
  | unassigned rp =>
    rcases h with h | ⟨h, _⟩
    · exact Or.inl (below _ hr.par_dvd h)
    · omega
  | unassignedNs => exact ⟨by have := h.1; omega, below _ hr.ipa_dvd h.2⟩
  | assigned rp pa =>
    obtain ⟨h1, h2, h3, h4, h5⟩ := h
    refine ⟨below _ hr.par_dvd h1, by omega, ?_, ?_, ?_⟩
    · rw [Nat.add_mul_mod_self_right]; exact mod_sz_of_dvd (by omega) h3
    · intro hl
      have hb : sz (d + 1) ∣ 2 ^ 48 := by
        have := pow_dvd_lim (d := d + 1) (by omega) false (by intro _; omega)
        simpa using this
      exact region_below hb h3 (h4 hl) (by omega)
    · intro k hk
      have hk2 : i * 512 ^ d + k < 512 ^ (d + 1) := by
        rw [Nat.pow_succ]
        have : (i + 1) * 512 ^ d ≤ 512 * 512 ^ d := Nat.mul_le_mul_right _ (by omega)
        rw [Nat.add_mul] at this
        omega
      have := h5 (i * 512 ^ d + k) hk2
      have e1 : 4096 * (i * 512 ^ d + k) = i * sz d + 4096 * k := by unfold sz; ring
      rw [e1, ← Nat.add_assoc, ← Nat.add_assoc] at this
      exact this
  | assignedNs at_ pa =>
    obtain ⟨h1, h2, h3, h4, h5, h6, h7⟩ := h
    refine ⟨by omega, below _ hr.ipa_dvd h2, by omega, ?_, ?_, h6, h7⟩
    · rw [Nat.add_mul_mod_self_right]; exact mod_sz_of_dvd (by omega) h4
    · exact region_below (pow_dvd_lim (by omega) r.lpa2 (by intro _; omega)) h4 h5 (by omega)
  | table c => exact absurd rfl (hn c)

/-- The entry a fold leaves is right. -/
theorem foldedEntry_ok {rdA d a : Nat} {r : Rd} {e : Entry} {t : Nat → Entry}
    (hsame : Same t e d) (h : ∀ i < 512, EntryOk s ti di rdA r d (a + i * sz d) (t i)) :
    EntryOk s ti di rdA r (d + 1) a e := by
  obtain ⟨h1, h2, h3, h4⟩ := hsame
  have h0 := h 0 (by omega)
  rw [h1 0 (by omega)] at h0
  cases e with
  | unassigned rp => simpa [splitEntry, EntryOk] using h0
  | unassignedNs => simpa [splitEntry, EntryOk] using h0
  | assigned rp pa =>
    obtain ⟨hd, hpa⟩ := h3 rp pa rfl
    simp only [splitEntry, Nat.zero_mul, Nat.add_zero] at h0
    obtain ⟨a1, a2, a3, a4, a5⟩ := h0
    refine ⟨a1, by omega, hpa, a4, ?_⟩
    intro k hk
    obtain ⟨i, k', _, _, e1, hk', hi⟩ := split_page d k
    have hi := hi hk
    have hx := h i hi
    rw [h1 i hi] at hx
    simp only [splitEntry] at hx
    have := hx.2.2.2.2 k' hk'
    rw [e1, ← Nat.add_assoc, ← Nat.add_assoc]
    exact this
  | assignedNs at_ pa =>
    obtain ⟨hd, hpa⟩ := h4 at_ pa rfl
    simp only [splitEntry, Nat.zero_mul, Nat.add_zero] at h0
    obtain ⟨a1, a2, a3, a4, a5, a6, a7⟩ := h0
    exact ⟨a1, a2, by omega, hpa, a5, a6, a7⟩
  | table c => exact absurd rfl (h2 c)

/-! ## RTT_CREATE -/

theorem RttCreateOk.inv (h : InvG P s ti di rl) {rdA rtt a d g : Nat} {e : Entry} {s' : State}
    {ret : Ret} (k : RttCreateOk P s ti rdA rtt a d g e s' ret) :
    InvG P s' (upd ti rtt ⟨rdA, d, a⟩) di rl := by
  have hg := k.at_.st
  have hti := k.at_.ti
  have hdep := k.at_.depth h
  have hent := k.at_.ent h
  rw [k.ent, div_mul_of_mod k.al] at hent
  have hrg : rtt ≠ g := ne_of_st k.del hg (by simp)
  have hgeo0 := (h.rds rdA k.at_.rd).geo
  have hrc0 : s.rc rtt = 0 := h.rc0 rtt (by simp [k.del])
  have hs' := k.st
  have st_ne : ∀ x, x ≠ rtt → s'.st x = s.st x := fun x hx => by rw [hs']; exact upd_ne _ _ _ hx
  have st_eq : s'.st rtt = .rtt := by rw [hs']; exact upd_same _ _ _
  have st_of : ∀ x y, s.st x = y → y ≠ .delegated → s'.st x = y := by
    intro x y hx hy
    rw [st_ne x (ne_of_st hx k.del hy)]; exact hx
  have mem_of : ∀ x, x ≠ rtt → x ≠ g → s'.mem x = s.mem x := by
    intro x hx hy
    rw [hs']
    unfold rttCreateSt
    dsimp only
    rw [upd_ne _ _ _ hy, upd_ne _ _ _ hx]
  have tab_g : s'.mem g = .table (upd (tabOf s g) (idx (d + 1) a) (.table rtt)) := by
    rw [hs']; exact upd_same _ _ _
  have tab_r : s'.mem rtt = .table (splitEntry e d) := by
    rw [hs']; unfold rttCreateSt; dsimp only; rw [upd_ne _ _ _ hrg, upd_same]
  have rc_ne : ∀ x, x ≠ rtt → x ≠ g → s'.rc x = s.rc x := by
    intro x hx hy
    rw [hs']; unfold rttCreateSt; dsimp only; rw [upd_ne _ _ _ hy, upd_ne _ _ _ hx]
  have rc_g : s'.rc g = s.rc g + (if e.counted then 0 else 1) := by
    rw [hs']; unfold rttCreateSt; dsimp only; rw [upd_same, upd_ne _ _ _ hrg.symm]
  have rc_r : s'.rc rtt = (if e.counted then 512 else 0) := by
    rw [hs']; unfold rttCreateSt; dsimp only; rw [upd_ne _ _ _ hrg, upd_same, hrc0, Nat.zero_add]
  have rd_eq : ∀ x, s.st x = .rd → rdOf s' x = rdOf s x := by
    intro x hx; unfold rdOf getRd
    rw [mem_of x (ne_of_st hx k.del (by simp)) (ne_of_st hx hg (by simp))]
  have ti_of : ∀ x y, s.st x = y → y ≠ .delegated → upd ti rtt ⟨rdA, d, a⟩ x = ti x := by
    intro x y hx hy
    exact upd_ne _ _ _ (ne_of_st hx k.del hy)
  have up : ∀ q i c, s.st q = .rtt → tabOf s q i = .table c →
      s'.st q = .rtt ∧ upd ti rtt ⟨rdA, d, a⟩ q = ti q ∧ tabOf s' q i = .table c := by
    intro q i c hq he
    refine ⟨st_of q _ hq (by simp), ti_of q _ hq (by simp), ?_⟩
    by_cases hqg : q = g
    · subst hqg
      rw [tabOf_of_mem tab_g, upd_ne]
      · exact he
      · rintro rfl; rw [k.ent] at he; exact k.notTab c he
    · unfold tabOf getTab; rw [mem_of q (ne_of_st hq k.del (by simp)) hqg]; exact he
  refine inv_tabs h ?_ ?_ (by rw [hs']; rfl) ?_ ?_ ?_ ?_ ?_ ?_ ?_ ?_ ?_
  · intro x
    by_cases hx : x = rtt
    · subst hx; rw [st_eq, k.del]; simp
    · rw [st_ne x hx]; simp
  · intro x hx
    have hxr : x ≠ rtt := by rcases hx with hx | hx | hx <;> exact ne_of_st hx k.del (by simp)
    have hxg : x ≠ g := by rcases hx with hx | hx | hx <;> exact ne_of_st hx hg (by simp)
    exact ⟨mem_of x hxr hxg, rc_ne x hxr hxg⟩
  · intro q hq _; exact ⟨st_of q _ hq (by simp), ti_of q _ hq (by simp)⟩
  · intro x hx
    by_cases hxd : x = rtt
    · subst hxd; exact h.trk x (by rw [k.del]; simp)
    · rw [st_ne x hxd] at hx; exact h.trk x hx
  · intro x hx
    have hh := h.gpt x hx
    have hp : s'.pas x = s.pas x := by rw [hs']; rfl
    rw [hp]
    by_cases hxd : x = rtt
    · subst hxd; rw [st_eq]; rw [k.del] at hh; simpa using hh
    · rw [st_ne x hxd]; exact hh
  · intro x hx
    by_cases hxd : x = rtt
    · subst hxd; rw [st_eq] at hx; simp at hx
    · rw [st_ne x hxd] at hx
      rw [mem_of x hxd (ne_of_st hx hg (by simp))]; exact h.nsPage x hx
  · intro x hx
    by_cases hxd : x = rtt
    · subst hxd; rw [st_eq] at hx; simp at hx
    · rw [st_ne x hxd] at hx
      rw [mem_of x hxd (ne_of_st hx hg (by simp))]; exact h.delPage x hx
  · intro x hx
    by_cases hxd : x = rtt
    · subst hxd; rw [st_eq] at hx; simp at hx
    · rw [st_ne x hxd] at hx
      rw [mem_of x hxd (ne_of_st hx hg (by simp))]; exact h.dataPage x hx
  · intro x hx
    by_cases hxd : x = rtt
    · subst hxd; rw [st_eq] at hx; simp at hx
    · rw [st_ne x hxd] at hx
      have hxg : x ≠ g := by rintro rfl; rw [hg] at hx; simp at hx
      rw [rc_ne x hxd hxg]
      exact h.rc0 x (by rcases hx with h1 | h1 | h1 <;> simp [h1])
  · intro q hq
    by_cases hqr : q = rtt
    · subst hqr
      have hrd' := rd_eq rdA k.at_.rd
      refine ⟨?_, ?_, ?_, ?_, ?_, ?_, ?_, ?_⟩
      · rw [tabOf_of_mem tab_r]; exact tab_r
      · rw [upd_same]; exact st_of _ _ k.at_.rd (by simp)
      · rw [upd_same]; dsimp only; rw [hrd']; omega
      · rw [upd_same]; exact k.al
      · rw [upd_same]; dsimp only; rw [hrd']; exact k.at_.lt
      · right
        rw [upd_same]
        dsimp only
        rw [hrd']
        refine ⟨by omega, g, st_of _ _ hg (by simp), ?_, ?_⟩
        · rw [upd_ne _ _ _ hrg.symm, hti]
        · rw [tabOf_of_mem tab_g, upd_same]
      · intro i hi
        rw [upd_same, tabOf_of_mem tab_r]
        dsimp only
        rw [hrd']
        have := splitEntry_ok hgeo0 (show d < _ by omega) hi k.al k.notTab k.at_.lt hent
        refine this.frame (SameGeo.refl _) (fun c _ hc => ⟨st_of _ _ hc (by simp), ti_of _ _ hc (by simp)⟩)
          (fun _ _ _ j _ hj => ⟨st_of _ _ hj (by simp), rfl⟩)
      · rw [tabOf_of_mem tab_r, rc_r]
        cases hc : e.counted with
        | true =>
          rw [if_pos rfl, cnt_full]
          intro i _
          cases e <;> simp_all [Entry.counted, splitEntry]
        | false =>
          rw [cnt_zero]
          · rfl
          intro i _
          cases e <;> simp_all [Entry.counted, splitEntry]
    · rw [st_ne q hqr] at hq
      have hT := h.tab q hq
      have hrd : s'.st (ti q).rd = .rd := st_of _ _ hT.rd (by simp)
      have hgeo : SameGeo (rdOf s (ti q).rd) (rdOf s' (ti q).rd) := by
        rw [rd_eq _ hT.rd]; exact SameGeo.refl _
      by_cases hqg : q = g
      · subst hqg
        apply hT.change tab_g (ti_of q _ hq (by simp)) hrd hgeo (fun q' hq' he => up q' _ _ hq' he)
        · intro i hi
          by_cases hii : i = idx (d + 1) a
          · subst hii
            rw [upd_same, rd_eq _ hT.rd, hti]
            dsimp only
            rw [al_add _ _ (k.at_.lt52 h), div_mul_of_mod k.al]
            exact ⟨k.at_.lt, by omega, st_eq, by rw [upd_same]; rfl, k.pa⟩
          · rw [upd_ne _ _ _ hii]
            exact (hT.ent i hi).frame hgeo
              (fun c _ hc => ⟨st_of _ _ hc (by simp), ti_of _ _ hc (by simp)⟩)
              (fun rp' pa _ j _ hj => ⟨st_of _ _ hj (by simp), rfl⟩)
        · rw [rc_g, hT.rc]
          have := cnt_upd (tabOf s q) (idx (d + 1) a) (.table rtt) 512 (idx_lt _ _)
          rw [k.ent] at this
          have e3 : (Entry.table rtt).counted = true := rfl
          rw [e3] at this
          split <;> simp_all
      · exact hT.frame (mem_of q hqr hqg) (ti_of q _ hq (by simp)) (rc_ne q hqr hqg) hrd hgeo
          (fun q' hq' he => up q' _ _ hq' he)
          (fun i _ c _ hc => ⟨st_of _ _ hc (by simp), ti_of _ _ hc (by simp)⟩)
          (fun i _ rp' pa _ j _ hj => ⟨st_of _ _ hj (by simp), rfl⟩)
  · intro x hx
    have hxd : x ≠ rtt := by rintro rfl; rw [st_eq] at hx; simp at hx
    rw [st_ne x hxd] at hx
    obtain ⟨h1, h2, q, d', rp', pa', h3, h4, h5, h6⟩ := h.data x hx
    refine ⟨st_of _ _ h1 (by simp), h2, ?_⟩
    by_cases hsp : q = g ∧ idx d' (di x).2 = idx (d + 1) a
    · obtain ⟨rfl, hii⟩ := hsp
      rw [hti] at h4
      injection h4 with e1 e2 e3
      subst e2
      rw [hii, k.ent] at h5
      subst h5
      have hlt : (di x).2 < 2 ^ 52 := by
        obtain ⟨q1, q2, q3, q4, q5⟩ := hent
        have hx2 : x = pa' + 4096 * ((di x).2 % sz (d + 1) / 4096) := by
          rw [Nat.mul_div_cancel']
          · exact h6
          · apply Nat.dvd_of_mod_eq_zero
            rw [Nat.mod_mod_of_dvd _ (by unfold sz; exact Dvd.intro _ rfl)]; exact h2
        have hk : (di x).2 % sz (d + 1) / 4096 < 512 ^ (d + 1) := by
          rw [Nat.div_lt_iff_lt_mul (by omega)]
          have := Nat.mod_lt (di x).2 (sz_pos (d + 1))
          unfold sz at this ⊢
          omega
        have := (q5 _ hk).2
        rw [← hx2] at this
        have e4 := congrArg Prod.snd this
        dsimp only at e4
        have hm := Nat.mod_lt (di x).2 (sz_pos (d + 1))
        have hr2 : (di x).2 < (rdOf s rdA).parSize := by
          apply region_below (dvd_trans (sz_dvd hdep) hgeo0.par_dvd) k.al q1
          rw [e4]
          have : 4096 * ((di x).2 % sz (d + 1) / 4096) ≤ (di x).2 % sz (d + 1) := Nat.mul_div_le _ _
          omega
        exact lt_of_lt_of_le (lt_of_lt_of_le hr2 hgeo0.par_le) hgeo0.ipa_lt
      refine ⟨rtt, d, rp', pa' + idx d (di x).2 * sz d, st_eq, ?_, ?_, ?_⟩
      · rw [upd_same, e1]
        congr 1
        have e5 := al_add (d + 1) (di x).2 hlt
        have e6 := al_add (d + 1) a (k.at_.lt52 h)
        rw [div_mul_of_mod k.al] at e6
        show a = (di x).2 / sz (d + 1) * sz (d + 1)
        rw [← e5, hii, ← e3]
        exact e6.symm
      · rw [tabOf_of_mem tab_r]; rfl
      · refine h6.trans ?_
        rw [mod_split _ _ hlt]; omega
    · refine ⟨q, d', rp', pa', st_of _ _ h3 (by simp), by rw [ti_of q _ h3 (by simp)]; exact h4, ?_, h6⟩
      by_cases hqg : q = g
      · subst hqg
        rw [tabOf_of_mem tab_g, upd_ne]
        · exact h5
        · intro hii; exact hsp ⟨rfl, hii⟩
      · unfold tabOf getTab; rw [mem_of q (ne_of_st h3 k.del (by simp)) hqg]; exact h5

/-! ## Removing a table -/

theorem inv_drop (h : InvG P s ti di rl) {rdA a d g c : Nat} {e : Entry} {dp dc : Nat}
    (k : Child s ti rdA a d g c)
    (hnt : ∀ i < 512, ∀ x, tabOf s c i ≠ .table x) (hen : ∀ x, e ≠ .table x)
    (hok : EntryOk s ti di rdA (rdOf s rdA) (d + 1) a e)
    (hdat : ∀ i < 512, ∀ rp pa', tabOf s c i = .assigned rp pa' →
      ∃ rp' pa, e = .assigned rp' pa ∧ pa' = pa + i * sz d)
    (hdp : dp = if e.counted then 0 else 1) (hdc : s.rc c - dc = 0) :
    InvG P (dropTableSt s c g (idx (d + 1) a) (tabOf s g) e dp dc) ti di rl := by
  have hg := k.at_.st
  have hti := k.at_.ti
  have hdep := k.at_.depth h
  have hgeo0 := (h.rds rdA k.at_.rd).geo
  have hcg : c ≠ g := by
    rintro rfl
    have := k.cti
    rw [hti] at this
    injection this with _ e2 _
    omega
  generalize hs' : dropTableSt s c g (idx (d + 1) a) (tabOf s g) e dp dc = s'
  have st_ne : ∀ x, x ≠ c → s'.st x = s.st x := fun x hx => by rw [← hs']; exact upd_ne _ _ _ hx
  have st_eq : s'.st c = .delegated := by rw [← hs']; exact upd_same _ _ _
  have st_of : ∀ x y, s.st x = y → y ≠ .rtt → s'.st x = y := by
    intro x y hx hy
    rw [st_ne x (ne_of_st hx k.cst hy)]; exact hx
  have mem_of : ∀ x, x ≠ c → x ≠ g → s'.mem x = s.mem x := by
    intro x hx hy
    rw [← hs']
    unfold dropTableSt
    dsimp only
    rw [upd_ne _ _ _ hx, upd_ne _ _ _ hy]
  have tab_g : s'.mem g = .table (upd (tabOf s g) (idx (d + 1) a) e) := by
    rw [← hs']; unfold dropTableSt; dsimp only; rw [upd_ne _ _ _ hcg.symm, upd_same]
  have rc_ne : ∀ x, x ≠ c → x ≠ g → s'.rc x = s.rc x := by
    intro x hx hy
    rw [← hs']; unfold dropTableSt; dsimp only; rw [upd_ne _ _ _ hy, upd_ne _ _ _ hx]
  have rc_g : s'.rc g = s.rc g - dp := by
    rw [← hs']; unfold dropTableSt; dsimp only; rw [upd_same, upd_ne _ _ _ hcg.symm]
  have rc_c : s'.rc c = 0 := by
    rw [← hs']; unfold dropTableSt; dsimp only; rw [upd_ne _ _ _ hcg, upd_same]; exact hdc
  have rd_eq : ∀ x, s.st x = .rd → rdOf s' x = rdOf s x := by
    intro x hx; unfold rdOf getRd
    rw [mem_of x (ne_of_st hx k.cst (by simp)) (ne_of_st hx hg (by simp))]
  -- table entries other than the one removed
  have up : ∀ q i x, s.st q = .rtt → i < 512 → tabOf s q i = .table x → x ≠ c →
      s'.st q = .rtt ∧ ti q = ti q ∧ tabOf s' q i = .table x := by
    intro q i x hq hi he hx
    have hqc : q ≠ c := by rintro rfl; exact hnt i hi x he
    refine ⟨by rw [st_ne q hqc]; exact hq, rfl, ?_⟩
    by_cases hqg : q = g
    · subst hqg
      rw [tabOf_of_mem tab_g, upd_ne]
      · exact he
      · rintro rfl; rw [k.ent] at he; injection he with he; exact hx he.symm
    · unfold tabOf getTab; rw [mem_of q hqc hqg]; exact he
  have tfr : ∀ q i x, s.st q = .rtt → i < 512 → tabOf s q i = .table x → ¬ (q = g ∧ i = idx (d + 1) a) →
      s.st x = .rtt → s'.st x = .rtt ∧ ti x = ti x := by
    intro q i x hq hi he hne hx
    refine ⟨?_, rfl⟩
    rw [st_ne x]
    · exact hx
    · rintro rfl
      exact hne (child_unique h hq hg hi (idx_lt _ _) he k.ent)
  refine inv_tabs h ?_ ?_ (by rw [← hs']; rfl) ?_ ?_ ?_ ?_ ?_ ?_ ?_ ?_ ?_
  · intro x
    by_cases hx : x = c
    · subst hx; rw [st_eq, k.cst]; simp
    · rw [st_ne x hx]; simp
  · intro x hx
    have hxr : x ≠ c := by rcases hx with hx | hx | hx <;> exact ne_of_st hx k.cst (by simp)
    have hxg : x ≠ g := by rcases hx with hx | hx | hx <;> exact ne_of_st hx hg (by simp)
    exact ⟨mem_of x hxr hxg, rc_ne x hxr hxg⟩
  · intro q hq hroot
    have hqc : q ≠ c := by
      rintro rfl
      rw [k.cti] at hroot
      dsimp only at hroot
      omega
    exact ⟨by rw [st_ne q hqc]; exact hq, rfl⟩
  · intro x hx
    by_cases hxd : x = c
    · subst hxd; exact h.trk x (by rw [k.cst]; simp)
    · rw [st_ne x hxd] at hx; exact h.trk x hx
  · intro x hx
    have hh := h.gpt x hx
    have hp : s'.pas x = s.pas x := by rw [← hs']; rfl
    rw [hp]
    by_cases hxd : x = c
    · subst hxd; rw [st_eq]; rw [k.cst] at hh; simpa using hh
    · rw [st_ne x hxd]; exact hh
  · intro x hx
    by_cases hxd : x = c
    · subst hxd; rw [st_eq] at hx; simp at hx
    · rw [st_ne x hxd] at hx
      rw [mem_of x hxd (ne_of_st hx hg (by simp))]; exact h.nsPage x hx
  · intro x hx
    by_cases hxd : x = c
    · subst hxd; rw [← hs']; exact upd_same _ _ _
    · rw [st_ne x hxd] at hx
      rw [mem_of x hxd (ne_of_st hx hg (by simp))]; exact h.delPage x hx
  · intro x hx
    by_cases hxd : x = c
    · subst hxd; rw [st_eq] at hx; simp at hx
    · rw [st_ne x hxd] at hx
      rw [mem_of x hxd (ne_of_st hx hg (by simp))]; exact h.dataPage x hx
  · intro x hx
    by_cases hxd : x = c
    · subst hxd; exact rc_c
    · rw [st_ne x hxd] at hx
      have hxg : x ≠ g := by rintro rfl; rw [hg] at hx; simp at hx
      rw [rc_ne x hxd hxg]
      exact h.rc0 x (by rcases hx with h1 | h1 | h1 <;> simp [h1])
  · intro q hq
    have hqc : q ≠ c := by rintro rfl; rw [st_eq] at hq; simp at hq
    rw [st_ne q hqc] at hq
    have hT := h.tab q hq
    have hrd : s'.st (ti q).rd = .rd := st_of _ _ hT.rd (by simp)
    have hgeo : SameGeo (rdOf s (ti q).rd) (rdOf s' (ti q).rd) := by
      rw [rd_eq _ hT.rd]; exact SameGeo.refl _
    by_cases hqg : q = g
    · subst hqg
      apply hT.change tab_g rfl hrd hgeo (fun q' hq' he => up q' _ _ hq' (idx_lt _ _) he hqc)
      · intro i hi
        by_cases hii : i = idx (d + 1) a
        · subst hii
          rw [upd_same, rd_eq _ hT.rd, hti]
          dsimp only
          rw [al_add _ _ (k.at_.lt52 h), div_mul_of_mod k.al]
          exact hok.frame (SameGeo.refl _) (fun c' hc' _ => absurd hc' (hen c'))
            (fun rp' pa _ j _ hj => ⟨st_of _ _ hj (by simp), rfl⟩)
        · rw [upd_ne _ _ _ hii]
          exact (hT.ent i hi).frame hgeo
            (fun c' he hc => tfr q i c' hq hi he (by simp [hii]) hc)
            (fun rp' pa _ j _ hj => ⟨st_of _ _ hj (by simp), rfl⟩)
      · rw [rc_g, hT.rc, hdp]
        have := cnt_upd (tabOf s q) (idx (d + 1) a) e 512 (idx_lt _ _)
        rw [k.ent] at this
        have e3 : (Entry.table c).counted = true := rfl
        rw [e3] at this
        split <;> simp_all <;> omega
    · exact hT.frame (mem_of q hqc hqg) rfl (rc_ne q hqc hqg) hrd hgeo
        (fun q' hq' he => up q' _ _ hq' (idx_lt _ _) he hqc)
        (fun i hi c' he hc => tfr q i c' hq hi he (by simp [hqg]) hc)
        (fun i _ rp' pa _ j _ hj => ⟨st_of _ _ hj (by simp), rfl⟩)
  · intro x hx
    have hxd : x ≠ c := by rintro rfl; rw [st_eq] at hx; simp at hx
    rw [st_ne x hxd] at hx
    obtain ⟨h1, h2, q, d', rp', pa', h3, h4, h5, h6⟩ := h.data x hx
    refine ⟨st_of _ _ h1 (by simp), h2, ?_⟩
    by_cases hqc : q = c
    · subst hqc
      obtain ⟨rp2, pa, he, hpa⟩ := hdat _ (idx_lt _ _) rp' pa' h5
      have h4' := h4
      rw [k.cti] at h4'
      injection h4' with e1 e2 e3
      subst e2
      have hlt : (di x).2 < 2 ^ 52 := by
        have hx2 : (di x).2 < a + sz (d + 1) := by
          rw [e3]; unfold al
          have := Nat.div_add_mod (di x).2 (sz (d + 1))
          have := Nat.mod_lt (di x).2 (sz_pos (d + 1))
          rw [Nat.mul_comm]; omega
        have := region_below (dvd_trans (sz_dvd hdep) hgeo0.ipa_dvd) k.al k.at_.lt hx2
        exact lt_of_lt_of_le this hgeo0.ipa_lt
      refine ⟨g, d + 1, rp2, pa, by rw [st_ne g hcg.symm]; exact hg, ?_, ?_, ?_⟩
      · rw [hti, e1, e3, al_al _ _ _ (by omega)]
      · rw [tabOf_of_mem tab_g]
        have : idx (d + 1) (di x).2 = idx (d + 1) a := by rw [e3, idx_al _ _ _ (by omega) hlt]
        rw [this, upd_same]; exact he
      · refine h6.trans ?_
        rw [hpa, mod_split _ _ hlt]; omega
    · refine ⟨q, d', rp', pa', by rw [st_ne q hqc]; exact h3, h4, ?_, h6⟩
      by_cases hqg : q = g
      · subst hqg
        rw [tabOf_of_mem tab_g, upd_ne]
        · exact h5
        · intro hii
          rw [hii, k.ent] at h5
          simp at h5
      · unfold tabOf getTab; rw [mem_of q hqc hqg]; exact h5

theorem Child.entries (h : InvG P s ti di rl) {rdA a d g c : Nat} (k : Child s ti rdA a d g c) :
    ∀ i < 512, EntryOk s ti di rdA (rdOf s rdA) d (a + i * sz d) (tabOf s c i) := by
  intro i hi
  have := (h.tab c k.cst).ent i hi
  rw [k.cti] at this
  exact this

theorem RttFoldOk.inv (h : InvG P s ti di rl) {rdA a d g c : Nat} {e : Entry} {s' : State} {ret : Ret}
    (k : RttFoldOk s ti rdA a d g c e s' ret) : InvG P s' ti di rl := by
  rw [k.st]
  apply inv_drop h k.ch
  · intro i hi x hx
    rw [k.same.1 i hi] at hx
    cases e <;> simp [splitEntry] at hx
    exact k.same.2.1 _ rfl
  · exact k.same.2.1
  · exact foldedEntry_ok k.same (k.ch.entries h)
  · intro i hi rp pa' hx
    rw [k.same.1 i hi] at hx
    cases e <;> simp [splitEntry] at hx
    exact ⟨_, _, rfl, hx.2.symm⟩
  · rfl
  · rw [k.rc]; simp

theorem RttDestroyOk.inv (h : InvG P s ti di rl) {rdA a d g c : Nat} {s' : State} {ret : Ret}
    (k : RttDestroyOk s ti rdA a d g c s' ret) : InvG P s' ti di rl := by
  have hz : ∀ i < 512, (tabOf s c i).counted = false := by
    apply cnt_eq_zero
    rw [← (h.tab c k.ch.cst).rc]; exact k.rc
  rw [k.st]
  apply inv_drop h k.ch
  · intro i hi x hx
    have := hz i hi
    rw [hx] at this
    simp [Entry.counted] at this
  · intro x; split <;> simp
  · split
    · rename_i hp; exact Or.inl hp
    · rename_i hp; exact ⟨by omega, k.ch.at_.lt⟩
  · intro i hi rp pa' hx
    have := hz i hi
    rw [hx] at this
    simp [Entry.counted] at this
  · split <;> rfl
  · rw [k.rc]

end

end Verif.Rmm
