import Verif.Rmm.Inv

/-!
# The RMM machine: frame lemmas for the invariant
-/

namespace Verif.Rmm

/-- Two realm descriptors with the same address space, VMID and number of auxiliary granules. -/
structure SameGeo (r r' : Rd) : Prop where
  d0 : r'.d0 = r.d0
  bits : r'.ipaBits = r.ipaBits
  nroots : r'.nroots = r.nroots
  root : r'.root = r.root
  vmid : r'.vmid = r.vmid
  lpa2 : r'.lpa2 = r.lpa2
  numAux : r'.numAux = r.numAux

theorem SameGeo.refl (r : Rd) : SameGeo r r := ⟨rfl, rfl, rfl, rfl, rfl, rfl, rfl⟩

theorem SameGeo.ipa {r r' : Rd} (h : SameGeo r r') : r'.ipaSize = r.ipaSize := by
  unfold Rd.ipaSize; rw [h.bits]

theorem SameGeo.par {r r' : Rd} (h : SameGeo r r') : r'.parSize = r.parSize := by
  unfold Rd.parSize; rw [h.ipa]

theorem SameGeo.geo {r r' : Rd} (h : SameGeo r r') (g : Geo r) : Geo r' := by
  obtain ⟨a, b, c, e, f⟩ := g
  refine ⟨?_, ?_, ?_, ?_, ?_⟩
  · rw [h.d0, h.lpa2]; exact a
  · rw [h.bits, h.lpa2]; exact b
  · rw [h.bits]; exact c
  · rw [h.par, h.ipa, h.d0, h.nroots]; exact e
  · rw [h.nroots]; exact f

theorem SameGeo.nsOk {r r' : Rd} (h : SameGeo r r') {d at_ pa} (g : NsOk r d at_ pa) : NsOk r' d at_ pa := by
  obtain ⟨a, b, c, e⟩ := g
  exact ⟨a, by rw [h.lpa2]; exact b, c, e⟩

/-- An entry stays right when everything it names does. -/
theorem EntryOk.frame {s s' : State} {ti ti' : Nat → TabInfo} {di di' : Nat → Nat × Nat} {rdA d e : Nat}
    {r r' : Rd} {x : Entry} (h : EntryOk s ti di rdA r d e x) (hr : SameGeo r r')
    (ht : ∀ c, x = .table c → s.st c = .rtt → s'.st c = .rtt ∧ ti' c = ti c)
    (hd : ∀ rp pa, x = .assigned rp pa → ∀ k < 512 ^ d, s.st (pa + 4096 * k) = .data →
      s'.st (pa + 4096 * k) = .data ∧ di' (pa + 4096 * k) = di (pa + 4096 * k)) :
    EntryOk s' ti' di' rdA r' d e x := by
  cases x with
  | unassigned rp => simp only [EntryOk] at *; rw [hr.par, hr.ipa]; exact h
  | unassignedNs => simp only [EntryOk] at *; rw [hr.par, hr.ipa]; exact h
  | assigned rp pa =>
    simp only [EntryOk] at *
    rw [hr.par, hr.lpa2]
    obtain ⟨h1, h2, h3, h4, h5⟩ := h
    refine ⟨h1, h2, h3, h4, fun k hk => ?_⟩
    obtain ⟨a, b⟩ := h5 k hk
    obtain ⟨a', b'⟩ := hd rp pa rfl k hk a
    exact ⟨a', by rw [b', b]⟩
  | assignedNs at_ pa =>
    simp only [EntryOk] at *
    rw [hr.par, hr.ipa]
    exact ⟨h.1, h.2.1, h.2.2.1, hr.nsOk h.2.2.2⟩
  | table c =>
    simp only [EntryOk] at *
    rw [hr.ipa, hr.lpa2]
    obtain ⟨h1, h2, h3, h4, h5⟩ := h
    obtain ⟨a, b⟩ := ht c rfl h3
    exact ⟨h1, h2, a, by rw [b, h4], h5⟩

/-- A table that is not changed stays right. -/
theorem TabOk.frame {s s' : State} {ti ti' : Nat → TabInfo} {di di' : Nat → Nat × Nat} {g : Nat}
    (h : TabOk s ti di g) (hm : s'.mem g = s.mem g) (hti : ti' g = ti g) (hrc : s'.rc g = s.rc g)
    (hrd : s'.st (ti g).rd = .rd) (hgeo : SameGeo (rdOf s (ti g).rd) (rdOf s' (ti g).rd))
    (hup : ∀ p, s.st p = .rtt → tabOf s p (idx ((ti g).d + 1) (ti g).base) = .table g →
      s'.st p = .rtt ∧ ti' p = ti p ∧ tabOf s' p (idx ((ti g).d + 1) (ti g).base) = .table g)
    (ht : ∀ i < 512, ∀ c, tabOf s g i = .table c → s.st c = .rtt → s'.st c = .rtt ∧ ti' c = ti c)
    (hd : ∀ i < 512, ∀ rp pa, tabOf s g i = .assigned rp pa → ∀ k < 512 ^ (ti g).d,
      s.st (pa + 4096 * k) = .data →
      s'.st (pa + 4096 * k) = .data ∧ di' (pa + 4096 * k) = di (pa + 4096 * k)) :
    TabOk s' ti' di' g := by
  have htab : tabOf s' g = tabOf s g := by rw [tabOf_of_mem (hm.trans h.mem)]
  refine ⟨?_, ?_, ?_, ?_, ?_, ?_, ?_, ?_⟩
  · rw [hm, htab]; exact h.mem
  · rw [hti]; exact hrd
  · rw [hti, hgeo.d0]; exact h.depth
  · rw [hti]; exact h.base
  · rw [hti, hgeo.ipa]; exact h.lt
  · rw [hti, hgeo.d0, hgeo.nroots, hgeo.root]
    rcases h.up with h1 | ⟨h1, p, hp, htp, hep⟩
    · exact Or.inl h1
    · obtain ⟨a, b, c⟩ := hup p hp hep
      exact Or.inr ⟨h1, p, a, by rw [b, htp], c⟩
  · intro i hi
    rw [hti, htab]
    exact (h.ent i hi).frame hgeo (fun c hc => ht i hi c hc) (fun rp pa hx => hd i hi rp pa hx)
  · rw [hrc, htab]; exact h.rc

/-- Changes that move no granule between states. -/
structure Soft (P : Plat) (s s' : State) (ti : Nat → TabInfo) (di : Nat → Nat × Nat) : Prop where
  st : s'.st = s.st
  vmid : s'.vmid = s.vmid
  pas : ∀ a, P.tracked a = true → (s'.pas a = .realm ↔ s.pas a = .realm)
  page : ∀ a, s.st a = .ns ∨ s.st a = .data ∨ s.st a = .recAux → ∃ p, s'.mem a = .page p
  del : ∀ a, s.st a = .delegated → s'.mem a = .page 0
  rc : ∀ a, s.st a ≠ .recd → s'.rc a = s.rc a
  tab : ∀ g, s.st g = .rtt → ∃ t', s'.mem g = .table t' ∧ ∀ i < 512,
    (t' i).counted = (tabOf s g i).counted ∧ (∀ c, t' i = .table c ↔ tabOf s g i = .table c) ∧
    (∀ rp pa, tabOf s g i = .assigned rp pa → ∃ rp', t' i = .assigned rp' pa) ∧
    EntryOk s ti di (ti g).rd (rdOf s (ti g).rd) (ti g).d ((ti g).base + i * sz (ti g).d) (t' i)
  rd : ∀ a, s.st a = .rd → ∃ r', s'.mem a = .rd r' ∧ SameGeo (rdOf s a) r' ∧
    (rdOf s a).recCount ≤ r'.recCount ∧ (r'.state = .new → (rdOf s a).state = .new)
  recd : ∀ a, s.st a = .recd → ∃ c', s'.mem a = .recd c' ∧ c'.rd = (recOf s a).rd ∧
    c'.idx = (recOf s a).idx ∧ c'.aux = (recOf s a).aux ∧
    SrOk (rdOf s (recOf s a).rd) c'.sr ∧ s'.rc a ≤ 1 ∧
    (s'.rc a = 1 → s.rc a ≠ 1 → (rdOf s' (recOf s a).rd).state ≠ .new)

theorem Soft.inv {P : Plat} {s s' : State} {ti di rl} (h : InvG P s ti di rl) (k : Soft P s s' ti di) :
    InvG P s' ti di rl := by
  have hgeo : ∀ a, s.st a = .rd → SameGeo (rdOf s a) (rdOf s' a) := by
    intro a ha
    obtain ⟨r', h1, h2, _⟩ := k.rd a ha
    rw [rdOf_of_mem h1]; exact h2
  have htb : ∀ g, s.st g = .rtt → ∀ i < 512, ∀ c, tabOf s' g i = .table c ↔ tabOf s g i = .table c := by
    intro g hg i hi c
    obtain ⟨t', h1, h2⟩ := k.tab g hg
    rw [tabOf_of_mem h1]; exact (h2 i hi).2.1 c
  have hrec : ∀ a, s.st a = .recd → (recOf s' a).rd = (recOf s a).rd ∧ (recOf s' a).idx = (recOf s a).idx ∧
      (recOf s' a).aux = (recOf s a).aux := by
    intro a ha
    obtain ⟨c', h1, h2, h3, h4, _⟩ := k.recd a ha
    rw [recOf_of_mem h1]; exact ⟨h2, h3, h4⟩
  refine ⟨?_, ?_, ?_, ?_, ?_, ?_, ?_, ?_, ?_, ?_, ?_, ?_, ?_, ?_, ?_, ?_⟩
  · intro a ha; rw [k.st] at ha; exact h.trk a ha
  · intro a ha; rw [k.st, k.pas a ha]; exact h.gpt a ha
  · intro a ha; rw [k.st] at ha; exact k.page a (Or.inl ha)
  · intro a ha; rw [k.st] at ha; exact k.del a ha
  · intro a ha; rw [k.st] at ha; exact k.page a (Or.inr (Or.inl ha))
  · intro a ha; rw [k.st] at ha; exact k.page a (Or.inr (Or.inr ha))
  · intro a ha
    rw [k.st] at ha
    rw [k.rc a (by rcases ha with h | h | h | h <;> rw [h] <;> simp)]
    exact h.rc0 a ha
  · intro g hg
    rw [k.st] at hg
    have hT := h.tab g hg
    have hG := hgeo _ hT.rd
    obtain ⟨t', h1, h2⟩ := k.tab g hg
    have htab := tabOf_of_mem h1
    refine ⟨?_, ?_, ?_, ?_, ?_, ?_, ?_, ?_⟩
    · rw [htab]; exact h1
    · rw [k.st]; exact hT.rd
    · rw [hG.d0]; exact hT.depth
    · exact hT.base
    · rw [hG.ipa]; exact hT.lt
    · rw [hG.d0, hG.nroots, hG.root]
      rcases hT.up with h1 | ⟨h1, p, hp, htp, hep⟩
      · exact Or.inl h1
      · exact Or.inr ⟨h1, p, by rw [k.st]; exact hp, htp, (htb p hp _ (idx_lt _ _) g).mpr hep⟩
    · intro i hi
      rw [htab]
      exact (h2 i hi).2.2.2.frame hG (fun c _ hc => ⟨by rw [k.st]; exact hc, rfl⟩)
        (fun _ pa _ j _ hj => ⟨by rw [k.st]; exact hj, rfl⟩)
    · rw [k.rc g (by rw [hg]; simp), htab, hT.rc]
      exact cnt_congr _ _ _ (fun i hi => ((h2 i hi).1).symm)
  · intro a ha
    rw [k.st] at ha
    have hR := h.rds a ha
    have hG := hgeo a ha
    obtain ⟨r', h1, h2, _⟩ := k.rd a ha
    have hr := rdOf_of_mem h1
    refine ⟨?_, ?_, ?_, ?_, ?_, ?_, ?_, ?_, ?_⟩
    · rw [hr]; exact h1
    · exact hG.geo hR.geo
    · intro j hj
      rw [hG.root, hG.d0, k.st]
      rw [hG.nroots] at hj
      exact hR.roots j hj
    · rw [hG.numAux]; exact hR.aux
    · rw [hG.vmid, k.vmid]; exact hR.vmid
    · exact hR.nodup
    · intro x
      rw [hR.recs x, k.st]
      constructor
      · rintro ⟨hx, hy⟩; exact ⟨hx, by rw [(hrec x hx).1]; exact hy⟩
      · rintro ⟨hx, hy⟩; exact ⟨hx, by rw [(hrec x hx).1] at hy; exact hy⟩
    · rw [k.rc a (by rw [ha]; simp)]; exact hR.rc
    · rw [k.rc a (by rw [ha]; simp)]; exact hR.max
  · intro a ha
    rw [k.st] at ha
    have hC := h.recs a ha
    obtain ⟨c', h1, h2, h3, h4, h5, h6, h7⟩ := k.recd a ha
    have hc := recOf_of_mem h1
    have hG := hgeo _ hC.rd
    refine ⟨?_, ?_, ?_, ?_, ?_, ?_, ?_, ?_, ?_⟩
    · rw [hc]; exact h1
    · rw [hc, h2, k.st]; exact hC.rd
    · exact h6
    · rw [hc, h2, h3]
      obtain ⟨r', g1, _, g3, _⟩ := k.rd _ hC.rd
      rw [rdOf_of_mem g1]
      exact lt_of_lt_of_le hC.idx g3
    · rw [hc, h4, k.st]; exact hC.auxSt
    · rw [hc, h4]; exact hC.auxNodup
    · rw [hc, h4]; exact hC.auxLen
    · rw [hc, h2]
      obtain ⟨a1, a2, a3, a4⟩ := h5
      exact ⟨a1, a2, by rw [hG.par]; exact a3, a4⟩
    · intro hrun
      rw [hc, h2]
      by_cases h8 : s.rc a = 1
      · intro hnew
        obtain ⟨r', g1, _, _, g4⟩ := k.rd _ hC.rd
        rw [rdOf_of_mem g1] at hnew
        exact hC.run h8 (g4 hnew)
      · exact h7 hrun h8
  · intro a b ha hb he hi
    rw [k.st] at ha hb
    rw [(hrec a ha).1, (hrec b hb).1] at he
    rw [(hrec a ha).2.1, (hrec b hb).2.1] at hi
    exact h.recIdx a b ha hb he hi
  · intro x hx
    rw [k.st] at hx
    obtain ⟨a, ha, hm⟩ := h.auxOwner x hx
    exact ⟨a, by rw [k.st]; exact ha, by rw [(hrec a ha).2.2]; exact hm⟩
  · intro a b x ha hb hxa hxb
    rw [k.st] at ha hb
    rw [(hrec a ha).2.2] at hxa
    rw [(hrec b hb).2.2] at hxb
    exact h.auxDisj a b x ha hb hxa hxb
  · intro x hx
    rw [k.st] at hx
    obtain ⟨h1, h0, g, d, rp, pa, h2, h3, h4, h5⟩ := h.data x hx
    refine ⟨by rw [k.st]; exact h1, h0, ?_⟩
    obtain ⟨t', g1, g2⟩ := k.tab g h2
    obtain ⟨rp', g3⟩ := (g2 _ (idx_lt d (di x).2)).2.2.1 rp pa h4
    exact ⟨g, d, rp', pa, by rw [k.st]; exact h2, h3, by rw [tabOf_of_mem g1]; exact g3, h5⟩
  · intro a b ha hb he
    rw [k.st] at ha hb
    rw [(hgeo a ha).vmid, (hgeo b hb).vmid] at he
    exact h.vmidInj a b ha hb he
  · intro v hv
    rw [k.vmid] at hv
    obtain ⟨a, ha, he⟩ := h.vmidOwner v hv
    exact ⟨a, by rw [k.st]; exact ha, by rw [(hgeo a ha).vmid]; exact he⟩

/-- Unchanged tables. -/
theorem soft_tab_same {P : Plat} {s s' : State} {ti di rl} (h : InvG P s ti di rl) {g : Nat}
    (hg : s.st g = .rtt) (hm : s'.mem g = s.mem g) :
    ∃ t', s'.mem g = .table t' ∧ ∀ i < 512,
      (t' i).counted = (tabOf s g i).counted ∧ (∀ c, t' i = .table c ↔ tabOf s g i = .table c) ∧
      (∀ rp pa, tabOf s g i = .assigned rp pa → ∃ rp', t' i = .assigned rp' pa) ∧
      EntryOk s ti di (ti g).rd (rdOf s (ti g).rd) (ti g).d ((ti g).base + i * sz (ti g).d) (t' i) := by
  have hT := h.tab g hg
  exact ⟨tabOf s g, hm.trans hT.mem, fun i hi =>
    ⟨rfl, fun c => Iff.rfl, fun rp pa hx => ⟨rp, hx⟩, hT.ent i hi⟩⟩

/-- Unchanged realm descriptors. -/
theorem soft_rd_same {P : Plat} {s s' : State} {ti di rl} (h : InvG P s ti di rl) {a : Nat}
    (ha : s.st a = .rd) (hm : s'.mem a = s.mem a) :
    ∃ r', s'.mem a = .rd r' ∧ SameGeo (rdOf s a) r' ∧
      (rdOf s a).recCount ≤ r'.recCount ∧ (r'.state = .new → (rdOf s a).state = .new) :=
  ⟨_, hm.trans (h.rds a ha).mem, SameGeo.refl _, Nat.le_refl _, id⟩

/-- Unchanged RECs. -/
theorem soft_rec_same {P : Plat} {s s' : State} {ti di rl} (h : InvG P s ti di rl) {a : Nat}
    (ha : s.st a = .recd) (hm : s'.mem a = s.mem a) (hrc : s'.rc a = s.rc a) :
    ∃ c', s'.mem a = .recd c' ∧ c'.rd = (recOf s a).rd ∧
      c'.idx = (recOf s a).idx ∧ c'.aux = (recOf s a).aux ∧
      SrOk (rdOf s (recOf s a).rd) c'.sr ∧ s'.rc a ≤ 1 ∧
      (s'.rc a = 1 → s.rc a ≠ 1 → (rdOf s' (recOf s a).rd).state ≠ .new) :=
  ⟨_, hm.trans (h.recs a ha).mem, rfl, rfl, rfl, (h.recs a ha).sr, by rw [hrc]; exact (h.recs a ha).rc,
    fun h1 h2 => absurd (hrc ▸ h1) h2⟩

/-- Only the contents of one page, or the address space of non-Realm granules, change. -/
theorem inv_page {P : Plat} {s : State} {ti di rl} (h : InvG P s ti di rl) (a p : Nat)
    (ha : s.st a = .ns ∨ s.st a = .data ∨ s.st a = .recAux) :
    InvG P { s with mem := upd s.mem a (.page p) } ti di rl := by
  apply Soft.inv h
  have hne : ∀ b, s.st b ≠ .ns → s.st b ≠ .data → s.st b ≠ .recAux →
      upd s.mem a (.page p) b = s.mem b := by
    intro b h1 h2 h3
    apply upd_ne
    rintro rfl
    rcases ha with h | h | h <;> contradiction
  refine ⟨rfl, rfl, fun _ _ => Iff.rfl, ?_, ?_, fun _ _ => rfl, ?_, ?_, ?_⟩
  · intro b hb
    dsimp only
    by_cases hba : b = a
    · subst hba; exact ⟨p, upd_same _ _ _⟩
    · rw [upd_ne _ _ _ hba]
      rcases hb with hb | hb | hb
      · exact h.nsPage b hb
      · exact h.dataPage b hb
      · exact h.auxPage b hb
  · intro b hb; dsimp only; rw [hne b (by rw [hb]; simp) (by rw [hb]; simp) (by rw [hb]; simp)]; exact h.delPage b hb
  · intro g hg; exact soft_tab_same h hg (hne g (by rw [hg]; simp) (by rw [hg]; simp) (by rw [hg]; simp))
  · intro g hg; exact soft_rd_same h hg (hne g (by rw [hg]; simp) (by rw [hg]; simp) (by rw [hg]; simp))
  · intro g hg; exact soft_rec_same h hg (hne g (by rw [hg]; simp) (by rw [hg]; simp) (by rw [hg]; simp)) rfl

/-- A change of one realm descriptor that keeps the address space. -/
theorem inv_rd {P : Plat} {s : State} {ti di rl} (h : InvG P s ti di rl) (a : Nat) (r : Rd)
    (ha : s.st a = .rd) (hg : SameGeo (rdOf s a) r) (hc : (rdOf s a).recCount ≤ r.recCount)
    (hn : r.state = .new → (rdOf s a).state = .new) :
    InvG P { s with mem := upd s.mem a (.rd r) } ti di rl := by
  apply Soft.inv h
  have hne : ∀ b, s.st b ≠ .rd → upd s.mem a (.rd r) b = s.mem b := by
    intro b h1
    apply upd_ne
    rintro rfl
    contradiction
  refine ⟨rfl, rfl, fun _ _ => Iff.rfl, ?_, ?_, fun _ _ => rfl, ?_, ?_, ?_⟩
  · intro b hb
    dsimp only
    rw [hne b (by rcases hb with h | h | h <;> rw [h] <;> simp)]
    rcases hb with hb | hb | hb
    · exact h.nsPage b hb
    · exact h.dataPage b hb
    · exact h.auxPage b hb
  · intro b hb; dsimp only; rw [hne b (by rw [hb]; simp)]; exact h.delPage b hb
  · intro g hg; exact soft_tab_same h hg (hne g (by rw [hg]; simp))
  · intro g hg'
    by_cases hga : g = a
    · subst hga; exact ⟨r, upd_same _ _ _, hg, hc, hn⟩
    · exact soft_rd_same h hg' (upd_ne _ _ _ hga)
  · intro g hg; exact soft_rec_same h hg (hne g (by rw [hg]; simp)) rfl

/-- A change of one REC that keeps its identity. -/
theorem inv_rec {P : Plat} {s : State} {ti di rl} (h : InvG P s ti di rl) (a : Nat) (c : Rec) (n : Nat)
    (ha : s.st a = .recd) (h1 : c.rd = (recOf s a).rd) (h2 : c.idx = (recOf s a).idx)
    (h3 : c.aux = (recOf s a).aux) (h4 : SrOk (rdOf s (recOf s a).rd) c.sr) (h5 : n ≤ 1)
    (h6 : n = 1 → s.rc a ≠ 1 → (rdOf s (recOf s a).rd).state ≠ .new) :
    InvG P { s with mem := upd s.mem a (.recd c), rc := upd s.rc a n } ti di rl := by
  apply Soft.inv h
  have hne : ∀ b, s.st b ≠ .recd → upd s.mem a (.recd c) b = s.mem b := by
    intro b h1
    apply upd_ne
    rintro rfl
    contradiction
  refine ⟨rfl, rfl, fun _ _ => Iff.rfl, ?_, ?_, ?_, ?_, ?_, ?_⟩
  · intro b hb
    dsimp only
    rw [hne b (by rcases hb with h | h | h <;> rw [h] <;> simp)]
    rcases hb with hb | hb | hb
    · exact h.nsPage b hb
    · exact h.dataPage b hb
    · exact h.auxPage b hb
  · intro b hb; dsimp only; rw [hne b (by rw [hb]; simp)]; exact h.delPage b hb
  · intro b hb; dsimp only; rw [upd_ne]; rintro rfl; contradiction
  · intro g hg; exact soft_tab_same h hg (hne g (by rw [hg]; simp))
  · intro g hg; exact soft_rd_same h hg (hne g (by rw [hg]; simp))
  · intro g hg
    by_cases hga : g = a
    · subst hga
      refine ⟨c, upd_same _ _ _, h1, h2, h3, h4, ?_, ?_⟩
      · dsimp only; rw [upd_same]; exact h5
      · dsimp only; rw [upd_same]
        intro hn hc
        have e : rdOf { s with mem := upd s.mem g (.recd c), rc := upd s.rc g n } (recOf s g).rd =
            rdOf s (recOf s g).rd := by
          have hR := (h.recs g ha).rd
          unfold rdOf getRd
          dsimp only
          rw [hne _ (by rw [hR]; simp)]
        rw [e]
        exact h6 hn hc
    · refine soft_rec_same h hg (upd_ne _ _ _ hga) ?_
      dsimp only; rw [upd_ne _ _ _ hga]

/-- A change of entries of one table that keeps its structure. -/
theorem inv_tab {P : Plat} {s : State} {ti di rl} (h : InvG P s ti di rl) (g : Nat) (t' : Nat → Entry)
    (hg : s.st g = .rtt)
    (ht : ∀ i < 512, t' i ≠ tabOf s g i →
      (t' i).counted = (tabOf s g i).counted ∧ (∀ c, t' i = .table c ↔ tabOf s g i = .table c) ∧
      (∀ rp pa, tabOf s g i = .assigned rp pa → ∃ rp', t' i = .assigned rp' pa) ∧
      EntryOk s ti di (ti g).rd (rdOf s (ti g).rd) (ti g).d ((ti g).base + i * sz (ti g).d) (t' i)) :
    InvG P { s with mem := upd s.mem g (.table t') } ti di rl := by
  apply Soft.inv h
  have hne : ∀ b, s.st b ≠ .rtt → upd s.mem g (.table t') b = s.mem b := by
    intro b h1
    apply upd_ne
    rintro rfl
    contradiction
  refine ⟨rfl, rfl, fun _ _ => Iff.rfl, ?_, ?_, fun _ _ => rfl, ?_, ?_, ?_⟩
  · intro b hb
    dsimp only
    rw [hne b (by rcases hb with h | h | h <;> rw [h] <;> simp)]
    rcases hb with hb | hb | hb
    · exact h.nsPage b hb
    · exact h.dataPage b hb
    · exact h.auxPage b hb
  · intro b hb; dsimp only; rw [hne b (by rw [hb]; simp)]; exact h.delPage b hb
  · intro g' hg'
    by_cases hga : g' = g
    · subst hga
      refine ⟨t', upd_same _ _ _, fun i hi => ?_⟩
      by_cases he : t' i = tabOf s g' i
      · rw [he]
        exact ⟨rfl, fun c => Iff.rfl, fun rp pa hx => ⟨rp, hx⟩, (h.tab g' hg').ent i hi⟩
      · exact ht i hi he
    · exact soft_tab_same h hg' (upd_ne _ _ _ hga)
  · intro g hg; exact soft_rd_same h hg (hne g (by rw [hg]; simp))
  · intro g hg; exact soft_rec_same h hg (hne g (by rw [hg]; simp)) rfl

end Verif.Rmm
