import Verif.Rmm.PresSoft

/-!
# A realm's address space as the hardware sees it

`leaf` is the entry that ends the hardware walk for an address and its depth, and
`view` what it means for the 4KB page containing the address.  The lemmas here say how
to compute them in a state that satisfies the invariant.
-/

namespace Verif.Rmm

/-- What a realm's page of address space is backed by. -/
inductive VE where
  /-- protected, no memory behind it -/
  | unassigned (r : Ripas)
  /-- unprotected, no memory behind it -/
  | unassignedNs
  /-- protected, backed by the granule at `page` -/
  | assigned (r : Ripas) (page : Nat)
  /-- unprotected, backed by the host's page at `page` with the host's attributes -/
  | assignedNs (attr : BitVec 64) (page : Nat)
  deriving DecidableEq, Repr

/-- What entry `e` at depth `d` says about the page containing `a`. -/
def pageView (d a : Nat) : Entry → Option VE
  | .unassigned r => some (.unassigned r)
  | .unassignedNs => some .unassignedNs
  | .assigned r pa => some (.assigned r (pa + a % sz d / 4096 * 4096))
  | .assignedNs at_ pa => some (.assignedNs at_ (pa + a % sz d / 4096 * 4096))
  | .table _ => none

/-- The entry the hardware walk of realm `rdA` for `a` ends at, with its depth. -/
def leaf (s : State) (rdA a : Nat) : Option (Entry × Nat) :=
  match getRd s rdA with
  | none => none
  | some r => if a < r.ipaSize then hwWalk s a r.d0 (rootFor r a).2 else none

/-- The page of address space of realm `rdA` that contains `a`. -/
def view (s : State) (rdA a : Nat) : Option VE :=
  match leaf s rdA a with
  | none => none
  | some (e, d) => pageView d a e

section
variable {P : Plat} {s : State} {ti : Nat → TabInfo} {di : Nat → Nat × Nat} {rl : Nat → List Nat}

theorem hwWalk_spec (h : InvG P s ti di rl) {rdA a : Nat} (ha : a < 2 ^ 52) : ∀ d g, s.st g = .rtt →
    ti g = ⟨rdA, d, al d a⟩ →
      ∃ g' d', d' ≤ d ∧ s.st g' = .rtt ∧ ti g' = ⟨rdA, d', al d' a⟩ ∧
        (∀ c, tabOf s g' (idx d' a) ≠ .table c) ∧ hwWalk s a d g = some (tabOf s g' (idx d' a), d') := by
  intro d
  induction d with
  | zero =>
    intro g hg hti
    have hT := h.tab g hg
    have hent := hT.ent (idx 0 a) (idx_lt _ _)
    rw [hti] at hent
    refine ⟨g, 0, Nat.le_refl _, hg, hti, ?_, ?_⟩
    · intro c hc
      rw [hc] at hent
      have := hent.2.1
      dsimp only at this
      omega
    · unfold hwWalk
      rw [getTab_of_mem hT.mem]; rfl
  | succ d ih =>
    intro g hg hti
    have hT := h.tab g hg
    have hent := hT.ent (idx (d + 1) a) (idx_lt _ _)
    rw [hti] at hent
    dsimp only at hent
    rw [al_add _ _ ha] at hent
    unfold hwWalk
    rw [getTab_of_mem hT.mem]
    dsimp only
    cases hx : tabOf s g (idx (d + 1) a) with
    | table c =>
      rw [hx] at hent
      obtain ⟨_, _, hc, htc, _⟩ := hent
      obtain ⟨g', d', h1, h2⟩ := ih c hc htc
      exact ⟨g', d', by omega, h2⟩
    | _ => exact ⟨g, d + 1, Nat.le_refl _, hg, hti, by rw [hx]; intro c; simp, by rw [hx]⟩

/-- The walk always ends. -/
theorem leaf_ex (h : InvG P s ti di rl) {rdA a : Nat} (hrd : s.st rdA = .rd)
    (ha : a < (rdOf s rdA).ipaSize) :
    ∃ d g, At s ti rdA a d g ∧ (∀ c, tabOf s g (idx d a) ≠ .table c) ∧
      leaf s rdA a = some (tabOf s g (idx d a), d) := by
  obtain ⟨h1, h2, h3, h4⟩ := root_spec h hrd ha
  obtain ⟨g, d, _, h5, h6, h7, h8⟩ := hwWalk_spec h (lt_of_lt_of_le ha (h.rds rdA hrd).geo.ipa_lt) _ _ h3 h4
  refine ⟨d, g, ⟨hrd, ha, h5, h6⟩, h7, ?_⟩
  unfold leaf
  rw [getRd_eq h hrd]
  dsimp only
  rw [if_pos ha]
  exact h8

theorem At.unique (h : InvG P s ti di rl) {rdA a d g d' g' : Nat} (k : At s ti rdA a d g)
    (k' : At s ti rdA a d' g') (hn : ∀ c, tabOf s g (idx d a) ≠ .table c)
    (hn' : ∀ c, tabOf s g' (idx d' a) ≠ .table c) : g = g' ∧ d = d' := by
  have : g = g' := by
    apply leaf_unique h (a := a) k.st k'.st (k.lt52 h)
    · rw [k.ti, k'.ti]
    · rw [k.ti]
    · rw [k'.ti]
    · rw [k.ti]; exact hn
    · rw [k'.ti]; exact hn'
  subst this
  have := k.ti.symm.trans k'.ti
  injection this with _ e _
  exact ⟨rfl, e⟩

/-- Where the walk ends. -/
theorem leaf_at (h : InvG P s ti di rl) {rdA a d g : Nat} (k : At s ti rdA a d g)
    (hn : ∀ c, tabOf s g (idx d a) ≠ .table c) : leaf s rdA a = some (tabOf s g (idx d a), d) := by
  obtain ⟨d', g', k', hn', e⟩ := leaf_ex h k.rd k.lt
  obtain ⟨rfl, rfl⟩ := k.unique h k' hn hn'
  exact e

theorem leaf_none (h : InvG P s ti di rl) {rdA a : Nat} (hrd : s.st rdA = .rd)
    (ha : (rdOf s rdA).ipaSize ≤ a) : leaf s rdA a = none := by
  unfold leaf
  rw [getRd_eq h hrd]
  dsimp only
  rw [if_neg (Nat.not_lt.mpr ha)]

theorem leaf_not_rd (h : InvG P s ti di rl) {rdA : Nat} (hrd : s.st rdA ≠ .rd) (a : Nat) :
    leaf s rdA a = none := by
  unfold leaf getRd
  cases hst : s.st rdA with
  | rd => exact absurd hst hrd
  | ns => obtain ⟨p, hp⟩ := h.nsPage _ hst; rw [hp]
  | delegated => rw [h.delPage _ hst]
  | data => obtain ⟨p, hp⟩ := h.dataPage _ hst; rw [hp]
  | recAux => obtain ⟨p, hp⟩ := h.auxPage _ hst; rw [hp]
  | rtt => rw [(h.tab _ hst).mem]
  | recd => rw [(h.recs _ hst).mem]

theorem view_of_leaf {rdA a : Nat} {e : Entry} {d : Nat} (h : leaf s rdA a = some (e, d)) :
    view s rdA a = pageView d a e := by unfold view; rw [h]

/-- A realm whose tables and geometry are as before has the same leaves. -/
theorem leaf_frame {s' : State} {ti' di' rl'} (h : InvG P s ti di rl) (h' : InvG P s' ti' di' rl') {r : Nat}
    (hst : s'.st r = .rd ↔ s.st r = .rd)
    (hgeo : s.st r = .rd → SameGeo (rdOf s r) (rdOf s' r))
    (htab : ∀ g, s.st g = .rtt → (ti g).rd = r → s'.st g = .rtt ∧ ti' g = ti g ∧ s'.mem g = s.mem g)
    (a : Nat) : leaf s' r a = leaf s r a := by
  by_cases hr : s.st r = .rd
  swap
  · rw [leaf_not_rd h hr, leaf_not_rd h' (fun e => hr (hst.mp e))]
  have hg := hgeo hr
  by_cases ha : a < (rdOf s r).ipaSize
  swap
  · rw [leaf_none h hr (Nat.not_lt.mp ha), leaf_none h' (hst.mpr hr) (by rw [hg.ipa]; exact Nat.not_lt.mp ha)]
  obtain ⟨d, g, k, hn, e⟩ := leaf_ex h hr ha
  obtain ⟨h1, h2, h3⟩ := htab g k.st (by rw [k.ti])
  have et : tabOf s' g = tabOf s g := by unfold tabOf getTab; rw [h3]
  rw [e, ← et]
  rw [← et] at hn
  exact leaf_at h' ⟨hst.mpr hr, by rw [hg.ipa]; exact ha, h1, h2.trans k.ti⟩ hn

/-- Same, when every entry that decides an address is as before. -/
theorem leaf_frame_at {s' : State} {ti' di' rl'} (h : InvG P s ti di rl) (h' : InvG P s' ti' di' rl')
    {r a : Nat} (hst : s'.st r = .rd ↔ s.st r = .rd)
    (hgeo : s.st r = .rd → SameGeo (rdOf s r) (rdOf s' r))
    (htab : ∀ d g, At s ti r a d g → s'.st g = .rtt ∧ ti' g = ti g ∧
      tabOf s' g (idx d a) = tabOf s g (idx d a)) : leaf s' r a = leaf s r a := by
  by_cases hr : s.st r = .rd
  swap
  · rw [leaf_not_rd h hr, leaf_not_rd h' (fun e => hr (hst.mp e))]
  have hg := hgeo hr
  by_cases ha : a < (rdOf s r).ipaSize
  swap
  · rw [leaf_none h hr (Nat.not_lt.mp ha), leaf_none h' (hst.mpr hr) (by rw [hg.ipa]; exact Nat.not_lt.mp ha)]
  obtain ⟨d, g, k, hn, e⟩ := leaf_ex h hr ha
  obtain ⟨h1, h2, h3⟩ := htab d g k
  rw [e, ← h3]
  rw [← h3] at hn
  exact leaf_at h' ⟨hst.mpr hr, by rw [hg.ipa]; exact ha, h1, h2.trans k.ti⟩ hn

/-! ## What a realm's own accesses reach -/

theorem translate_spec (h : InvG P s ti di rl) {rdA a pa : Nat} {ns : Bool} (hrd : s.st rdA = .rd)
    (ht : translate s (rdOf s rdA) a = some (pa, ns)) :
    a < (rdOf s rdA).ipaSize ∧
    ((ns = false ∧ a < (rdOf s rdA).parSize ∧ s.st (pa / 4096 * 4096) = .data ∧
        di (pa / 4096 * 4096) = (rdA, a / 4096 * 4096) ∧
        view s rdA a = some (.assigned .ram (pa / 4096 * 4096))) ∨
     (ns = true ∧ (rdOf s rdA).parSize ≤ a ∧
        ∃ at_, view s rdA a = some (.assignedNs at_ (pa / 4096 * 4096)))) := by
  unfold translate at ht
  by_cases ha : a < (rdOf s rdA).ipaSize
  swap
  · rw [if_neg ha] at ht; simp at ht
  rw [if_pos ha] at ht
  refine ⟨ha, ?_⟩
  obtain ⟨d, g, k, hn, e⟩ := leaf_ex h hrd ha
  have e0 := e
  unfold leaf at e
  rw [getRd_eq h hrd] at e
  dsimp only at e
  rw [if_pos ha] at e
  rw [e] at ht
  have hent := k.ent h
  have hv := view_of_leaf e0
  have hd4 : 4096 ∣ sz d := by rw [← sz_zero]; exact sz_dvd (Nat.zero_le _)
  have hm : a % sz d / 4096 * 4096 % 4096 = 0 := Nat.mul_mod_left _ _
  have hsplit : ∀ x, x % sz d = 0 → (x + a % sz d) / 4096 * 4096 = x + a % sz d / 4096 * 4096 := by
    intro x hx
    obtain ⟨q, rfl⟩ := dvd_trans hd4 (Nat.dvd_of_mod_eq_zero hx)
    rw [Nat.mul_add_div (by omega)]
    ring
  cases hx : tabOf s g (idx d a) with
  | assigned rp x =>
    rw [hx] at ht hent hv
    cases rp with
    | ram =>
      simp only [Option.some.injEq, Prod.mk.injEq] at ht
      obtain ⟨rfl, rfl⟩ := ht
      obtain ⟨h1, h2, h3, _, h4⟩ := hent
      have hlt := Nat.mod_lt a (sz_pos d)
      have hk : a % sz d / 4096 < 512 ^ d := by
        rw [Nat.div_lt_iff_lt_mul (by omega), Nat.mul_comm]; exact hlt
      have hdec := Nat.div_add_mod a (sz d)
      have hpar : a < (rdOf s rdA).parSize :=
        region_below (d := d) (dvd_trans (sz_dvd (k.depth h)) (h.rds rdA hrd).geo.par_dvd)
          (Nat.mul_mod_left _ _) h1 (by rw [Nat.mul_comm]; omega)
      refine Or.inl ⟨rfl, hpar, ?_, ?_, ?_⟩
      · rw [hsplit x h3, Nat.mul_comm _ 4096]; exact (h4 _ hk).1
      · rw [hsplit x h3, Nat.mul_comm _ 4096, (h4 _ hk).2]
        congr 1
        have : a / 4096 * 4096 = (a / sz d * sz d + a % sz d) / 4096 * 4096 := by
          rw [Nat.mul_comm (a / sz d), hdec]
        rw [this, hsplit _ (Nat.mul_mod_left _ _), Nat.mul_comm 4096]
      · rw [hv, hsplit x h3]; rfl
    | _ => simp at ht
  | assignedNs at_ x =>
    rw [hx] at ht hent hv
    simp only [Option.some.injEq, Prod.mk.injEq] at ht
    obtain ⟨rfl, rfl⟩ := ht
    obtain ⟨h1, h2, h3, h4⟩ := hent
    refine Or.inr ⟨rfl, le_trans h1 (Nat.div_mul_le_self _ _), at_, ?_⟩
    rw [hv, hsplit x h4.al]; rfl
  | unassigned rp => rw [hx] at ht; simp at ht
  | unassignedNs => rw [hx] at ht; simp at ht
  | table c => exact absurd hx (hn c)

end

end Verif.Rmm
