import Verif.Rmm.Frame

/-!
# The RMM machine: what the table commands do

Under the invariant each command terminates without reaching an assertion, and
either returns an error and changes nothing, or succeeds as its `*Ok` structure says.
-/

namespace Verif.Rmm

/-! ## Validation -/

theorem validateMapAddr_iff (r : Rd) (a d : Nat) : validateMapAddr r a d = true ↔
    a < r.ipaSize ∧ a % sz d = 0 ∧ a < (if r.lpa2 then 2 ^ 52 else 2 ^ 48) := by
  simp [validateMapAddr, and_assoc]

theorem validateStruct_iff (r : Rd) (a : Nat) (lvl : Int) : validateStruct r a lvl = true ↔
    ∃ d : Nat, lvl = 3 - (d : Int) ∧ d < r.d0 ∧ validateMapAddr r a (d + 1) = true := by
  unfold validateStruct
  simp only [Bool.and_eq_true, decide_eq_true_eq]
  constructor
  · rintro ⟨⟨h1, h2⟩, h3⟩
    refine ⟨dOf lvl, by unfold dOf; omega, by unfold dOf; omega, ?_⟩
    have : dOf (lvl - 1) = dOf lvl + 1 := by unfold dOf; omega
    rw [← this]; exact h3
  · rintro ⟨d, rfl, h2, h3⟩
    refine ⟨⟨by omega, by omega⟩, ?_⟩
    have : dOf (3 - (d : Int) - 1) = d + 1 := by unfold dOf; omega
    rw [this]; exact h3

theorem dOf_sub (d : Nat) : dOf (3 - (d : Int)) = d := by unfold dOf; omega

theorem validateMap_iff (r : Rd) (a : Nat) (lvl : Int) : validateMap r a lvl = true ↔
    ∃ d : Nat, lvl = 3 - (d : Int) ∧ d ≤ 2 ∧ validateMapAddr r a d = true := by
  unfold validateMap
  simp only [Bool.and_eq_true, decide_eq_true_eq]
  constructor
  · rintro ⟨⟨h1, h2⟩, h3⟩
    exact ⟨dOf lvl, by unfold dOf; omega, by unfold dOf; omega, h3⟩
  · rintro ⟨d, rfl, h2, h3⟩
    rw [dOf_sub]
    exact ⟨⟨by omega, by omega⟩, h3⟩

theorem validateEntry_iff (r : Rd) (a : Nat) (lvl : Int) : validateEntry r a lvl = true ↔
    ∃ d : Nat, lvl = 3 - (d : Int) ∧ d ≤ r.d0 ∧ validateMapAddr r a d = true := by
  unfold validateEntry
  simp only [Bool.and_eq_true, decide_eq_true_eq]
  constructor
  · rintro ⟨⟨h1, h2⟩, h3⟩
    exact ⟨dOf lvl, by unfold dOf; omega, by unfold dOf; omega, h3⟩
  · rintro ⟨d, rfl, h2, h3⟩
    rw [dOf_sub]
    exact ⟨⟨by omega, by omega⟩, h3⟩

/-! ## A table found by a walk -/

/-- `g` is the table of realm `rdA` at depth `d` for address `a`. -/
structure At (s : State) (ti : Nat → TabInfo) (rdA a d g : Nat) : Prop where
  rd : s.st rdA = .rd
  lt : a < (rdOf s rdA).ipaSize
  st : s.st g = .rtt
  ti : ti g = ⟨rdA, d, al d a⟩

section
variable {P : Plat} {s : State} {ti : Nat → TabInfo} {di : Nat → Nat × Nat} {rl : Nat → List Nat}

theorem getRd_eq (h : InvG P s ti di rl) {a : Nat} (ha : s.st a = .rd) : getRd s a = some (rdOf s a) :=
  getRd_of_mem (h.rds a ha).mem

theorem getTab_eq (h : InvG P s ti di rl) {a : Nat} (ha : s.st a = .rtt) : getTab s a = some (tabOf s a) :=
  getTab_of_mem (h.tab a ha).mem

theorem getRec_eq (h : InvG P s ti di rl) {a : Nat} (ha : s.st a = .recd) : getRec s a = some (recOf s a) :=
  getRec_of_mem (h.recs a ha).mem

theorem At.lt52 {rdA a d g} (k : At s ti rdA a d g) (h : InvG P s ti di rl) : a < 2 ^ 52 :=
  lt_of_lt_of_le k.lt (h.rds rdA k.rd).geo.ipa_lt

/-- The entry for `a` in its table. -/
theorem At.ent {rdA a d g} (k : At s ti rdA a d g) (h : InvG P s ti di rl) :
    EntryOk s ti di rdA (rdOf s rdA) d (a / sz d * sz d) (tabOf s g (idx d a)) := by
  have := (h.tab g k.st).ent (idx d a) (idx_lt _ _)
  rw [k.ti] at this
  dsimp only at this
  rw [al_add _ _ (k.lt52 h)] at this
  exact this

theorem At.depth {rdA a d g} (k : At s ti rdA a d g) (h : InvG P s ti di rl) : d ≤ (rdOf s rdA).d0 := by
  have := (h.tab g k.st).depth
  rw [k.ti] at this
  exact this

theorem walk_at (h : InvG P s ti di rl) {rdA a tgt : Nat} (hrd : s.st rdA = .rd)
    (ha : a < (rdOf s rdA).ipaSize) (ht : tgt ≤ (rdOf s rdA).d0) :
    ∃ g d, walk s (rdOf s rdA) a tgt = some ⟨g, d, idx d a⟩ ∧ At s ti rdA a d g ∧ tgt ≤ d ∧
      (d ≠ tgt → ∀ c, tabOf s g (idx d a) ≠ .table c) := by
  obtain ⟨w, hw, k⟩ := walk_spec h hrd ha ht
  refine ⟨w.g, w.d, ?_, ⟨hrd, ha, k.st, k.ti⟩, k.ge, ?_⟩
  · rw [hw, ← k.i]
  · intro hne c; rw [← k.i]; exact k.stop hne c

theorem div_mul_of_mod {a n : Nat} (h : a % n = 0) : a / n * n = a :=
  Nat.div_mul_cancel (Nat.dvd_of_mod_eq_zero h)

/-! ## RTT_CREATE -/

/-- A successful RTT_CREATE: child table `rtt` at depth `d` under table `g`. -/
structure RttCreateOk (P : Plat) (s : State) (ti : Nat → TabInfo) (rdA rtt a d g : Nat) (e : Entry)
    (s' : State) (ret : Ret) : Prop where
  del : s.st rtt = .delegated
  at_ : At s ti rdA a (d + 1) g
  al : a % sz (d + 1) = 0
  ent : tabOf s g (idx (d + 1) a) = e
  notTab : ∀ c, e ≠ .table c
  pa : (rdOf s rdA).lpa2 = false → rtt < 2 ^ 48
  st : s' = rttCreateSt s rtt g (idx (d + 1) a) (tabOf s g) e d (if e.counted then 0 else 1)
    (if e.counted then 512 else 0)
  ret : ret = { tlbi := if e.valid then [⟨(rdOf s rdA).vmid, a, 4096⟩] else [] }

theorem rttCreate_spec (h : InvG P s ti di rl) (rdA rtt a : Nat) (lvl : Int) :
    ∃ s' ret, rttCreate P s rdA rtt a lvl = some (s', ret) ∧
      ((s' = s ∧ ret.status ≠ 0) ∨
       ∃ (d g : Nat) (e : Entry), lvl = 3 - (d : Int) ∧ RttCreateOk P s ti rdA rtt a d g e s' ret) := by
  unfold rttCreate
  by_cases h1 : (lk P s rtt .delegated && lk P s rdA .rd) = true
  swap
  · rw [if_neg h1]; exact ⟨_, _, rfl, Or.inl ⟨rfl, by decide⟩⟩
  rw [if_pos h1]
  simp only [Bool.and_eq_true, lk_iff] at h1
  obtain ⟨⟨_, hrtt⟩, _, hrd⟩ := h1
  rw [getRd_eq h hrd]
  dsimp only
  by_cases h2 : validateStruct (rdOf s rdA) a lvl = true
  swap
  · rw [if_neg h2]; exact ⟨_, _, rfl, Or.inl ⟨rfl, by decide⟩⟩
  rw [if_pos h2]
  obtain ⟨d, rfl, hd, hv⟩ := (validateStruct_iff _ _ _).mp h2
  obtain ⟨hlt, hal, _⟩ := (validateMapAddr_iff _ _ _).mp hv
  rw [dOf_sub]
  by_cases h3 : (rdOf s rdA).lpa2 = false ∧ 2 ^ 48 ≤ rtt
  · rw [if_pos h3]; exact ⟨_, _, rfl, Or.inl ⟨rfl, by decide⟩⟩
  rw [if_neg h3]
  obtain ⟨g, dw, hw, hat, hge, hstop⟩ := walk_at h hrd hlt (show d + 1 ≤ _ by omega)
  rw [hw]
  dsimp only
  by_cases h4 : dw = d + 1
  swap
  · rw [if_neg h4]; exact ⟨_, _, rfl, Or.inl ⟨rfl, by simp [errRtt]⟩⟩
  rw [if_pos h4]
  subst h4
  rw [getTab_eq h hat.st]
  dsimp only
  have hent := hat.ent h
  have hpa : (rdOf s rdA).lpa2 = false → rtt < 2 ^ 48 := by intro hl; by_contra hc; exact h3 ⟨hl, by omega⟩
  cases he : tabOf s g (idx (d + 1) a) with
  | unassigned rp =>
    exact ⟨_, _, rfl, Or.inr ⟨d, g, _, rfl, ⟨hrtt, hat, hal, he, by simp, hpa, rfl, rfl⟩⟩⟩
  | unassignedNs =>
    exact ⟨_, _, rfl, Or.inr ⟨d, g, _, rfl, ⟨hrtt, hat, hal, he, by simp, hpa, rfl, rfl⟩⟩⟩
  | assigned rp pa =>
    rw [he] at hent
    have : d + 1 ≤ 2 := hent.2.1
    dsimp only
    rw [if_pos (by omega : d < 2)]
    refine ⟨_, _, rfl, Or.inr ⟨d, g, _, rfl, ⟨hrtt, hat, hal, he, by simp, hpa, rfl, ?_⟩⟩⟩
    cases rp <;> simp [Entry.valid]
  | assignedNs at_ pa =>
    rw [he] at hent
    have : d + 1 ≤ 2 := hent.2.2.1
    dsimp only
    rw [if_pos (by omega : d < 2)]
    exact ⟨_, _, rfl, Or.inr ⟨d, g, _, rfl, ⟨hrtt, hat, hal, he, by simp, hpa, rfl, rfl⟩⟩⟩
  | table c => exact ⟨_, _, rfl, Or.inl ⟨rfl, by simp [errRtt]⟩⟩

/-! ## RTT_FOLD -/

/-- The child `t` at depth `d` holds exactly what parent entry `e` would say. -/
def Same (t : Nat → Entry) (e : Entry) (d : Nat) : Prop :=
  (∀ i < 512, t i = splitEntry e d i) ∧ (∀ c, e ≠ .table c) ∧
  (∀ rp pa, e = .assigned rp pa → d < 2 ∧ pa % sz (d + 1) = 0) ∧
  (∀ at_ pa, e = .assignedNs at_ pa → d < 2 ∧ pa % sz (d + 1) = 0)

theorem uniform_iff (t : Nat → Entry) (e : Entry) : uniform t e = true ↔ ∀ i < 512, t i = e := by
  simp [uniform]

theorem mapsAssigned_some {t : Nat → Entry} {rp : Ripas} {d pa : Nat} (h : mapsAssigned t rp d = some pa) :
    (∀ i < 512, t i = .assigned rp (pa + i * sz d)) ∧ pa % sz (d + 1) = 0 := by
  unfold mapsAssigned at h
  split at h
  · rename_i r0 pa' h0
    split at h
    · rename_i hc
      simp only [Option.some.injEq] at h
      subst h
      obtain ⟨rfl, h2, h3⟩ := hc
      simp only [List.all_eq_true, List.mem_range, decide_eq_true_eq] at h3
      exact ⟨h3, h2⟩
    · simp at h
  · simp at h

theorem mapsNs_some {t : Nat → Entry} {d pa : Nat} {at_ : BitVec 64} (h : mapsNs t d = some (at_, pa)) :
    (∀ i < 512, t i = .assignedNs at_ (pa + i * sz d)) ∧ pa % sz (d + 1) = 0 := by
  unfold mapsNs at h
  split at h
  · rename_i at' pa' h0
    split at h
    · rename_i hc
      simp only [Option.some.injEq, Prod.mk.injEq] at h
      obtain ⟨rfl, rfl⟩ := h
      obtain ⟨h2, h3⟩ := hc
      simp only [List.all_eq_true, List.mem_range, decide_eq_true_eq] at h3
      exact ⟨h3, h2⟩
    · simp at h
  · simp at h

theorem foldEntry_inl {t : Nat → Entry} {rc d : Nat} {e : Entry} {dp dc : Nat}
    (h : foldEntry t rc d = some (.inl (e, dp, dc))) :
    Same t e d ∧ dp = (if e.counted then 0 else 1) ∧ dc = (if e.counted then 512 else 0) ∧ rc = dc := by
  unfold foldEntry at h
  have key : ∀ e', uniform t e' = true → (∀ c, e' ≠ .table c) → (∀ r p, e' ≠ .assigned r p) →
      (∀ r p, e' ≠ .assignedNs r p) → Same t e' d := by
    intro e' h1 h2 h3 h4
    refine ⟨fun i hi => ?_, h2, fun r p hx => absurd hx (h3 r p), fun r p hx => absurd hx (h4 r p)⟩
    rw [(uniform_iff _ _).mp h1 i hi]
    cases e' <;> simp_all [splitEntry]
  by_cases hrc : rc = 0
  · rw [if_pos hrc] at h
    split at h
    · rename_i hu
      simp only [Option.some.injEq, Sum.inl.injEq, Prod.mk.injEq] at h
      obtain ⟨rfl, rfl, rfl⟩ := h
      exact ⟨key _ hu (by simp) (by simp) (by simp), rfl, rfl, hrc⟩
    split at h
    · rename_i hu
      simp only [Option.some.injEq, Sum.inl.injEq, Prod.mk.injEq] at h
      obtain ⟨rfl, rfl, rfl⟩ := h
      exact ⟨key _ hu (by simp) (by simp) (by simp), rfl, rfl, hrc⟩
    split at h
    · rename_i hu
      simp only [Option.some.injEq, Sum.inl.injEq, Prod.mk.injEq] at h
      obtain ⟨rfl, rfl, rfl⟩ := h
      exact ⟨key _ hu (by simp) (by simp) (by simp), rfl, rfl, hrc⟩
    split at h
    · rename_i hu
      simp only [Option.some.injEq, Sum.inl.injEq, Prod.mk.injEq] at h
      obtain ⟨rfl, rfl, rfl⟩ := h
      exact ⟨key _ hu (by simp) (by simp) (by simp), rfl, rfl, hrc⟩
    split at h
    · rename_i at_ pa hm
      obtain ⟨h1, h2⟩ := mapsNs_some hm
      split at h
      · rename_i hd
        simp only [Option.some.injEq, Sum.inl.injEq, Prod.mk.injEq] at h
        obtain ⟨rfl, rfl, rfl⟩ := h
        refine ⟨⟨fun i hi => h1 i hi, by simp, by simp, ?_⟩, rfl, rfl, hrc⟩
        intro a p hx
        simp only [Entry.assignedNs.injEq] at hx
        obtain ⟨rfl, rfl⟩ := hx
        exact ⟨hd, h2⟩
      · simp at h
    · simp at h
  · rw [if_neg hrc] at h
    by_cases hrc2 : rc = 512
    · rw [if_pos hrc2] at h
      split at h
      · rename_i hd
        split at h
        · simp at h
        have fin : ∀ rp pa, mapsAssigned t rp d = some pa → Same t (.assigned rp pa) d := by
          intro rp pa hm
          obtain ⟨h1, h2⟩ := mapsAssigned_some hm
          refine ⟨fun i hi => h1 i hi, by simp, ?_, by simp⟩
          intro a p hx
          simp only [Entry.assigned.injEq] at hx
          obtain ⟨rfl, rfl⟩ := hx
          exact ⟨hd, h2⟩
        split at h
        · rename_i pa hm
          simp only [Option.some.injEq, Sum.inl.injEq, Prod.mk.injEq] at h
          obtain ⟨rfl, rfl, rfl⟩ := h
          exact ⟨fin _ _ hm, rfl, rfl, hrc2⟩
        split at h
        · rename_i pa hm
          simp only [Option.some.injEq, Sum.inl.injEq, Prod.mk.injEq] at h
          obtain ⟨rfl, rfl, rfl⟩ := h
          exact ⟨fin _ _ hm, rfl, rfl, hrc2⟩
        split at h
        · rename_i pa hm
          simp only [Option.some.injEq, Sum.inl.injEq, Prod.mk.injEq] at h
          obtain ⟨rfl, rfl, rfl⟩ := h
          exact ⟨fin _ _ hm, rfl, rfl, hrc2⟩
        · simp at h
      · simp at h
    · rw [if_neg hrc2] at h
      simp at h

theorem foldEntry_inr {t : Nat → Entry} {rc d : Nat} {ret : Ret}
    (h : foldEntry t rc d = some (.inr ret)) : ret.status ≠ 0 := by
  unfold foldEntry at h
  have key : ∀ x, ret = errRtt x → ret.status ≠ 0 := by rintro x rfl; simp [errRtt]
  grind

theorem foldEntry_none {t : Nat → Entry} {rc d : Nat} (h : foldEntry t rc d = none) :
    rc = 512 ∧ (t 0).live = false := by
  unfold foldEntry at h
  grind

theorem counted_live {e : Entry} (h : e.counted = true) : e.live = true := by
  cases e <;> simp_all [Entry.counted, Entry.live]

/-- The table `c` below entry `idx (d+1) a` of `g`. -/
structure Child (s : State) (ti : Nat → TabInfo) (rdA a d g c : Nat) : Prop where
  at_ : At s ti rdA a (d + 1) g
  al : a % sz (d + 1) = 0
  ent : tabOf s g (idx (d + 1) a) = .table c
  cst : s.st c = .rtt
  cti : ti c = ⟨rdA, d, a⟩

/-- A successful RTT_FOLD. -/
structure RttFoldOk (s : State) (ti : Nat → TabInfo) (rdA a d g c : Nat) (e : Entry)
    (s' : State) (ret : Ret) : Prop where
  ch : Child s ti rdA a d g c
  same : Same (tabOf s c) e d
  rc : s.rc c = (if e.counted then 512 else 0)
  prc : 1 ≤ s.rc g
  st : s' = dropTableSt s c g (idx (d + 1) a) (tabOf s g) e (if e.counted then 0 else 1)
    (if e.counted then 512 else 0)
  ret : ret = { x1 := c, tlbi :=
    if e.valid then tlbiPages (rdOf s rdA).vmid a else [⟨(rdOf s rdA).vmid, a, 4096⟩] }

theorem Child.of (h : InvG P s ti di rl) {rdA a d g c : Nat} (hat : At s ti rdA a (d + 1) g)
    (hal : a % sz (d + 1) = 0) (he : tabOf s g (idx (d + 1) a) = .table c) : Child s ti rdA a d g c := by
  have hent := hat.ent h
  rw [he] at hent
  obtain ⟨_, _, h3, h4, _⟩ := hent
  rw [div_mul_of_mod hal] at h4
  exact ⟨hat, hal, he, h3, h4⟩

theorem Child.prc (h : InvG P s ti di rl) {rdA a d g c : Nat} (k : Child s ti rdA a d g c) : 1 ≤ s.rc g := by
  rw [(h.tab g k.at_.st).rc]
  exact cnt_pos _ _ (idx (d + 1) a) (idx_lt _ _) (by rw [k.ent]; rfl)

theorem rttFold_spec (h : InvG P s ti di rl) (rdA a : Nat) (lvl : Int) :
    ∃ s' ret, rttFold P s rdA a lvl = some (s', ret) ∧
      ((s' = s ∧ ret.status ≠ 0) ∨
       ∃ (d g c : Nat) (e : Entry), lvl = 3 - (d : Int) ∧ RttFoldOk s ti rdA a d g c e s' ret) := by
  unfold rttFold
  by_cases h1 : lk P s rdA .rd = true
  swap
  · rw [if_neg h1]; exact ⟨_, _, rfl, Or.inl ⟨rfl, by decide⟩⟩
  rw [if_pos h1]
  rw [lk_iff] at h1
  obtain ⟨_, hrd⟩ := h1
  rw [getRd_eq h hrd]
  dsimp only
  by_cases h2 : validateStruct (rdOf s rdA) a lvl = true
  swap
  · rw [if_neg h2]; exact ⟨_, _, rfl, Or.inl ⟨rfl, by decide⟩⟩
  rw [if_pos h2]
  obtain ⟨d, rfl, hd, hv⟩ := (validateStruct_iff _ _ _).mp h2
  obtain ⟨hlt, hal, _⟩ := (validateMapAddr_iff _ _ _).mp hv
  rw [dOf_sub]
  obtain ⟨g, dw, hw, hat, hge, hstop⟩ := walk_at h hrd hlt (show d + 1 ≤ _ by omega)
  rw [hw]
  dsimp only
  by_cases h4 : dw = d + 1
  swap
  · rw [if_neg h4]; exact ⟨_, _, rfl, Or.inl ⟨rfl, by simp [errRtt]⟩⟩
  rw [if_pos h4]
  subst h4
  rw [getTab_eq h hat.st]
  dsimp only
  cases he : tabOf s g (idx (d + 1) a) with
  | table c =>
    have k := Child.of h hat hal he
    dsimp only
    have : lk P s c .rtt = true := (lk_iff _ _ _ _).mpr ⟨h.trk c (by rw [k.cst]; simp), k.cst⟩
    rw [if_pos this, getTab_eq h k.cst]
    dsimp only
    have hprc := k.prc h
    cases hf : foldEntry (tabOf s c) (s.rc c) d with
    | none =>
      exfalso
      obtain ⟨f1, f2⟩ := foldEntry_none hf
      have hT := (h.tab c k.cst).rc
      rw [f1] at hT
      have := cnt_eq_full _ _ hT.symm 0 (by omega)
      rw [counted_live this] at f2
      simp at f2
    | some x =>
      cases x with
      | inr ret => exact ⟨_, _, rfl, Or.inl ⟨rfl, foldEntry_inr hf⟩⟩
      | inl x =>
        obtain ⟨e, dp, dc⟩ := x
        obtain ⟨f1, f2, f3, f4⟩ := foldEntry_inl hf
        dsimp only
        rw [if_pos (by rw [f2]; split <;> omega)]
        exact ⟨_, _, rfl, Or.inr ⟨d, g, c, e, rfl, ⟨k, f1, by rw [f4, f3], hprc, by rw [f2, f3], rfl⟩⟩⟩
  | _ => exact ⟨_, _, rfl, Or.inl ⟨rfl, by simp [errRtt]⟩⟩

/-! ## RTT_DESTROY -/

/-- A successful RTT_DESTROY. -/
structure RttDestroyOk (s : State) (ti : Nat → TabInfo) (rdA a d g c : Nat)
    (s' : State) (ret : Ret) : Prop where
  ch : Child s ti rdA a d g c
  rc : s.rc c = 0
  prc : 1 ≤ s.rc g
  st : s' = dropTableSt s c g (idx (d + 1) a) (tabOf s g)
    (if a < (rdOf s rdA).parSize then .unassigned .destroyed else .unassignedNs) 1 0
  x1 : ret.x1 = c
  status : ret.status = 0
  x2 : ret.x2 = skipNonLive (upd (tabOf s g) (idx (d + 1) a)
    (if a < (rdOf s rdA).parSize then .unassigned .destroyed else .unassignedNs))
      ⟨g, d + 1, idx (d + 1) a⟩ a
  tlbi : ret.tlbi = if a < (rdOf s rdA).parSize then [⟨(rdOf s rdA).vmid, a, 4096⟩]
    else tlbiPages (rdOf s rdA).vmid a

theorem rttDestroy_spec (h : InvG P s ti di rl) (rdA a : Nat) (lvl : Int) :
    ∃ s' ret, rttDestroy P s rdA a lvl = some (s', ret) ∧
      ((s' = s ∧ ret.status ≠ 0) ∨
       ∃ (d g c : Nat), lvl = 3 - (d : Int) ∧ RttDestroyOk s ti rdA a d g c s' ret) := by
  unfold rttDestroy
  by_cases h1 : lk P s rdA .rd = true
  swap
  · rw [if_neg h1]; exact ⟨_, _, rfl, Or.inl ⟨rfl, by decide⟩⟩
  rw [if_pos h1]
  rw [lk_iff] at h1
  obtain ⟨_, hrd⟩ := h1
  rw [getRd_eq h hrd]
  dsimp only
  by_cases h2 : validateStruct (rdOf s rdA) a lvl = true
  swap
  · rw [if_neg h2]; exact ⟨_, _, rfl, Or.inl ⟨rfl, by decide⟩⟩
  rw [if_pos h2]
  obtain ⟨d, rfl, hd, hv⟩ := (validateStruct_iff _ _ _).mp h2
  obtain ⟨hlt, hal, _⟩ := (validateMapAddr_iff _ _ _).mp hv
  rw [dOf_sub]
  obtain ⟨g, dw, hw, hat, hge, hstop⟩ := walk_at h hrd hlt (show d + 1 ≤ _ by omega)
  rw [hw]
  dsimp only
  rw [getTab_eq h hat.st]
  dsimp only
  by_cases h4 : dw = d + 1
  swap
  · rw [if_neg h4]; exact ⟨_, _, rfl, Or.inl ⟨rfl, by simp [errRtt]⟩⟩
  rw [if_pos h4]
  subst h4
  cases he : tabOf s g (idx (d + 1) a) with
  | table c =>
    have k := Child.of h hat hal he
    dsimp only
    have : lk P s c .rtt = true := (lk_iff _ _ _ _).mpr ⟨h.trk c (by rw [k.cst]; simp), k.cst⟩
    rw [if_pos this]
    by_cases hrc : s.rc c = 0
    swap
    · rw [if_neg hrc]; exact ⟨_, _, rfl, Or.inl ⟨rfl, by simp [errRtt]⟩⟩
    have hprc := k.prc h
    rw [if_pos hrc, if_pos hprc]
    by_cases hp : a < (rdOf s rdA).parSize
    · have hp' : (rdOf s rdA).inPar a = true := by simp [Rd.inPar, hp]
      rw [hp']
      exact ⟨_, _, rfl, Or.inr ⟨d, g, c, rfl, ⟨k, hrc, hprc, by simp only [if_pos hp]; rfl, rfl, rfl, by simp only [if_pos hp]; rfl, by simp only [if_pos hp]; rfl⟩⟩⟩
    · have hp' : (rdOf s rdA).inPar a = false := by simp [Rd.inPar]; omega
      rw [hp']
      exact ⟨_, _, rfl, Or.inr ⟨d, g, c, rfl, ⟨k, hrc, hprc, by simp only [if_neg hp]; rfl, rfl, rfl, by simp only [if_neg hp]; rfl, by simp only [if_neg hp]; rfl⟩⟩⟩
  | _ => exact ⟨_, _, rfl, Or.inl ⟨rfl, by simp [errRtt]⟩⟩

end

end Verif.Rmm
