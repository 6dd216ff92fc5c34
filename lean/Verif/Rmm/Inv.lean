import Verif.Rmm.Arith
import Verif.Rmm.Cmd

/-!
# The RMM machine: invariant

`Inv` is the invariant that every command preserves (`Verif.Rmm.Pres*`).  It is
existentially quantified over ghost data that RMM does not store: for each table
granule its realm, depth and base address (`ti`), for each data granule the realm
and IPA it backs (`di`), and for each realm the list of its RECs (`rl`).
-/

namespace Verif.Rmm

/-- Realm, depth and base IPA of a table. -/
structure TabInfo where
  rd : Nat
  d : Nat
  base : Nat
  deriving DecidableEq, Repr

/-- A dummy realm descriptor. -/
def rd0 : Rd :=
  { state := .new, recCount := 0, d0 := 0, ipaBits := 0, nroots := 0, root := 0, vmid := 0
    lpa2 := false, numAux := 0, algo := 0, rim := [], rem := fun _ => [] }

/-- A dummy REC. -/
def rec0 : Rec :=
  { rd := 0, idx := 0, runnable := false, aux := [], regs := fun _ => 0, pc := 0
    sr := ⟨0, 0, 0, .empty, false, false⟩, psciPending := false }

/-- Contents as a table (dummy if it is not one). -/
def tabOf (s : State) (g : Nat) : Nat → Entry := (getTab s g).getD fun _ => .unassigned .empty
/-- Contents as a realm descriptor (dummy if it is not one). -/
def rdOf (s : State) (a : Nat) : Rd := (getRd s a).getD rd0
/-- Contents as a REC (dummy if it is not one). -/
def recOf (s : State) (a : Nat) : Rec := (getRec s a).getD rec0

/-- Geometry of a realm: `h` starting-level entries in each half. -/
structure Geo (r : Rd) : Prop where
  d0 : r.d0 ≤ (if r.lpa2 then 4 else 3)
  bits : r.ipaBits ≤ (if r.lpa2 then 52 else 48)
  bits1 : 32 ≤ r.ipaBits
  halves : ∃ h, 1 ≤ h ∧ r.parSize = h * sz r.d0 ∧ r.ipaSize = 2 * h * sz r.d0 ∧
    2 * h ≤ r.nroots * 512 ∧ (r.nroots - 1) * 512 < 2 * h ∧
    (r.d0 = 4 → 2 * h ≤ 16)
  roots1 : 1 ≤ r.nroots

/-- An unprotected mapping that the host could have asked for. -/
structure NsOk (r : Rd) (d : Nat) (at_ : BitVec 64) (pa : Nat) : Prop where
  al : pa % sz d = 0
  lt : pa < 2 ^ (if r.lpa2 then 52 else 48)
  bits : ∀ i, at_.getLsbD i = true → (2 ≤ i ∧ i ≤ 4) ∨ (6 ≤ i ∧ i ≤ 7)
  attr : ¬ (at_.getLsbD 2 = false ∧ at_.getLsbD 3 = false ∧ at_.getLsbD 4 = true)

/-- An entry of realm `rdA` at depth `d` for the IPAs from `e` on. -/
def EntryOk (s : State) (ti : Nat → TabInfo) (di : Nat → Nat × Nat) (rdA : Nat) (r : Rd) (d e : Nat) :
    Entry → Prop
  | .unassigned rp => e < r.parSize ∨ (r.ipaSize ≤ e ∧ rp = .empty)
  | .unassignedNs => r.parSize ≤ e ∧ e < r.ipaSize
  | .assigned _ pa => e < r.parSize ∧ d ≤ 2 ∧ pa % sz d = 0 ∧ (r.lpa2 = false → pa < 2 ^ 48) ∧
      ∀ k < 512 ^ d, s.st (pa + 4096 * k) = .data ∧ di (pa + 4096 * k) = (rdA, e + 4096 * k)
  | .assignedNs at_ pa => r.parSize ≤ e ∧ e < r.ipaSize ∧ d ≤ 2 ∧ NsOk r d at_ pa
  | .table c => e < r.ipaSize ∧ 1 ≤ d ∧ s.st c = .rtt ∧ ti c = ⟨rdA, d - 1, e⟩ ∧
      (r.lpa2 = false → c < 2 ^ 48)

/-- A table granule. -/
structure TabOk (s : State) (ti : Nat → TabInfo) (di : Nat → Nat × Nat) (g : Nat) : Prop where
  mem : s.mem g = .table (tabOf s g)
  rd : s.st (ti g).rd = .rd
  depth : (ti g).d ≤ (rdOf s (ti g).rd).d0
  base : (ti g).base % sz ((ti g).d + 1) = 0
  lt : (ti g).base < (rdOf s (ti g).rd).ipaSize
  up : ((ti g).d = (rdOf s (ti g).rd).d0 ∧
        ∃ j < (rdOf s (ti g).rd).nroots, (ti g).base = j * sz ((ti g).d + 1) ∧
          g = (rdOf s (ti g).rd).root + 4096 * j) ∨
       ((ti g).d < (rdOf s (ti g).rd).d0 ∧
        ∃ p, s.st p = .rtt ∧ ti p = ⟨(ti g).rd, (ti g).d + 1, al ((ti g).d + 1) (ti g).base⟩ ∧
          tabOf s p (idx ((ti g).d + 1) (ti g).base) = .table g)
  ent : ∀ i < 512, EntryOk s ti di (ti g).rd (rdOf s (ti g).rd) (ti g).d
    ((ti g).base + i * sz (ti g).d) (tabOf s g i)
  rc : s.rc g = cnt (tabOf s g) 512

/-- A realm descriptor granule. -/
structure RdOk (P : Plat) (s : State) (ti : Nat → TabInfo) (rl : Nat → List Nat) (a : Nat) : Prop where
  mem : s.mem a = .rd (rdOf s a)
  geo : Geo (rdOf s a)
  roots : ∀ j < (rdOf s a).nroots, s.st ((rdOf s a).root + 4096 * j) = .rtt ∧
    ti ((rdOf s a).root + 4096 * j) = ⟨a, (rdOf s a).d0, j * sz ((rdOf s a).d0 + 1)⟩
  aux : (rdOf s a).numAux = 16
  vmid : (rdOf s a).vmid < P.vmidCount ∧ s.vmid (rdOf s a).vmid = true
  nodup : (rl a).Nodup
  recs : ∀ x, x ∈ rl a ↔ (s.st x = .recd ∧ (recOf s x).rd = a)
  rc : s.rc a = (rl a).length
  max : s.rc a ≤ 1023

/-- A pending RIPAS change request is inside the protected address range. -/
structure SrOk (r : Rd) (q : SetRipas) : Prop where
  al : q.addr % 4096 = 0 ∧ q.top % 4096 = 0
  le : q.top ≠ 0 → q.base ≤ q.addr ∧ q.addr ≤ q.top
  par : q.top ≤ r.parSize
  ripas : q.ripas ≠ .destroyed

/-- A REC granule. -/
structure RecOk (s : State) (a : Nat) : Prop where
  mem : s.mem a = .recd (recOf s a)
  rd : s.st (recOf s a).rd = .rd
  rc : s.rc a ≤ 1
  idx : (recOf s a).idx < (rdOf s (recOf s a).rd).recCount
  auxSt : ∀ x ∈ (recOf s a).aux, s.st x = .recAux
  auxNodup : (recOf s a).aux.Nodup
  auxLen : (recOf s a).aux.length = 16
  sr : SrOk (rdOf s (recOf s a).rd) (recOf s a).sr
  run : s.rc a = 1 → (rdOf s (recOf s a).rd).state ≠ .new

/-- The invariant, with its ghost data. -/
structure InvG (P : Plat) (s : State) (ti : Nat → TabInfo) (di : Nat → Nat × Nat)
    (rl : Nat → List Nat) : Prop where
  trk : ∀ a, s.st a ≠ .ns → P.tracked a = true
  gpt : ∀ a, P.tracked a = true → (s.st a ≠ .ns ↔ s.pas a = .realm)
  nsPage : ∀ a, s.st a = .ns → ∃ p, s.mem a = .page p
  delPage : ∀ a, s.st a = .delegated → s.mem a = .page 0
  dataPage : ∀ a, s.st a = .data → ∃ p, s.mem a = .page p
  auxPage : ∀ a, s.st a = .recAux → ∃ p, s.mem a = .page p
  rc0 : ∀ a, s.st a = .ns ∨ s.st a = .delegated ∨ s.st a = .data ∨ s.st a = .recAux → s.rc a = 0
  tab : ∀ g, s.st g = .rtt → TabOk s ti di g
  rds : ∀ a, s.st a = .rd → RdOk P s ti rl a
  recs : ∀ a, s.st a = .recd → RecOk s a
  recIdx : ∀ a b, s.st a = .recd → s.st b = .recd → (recOf s a).rd = (recOf s b).rd →
    (recOf s a).idx = (recOf s b).idx → a = b
  auxOwner : ∀ x, s.st x = .recAux → ∃ a, s.st a = .recd ∧ x ∈ (recOf s a).aux
  auxDisj : ∀ a b x, s.st a = .recd → s.st b = .recd → x ∈ (recOf s a).aux → x ∈ (recOf s b).aux → a = b
  data : ∀ x, s.st x = .data → s.st (di x).1 = .rd ∧ (di x).2 % 4096 = 0 ∧
    ∃ g d rp pa, s.st g = .rtt ∧ ti g = ⟨(di x).1, d, al d (di x).2⟩ ∧
      tabOf s g (idx d (di x).2) = .assigned rp pa ∧ x = pa + (di x).2 % sz d
  vmidInj : ∀ a b, s.st a = .rd → s.st b = .rd → (rdOf s a).vmid = (rdOf s b).vmid → a = b
  vmidOwner : ∀ v, s.vmid v = true → ∃ a, s.st a = .rd ∧ (rdOf s a).vmid = v

/-- The invariant. -/
def Inv (P : Plat) (s : State) : Prop := ∃ ti di rl, InvG P s ti di rl

/-! ## First consequences -/

theorem getTab_some {s : State} {g : Nat} {t : Nat → Entry} (h : getTab s g = some t) :
    s.mem g = .table t ∧ tabOf s g = t := by
  unfold tabOf
  rw [h]
  refine ⟨?_, rfl⟩
  unfold getTab at h
  split at h
  · rename_i t' ht; simp only [Option.some.injEq] at h; subst h; exact ht
  · simp at h

theorem getTab_of_mem {s : State} {g : Nat} {t : Nat → Entry} (h : s.mem g = .table t) :
    getTab s g = some t := by unfold getTab; rw [h]

theorem tabOf_of_mem {s : State} {g : Nat} {t : Nat → Entry} (h : s.mem g = .table t) :
    tabOf s g = t := by unfold tabOf; rw [getTab_of_mem h]; rfl

theorem getRd_some {s : State} {g : Nat} {r : Rd} (h : getRd s g = some r) :
    s.mem g = .rd r ∧ rdOf s g = r := by
  unfold rdOf
  rw [h]
  refine ⟨?_, rfl⟩
  unfold getRd at h
  split at h
  · rename_i t' ht; simp only [Option.some.injEq] at h; subst h; exact ht
  · simp at h

theorem getRd_of_mem {s : State} {g : Nat} {r : Rd} (h : s.mem g = .rd r) :
    getRd s g = some r := by unfold getRd; rw [h]

theorem rdOf_of_mem {s : State} {g : Nat} {r : Rd} (h : s.mem g = .rd r) :
    rdOf s g = r := by unfold rdOf; rw [getRd_of_mem h]; rfl

theorem getRec_some {s : State} {g : Nat} {r : Rec} (h : getRec s g = some r) :
    s.mem g = .recd r ∧ recOf s g = r := by
  unfold recOf
  rw [h]
  refine ⟨?_, rfl⟩
  unfold getRec at h
  split at h
  · rename_i t' ht; simp only [Option.some.injEq] at h; subst h; exact ht
  · simp at h

theorem getRec_of_mem {s : State} {g : Nat} {r : Rec} (h : s.mem g = .recd r) :
    getRec s g = some r := by unfold getRec; rw [h]

theorem recOf_of_mem {s : State} {g : Nat} {r : Rec} (h : s.mem g = .recd r) :
    recOf s g = r := by unfold recOf; rw [getRec_of_mem h]; rfl

theorem lk_iff (P : Plat) (s : State) (a : Nat) (e : GSt) :
    lk P s a e = true ↔ P.tracked a = true ∧ s.st a = e := by simp [lk]

theorem Geo.ipa_lt {r : Rd} (h : Geo r) : r.ipaSize ≤ 2 ^ 52 := by
  have := h.bits
  unfold Rd.ipaSize
  exact Nat.pow_le_pow_right (by omega) (by split at this <;> omega)

theorem Geo.par_le {r : Rd} (_ : Geo r) : r.parSize ≤ r.ipaSize := Nat.div_le_self _ _

theorem Geo.par_dvd {r : Rd} (h : Geo r) : sz r.d0 ∣ r.parSize := by
  obtain ⟨n, _, h1, _⟩ := h.halves; rw [h1]; exact Dvd.intro_left _ rfl

theorem Geo.ipa_dvd {r : Rd} (h : Geo r) : sz r.d0 ∣ r.ipaSize := by
  obtain ⟨n, _, _, h1, _⟩ := h.halves; rw [h1]; exact Dvd.intro_left _ rfl

/-- A region of size `sz d` aligned to `sz d` does not straddle a multiple of `sz d`. -/
theorem region_below {d e b x : Nat} (hb : sz d ∣ b) (he : e % sz d = 0) (h : e < b) (hx : x < e + sz d) :
    x < b := by
  obtain ⟨k, rfl⟩ := hb
  obtain ⟨m, rfl⟩ := Nat.dvd_of_mod_eq_zero he
  have h1 : m < k := Nat.lt_of_mul_lt_mul_left h
  have h2 : sz d * (m + 1) ≤ sz d * k := Nat.mul_le_mul_left _ h1
  have h3 : sz d * (m + 1) = sz d * m + sz d := by ring
  omega

/-- The starting-level table for an address: the right one, as the invariant
records it. -/
theorem root_spec {P : Plat} {s : State} {ti di rl} (h : InvG P s ti di rl) {rdA : Nat}
    (hs : s.st rdA = .rd) {a : Nat} (ha : a < (rdOf s rdA).ipaSize) :
    (rootFor (rdOf s rdA) a).1 < (rdOf s rdA).nroots ∧
    (rootFor (rdOf s rdA) a).2 = (rdOf s rdA).root + 4096 * (rootFor (rdOf s rdA) a).1 ∧
    s.st (rootFor (rdOf s rdA) a).2 = .rtt ∧
    ti (rootFor (rdOf s rdA) a).2 = ⟨rdA, (rdOf s rdA).d0, al (rdOf s rdA).d0 a⟩ := by
  have hr := h.rds rdA hs
  have hg := hr.geo
  have key : (rootFor (rdOf s rdA) a).1 = a / sz (rdOf s rdA).d0 / 512 := by
    unfold rootFor
    dsimp only
    rw [Nat.mod_eq_of_lt ha]
    split
    · rfl
    · rename_i hh; exact (Nat.div_eq_of_lt (Nat.not_le.mp hh)).symm
  have hlt : (rootFor (rdOf s rdA) a).1 < (rdOf s rdA).nroots := by
    obtain ⟨n, _, _, h2, h3, _⟩ := hg.halves
    rw [key]
    rw [h2] at ha
    have : a / sz (rdOf s rdA).d0 < 2 * n := by
      rw [Nat.div_lt_iff_lt_mul (sz_pos _)]; exact ha
    omega
  have h2 : (rootFor (rdOf s rdA) a).2 = (rdOf s rdA).root + 4096 * (rootFor (rdOf s rdA) a).1 := rfl
  refine ⟨hlt, h2, ?_, ?_⟩
  · rw [h2]; exact (hr.roots _ hlt).1
  · rw [h2, (hr.roots _ hlt).2]
    congr 1
    rw [key]
    unfold al
    rw [sz_succ, Nat.mul_comm 512, ← Nat.div_div_eq_div_mul]

/-- Tables with the same ghost data are the same table. -/
theorem tab_unique {P : Plat} {s : State} {ti di rl} (h : InvG P s ti di rl) :
    ∀ n g g', s.st g = .rtt → s.st g' = .rtt → ti g = ti g' →
      (rdOf s (ti g).rd).d0 - (ti g).d = n → g = g' := by
  intro n
  induction n with
  | zero =>
    intro g g' hg hg' he hn
    have h1 := (h.tab g hg)
    have h2 := (h.tab g' hg')
    have := h1.depth
    rcases h1.up with ⟨_, j, _, hb, hgj⟩ | ⟨hlt, _⟩
    · rcases h2.up with ⟨_, j', _, hb', hgj'⟩ | ⟨hlt, _⟩
      · rw [← he] at hb' hgj'
        rw [hb] at hb'
        have : j = j' := Nat.eq_of_mul_eq_mul_right (sz_pos _) hb'
        rw [hgj, hgj', this]
      · rw [← he] at hlt; omega
    · omega
  | succ n ih =>
    intro g g' hg hg' he hn
    have h1 := (h.tab g hg)
    have h2 := (h.tab g' hg')
    rcases h1.up with ⟨hd, _⟩ | ⟨hlt, p, hp, htp, hep⟩
    · omega
    · rcases h2.up with ⟨hd, _⟩ | ⟨_, p', hp', htp', hep'⟩
      · rw [← he] at hd; omega
      · rw [← he] at htp' hep'
        have : p = p' := by
          apply ih p p' hp hp' (by rw [htp, htp'])
          rw [htp]; dsimp only; omega
        subst this
        rw [hep] at hep'
        exact Entry.table.inj hep'

/-- A table at depth `d` covering `a` has an ancestor at each greater depth, and
the ancestor's entry for `a` is a table. -/
theorem ancestor {P : Plat} {s : State} {ti di rl} (h : InvG P s ti di rl) :
    ∀ k g a, s.st g = .rtt → a < 2 ^ 52 → (ti g).base = al (ti g).d a →
      (ti g).d + k + 1 ≤ (rdOf s (ti g).rd).d0 →
      ∃ p c, s.st p = .rtt ∧ ti p = ⟨(ti g).rd, (ti g).d + k + 1, al ((ti g).d + k + 1) a⟩ ∧
        tabOf s p (idx ((ti g).d + k + 1) a) = .table c := by
  intro k
  induction k with
  | zero =>
    intro g a hg ha hb hd
    rcases (h.tab g hg).up with ⟨hd', _⟩ | ⟨hlt, p, hp, htp, hep⟩
    · omega
    · refine ⟨p, g, hp, ?_, ?_⟩
      · rw [htp, hb, al_al _ _ _ (by omega)]
      · rw [hb, idx_al _ _ _ (by omega) ha] at hep; exact hep
  | succ k ih =>
    intro g a hg ha hb hd
    rcases (h.tab g hg).up with ⟨hd', _⟩ | ⟨hlt, p, hp, htp, hep⟩
    · omega
    · have := ih p a hp ha (by rw [htp]; dsimp only; rw [hb, al_al _ _ _ (by omega)])
        (by rw [htp]; dsimp only; omega)
      rw [htp] at this
      dsimp only at this
      rw [show (ti g).d + (k + 1) + 1 = (ti g).d + 1 + k + 1 by omega]
      exact this

/-- Two tables of a realm that cover `a` and whose entries for `a` are not tables
are the same table. -/
theorem leaf_unique {P : Plat} {s : State} {ti di rl} (h : InvG P s ti di rl) {g g' a : Nat}
    (hg : s.st g = .rtt) (hg' : s.st g' = .rtt) (ha : a < 2 ^ 52) (hrd : (ti g).rd = (ti g').rd)
    (hb : (ti g).base = al (ti g).d a) (hb' : (ti g').base = al (ti g').d a)
    (hn : ∀ c, tabOf s g (idx (ti g).d a) ≠ .table c)
    (hn' : ∀ c, tabOf s g' (idx (ti g').d a) ≠ .table c) : g = g' := by
  have aux : ∀ x y, s.st x = .rtt → s.st y = .rtt → (ti x).rd = (ti y).rd →
      (ti x).base = al (ti x).d a → (ti y).base = al (ti y).d a →
      (∀ c, tabOf s y (idx (ti y).d a) ≠ .table c) → ¬ (ti x).d < (ti y).d := by
    intro x y hx hy hxy hbx hby hny hlt
    obtain ⟨k, hk⟩ := Nat.exists_eq_add_of_le hlt
    have hdy := (h.tab y hy).depth
    rw [← hxy] at hdy
    obtain ⟨p, c, hp, htp, hep⟩ := ancestor h k x a hx ha hbx (by omega)
    have : p = y := by
      apply tab_unique h _ p y hp hy _ rfl
      rw [htp]
      have : ti y = ⟨(ti y).rd, (ti y).d, (ti y).base⟩ := rfl
      rw [this, ← hxy, hby]
      have : (ti y).d = (ti x).d + k + 1 := by omega
      rw [this]
    subst this
    have : (ti p).d = (ti x).d + k + 1 := by omega
    rw [← this] at hep
    exact hny c hep
  have h1 := aux g g' hg hg' hrd hb hb' hn'
  have h2 := aux g' g hg' hg hrd.symm hb' hb hn
  apply tab_unique h _ g g' hg hg' _ rfl
  have e : (ti g).d = (ti g').d := by omega
  have : ti g = ⟨(ti g).rd, (ti g).d, (ti g).base⟩ := rfl
  rw [this, hrd, hb, e, ← hb']

/-- What a walk finds. -/
structure WalkOk (s : State) (ti : Nat → TabInfo) (rdA a tgt d : Nat) (w : Walk) : Prop where
  st : s.st w.g = .rtt
  ti : ti w.g = ⟨rdA, w.d, al w.d a⟩
  i : w.i = idx w.d a
  ge : tgt ≤ w.d
  le : w.d ≤ d
  stop : w.d ≠ tgt → ∀ c, tabOf s w.g w.i ≠ .table c

theorem walkFrom_spec {P : Plat} {s : State} {ti di rl} (h : InvG P s ti di rl) {rdA a tgt : Nat}
    (ha : a < 2 ^ 52) : ∀ d g, s.st g = .rtt → ti g = ⟨rdA, d, al d a⟩ → tgt ≤ d →
      ∃ w, walkFrom s a tgt d g = some w ∧ WalkOk s ti rdA a tgt d w := by
  intro d
  induction d with
  | zero =>
    intro g hg hti ht
    refine ⟨_, rfl, ⟨hg, hti, rfl, ht, Nat.le_refl _, ?_⟩⟩
    intro hne; exact absurd (show (0 : Nat) = tgt by omega) hne
  | succ d ih =>
    intro g hg hti ht
    unfold walkFrom
    by_cases hle : d + 1 ≤ tgt
    · rw [if_pos hle]
      refine ⟨_, rfl, ⟨hg, hti, rfl, ht, Nat.le_refl _, ?_⟩⟩
      intro hne; exact absurd (show d + 1 = tgt by omega) hne
    · rw [if_neg hle]
      have hT := h.tab g hg
      rw [getTab_of_mem hT.mem]
      dsimp only
      have hent := hT.ent (idx (d + 1) a) (idx_lt _ _)
      rw [hti] at hent
      dsimp only at hent
      rw [al_add _ _ ha] at hent
      cases hx : tabOf s g (idx (d + 1) a) with
      | table c =>
        rw [hx] at hent
        obtain ⟨_, _, hc, htc, _⟩ := hent
        dsimp only
        rw [if_pos hc]
        obtain ⟨w, hw, hok⟩ := ih c hc htc (by omega)
        exact ⟨w, hw, ⟨hok.st, hok.ti, hok.i, hok.ge, by have := hok.le; omega, hok.stop⟩⟩
      | _ =>
        refine ⟨_, rfl, ⟨hg, hti, rfl, by dsimp only; omega, Nat.le_refl _, ?_⟩⟩
        intro _ c
        dsimp only
        rw [hx]; simp

/-- A walk for an address of a live realm never fails and finds the right table. -/
theorem walk_spec {P : Plat} {s : State} {ti di rl} (h : InvG P s ti di rl) {rdA : Nat}
    (hs : s.st rdA = .rd) {a tgt : Nat} (ha : a < (rdOf s rdA).ipaSize) (ht : tgt ≤ (rdOf s rdA).d0) :
    ∃ w, walk s (rdOf s rdA) a tgt = some w ∧ WalkOk s ti rdA a tgt (rdOf s rdA).d0 w := by
  obtain ⟨h1, h2, h3, h4⟩ := root_spec h hs ha
  have hr := h.rds rdA hs
  have h0 := (hr.roots 0 hr.geo.roots1).1
  simp only [Nat.mul_zero, Nat.add_zero] at h0
  unfold walk
  rw [if_pos ⟨ht, ha, h0, h1, h3⟩]
  exact walkFrom_spec h (lt_of_lt_of_le ha hr.geo.ipa_lt) _ _ h3 h4 ht

end Verif.Rmm
