import Verif.Rmm.Foot
import Verif.Rmm.Demo

/-!
# Properties of the stage 2 commands (C03, C04, C08-C14)

Every theorem is about an arbitrary reachable state: any finite sequence of RMI
commands, realm steps and host steps with arbitrary arguments led to it.  What a realm
sees at an address is stated with `view`, which follows the tables in memory the way
the hardware walk does, independently of the walk that RMM performs.
-/

namespace Verif.Rmm

/-- Size of the region described by one entry of a table at level `lvl`. -/
def entrySize (lvl : Int) : Nat := 4096 * 512 ^ (3 - lvl).toNat

/-- Size of the region described by a table at level `lvl`. -/
def tableSize (lvl : Int) : Nat := 512 * entrySize lvl

/-- Size of the protected half of the realm's address space. -/
def parOf (s : State) (r : Nat) : Nat := 2 ^ ((rdOf s r).ipaBits - 1)

/-- Size of the realm's address space. -/
def ipaOf (s : State) (r : Nat) : Nat := 2 ^ (rdOf s r).ipaBits

section
variable {P : Plat} {s s' : State} {ret : Ret} {ti : Nat → TabInfo} {di : Nat → Nat × Nat} {rl : Nat → List Nat}

theorem entrySize_eq {lvl : Int} {d : Nat} (h : lvl = 3 - (d : Int)) : entrySize lvl = sz d := by
  unfold entrySize sz; subst h; congr 2; omega

theorem tableSize_eq {lvl : Int} {d : Nat} (h : lvl = 3 - (d : Int)) : tableSize lvl = sz (d + 1) := by
  unfold tableSize; rw [entrySize_eq h, sz_succ]

theorem par_eq (h : InvG P s ti di rl) {r : Nat} (hr : s.st r = .rd) : (rdOf s r).parSize = parOf s r := by
  have hb := (h.rds r hr).geo.bits1
  unfold Rd.parSize Rd.ipaSize parOf
  rw [show (rdOf s r).ipaBits = ((rdOf s r).ipaBits - 1) + 1 by omega, Nat.pow_succ]
  simp

theorem step_eff' (hP : PlatOk P) (h : InvG P s ti di rl) {op : Op} (e : step P s op = some (s', ret))
    (hr : op.rmi = true) (h0 : ret.status = 0) : Eff P s ti di s' ret op := by
  rcases step_eff hP h e with ⟨_, h1⟩ | h1
  · exact absurd h0 (h1 hr)
  · exact h1

theorem pageView_assigned {d a : Nat} {e : Entry} {rp : Ripas} {x : Nat}
    (h : pageView d a e = some (.assigned rp x)) : ∃ pa, e = .assigned rp pa ∧ x = pa + a % sz d / 4096 * 4096 := by
  cases e <;> simp [pageView] at h
  exact ⟨_, by rw [h.1], h.2.symm⟩

theorem pageView_assignedNs {d a : Nat} {e : Entry} {at_ : BitVec 64} {x : Nat}
    (h : pageView d a e = some (.assignedNs at_ x)) :
    ∃ pa, e = .assignedNs at_ pa ∧ x = pa + a % sz d / 4096 * 4096 := by
  cases e <;> simp [pageView] at h
  exact ⟨_, by rw [h.1], h.2.symm⟩

theorem pageView_unassigned {d a : Nat} {e : Entry} {rp : Ripas} :
    pageView d a e = some (.unassigned rp) ↔ e = .unassigned rp := by
  cases e <;> simp [pageView]

theorem pageView_unassignedNs {d a : Nat} {e : Entry} :
    pageView d a e = some .unassignedNs ↔ e = .unassignedNs := by
  cases e <;> simp [pageView]

/-- An assigned page is a data granule recorded for exactly that page. -/
theorem view_assigned (h : InvG P s ti di rl) {r a x : Nat} {rp : Ripas}
    (hv : view s r a = some (.assigned rp x)) :
    s.st r = .rd ∧ a < (rdOf s r).parSize ∧ s.st x = .data ∧ di x = (r, a / 4096 * 4096) := by
  have hr : s.st r = .rd := by
    by_contra hn
    unfold view at hv; rw [leaf_not_rd h hn] at hv; cases hv
  have ha : a < (rdOf s r).ipaSize := by
    by_contra hn
    unfold view at hv; rw [leaf_none h hr (by omega)] at hv; cases hv
  obtain ⟨d, g, k, hn, hl⟩ := leaf_ex h hr ha
  rw [view_of_leaf hl] at hv
  obtain ⟨pa, he, rfl⟩ := pageView_assigned hv
  have hent := k.ent h
  rw [he] at hent
  have hx52 := k.lt52 h
  obtain ⟨h1, h2, h3, h4, h5⟩ := hent
  have hoff : a / sz d * sz d + a % sz d = a := by rw [Nat.mul_comm]; exact Nat.div_add_mod _ _
  have hp := sz_pos d
  have hj : a % sz d / 4096 * 4096 < sz d := lt_of_le_of_lt (Nat.div_mul_le_self _ _) (Nat.mod_lt _ hp)
  have h6 := h5 (a % sz d / 4096) (by
    apply Nat.div_lt_of_lt_mul
    exact Nat.mod_lt _ hp)
  rw [Nat.mul_comm] at h6
  refine ⟨hr, ?_, h6.1, ?_⟩
  · exact region_below (d := d) (dvd_trans (sz_dvd (k.depth h)) (h.rds r hr).geo.par_dvd)
      (Nat.mul_mod_left _ _) h1 (by have := Nat.mod_lt a hp; omega)
  · rw [h6.2]
    congr 1
    obtain ⟨q, hq⟩ := sz_dvd (Nat.zero_le d)
    rw [sz_zero] at hq
    have e1 : a / sz d * sz d = 4096 * (a / sz d * q) := by
      conv_lhs => rw [show a / sz d * sz d = a / sz d * (4096 * q) by rw [← hq]]
      ring
    rw [e1] at hoff ⊢
    omega


theorem view_data (h : InvG P s ti di rl) {x : Nat} (hx : s.st x = .data) :
    ∃ rp, view s (di x).1 (di x).2 = some (.assigned rp x) := by
  obtain ⟨hr, ha, g, d, rp, pa, hg, htg, he, hxe⟩ := h.data x hx
  have hT := h.tab g hg
  have hent := hT.ent (idx d (di x).2) (idx_lt _ _)
  rw [htg] at hent
  dsimp only at hent
  rw [he] at hent
  obtain ⟨h1, h2, h3, h4, h5⟩ := hent
  have hp := sz_pos d
  have hk : (di x).2 % sz d / 4096 < 512 ^ d := by
    apply Nat.div_lt_of_lt_mul
    exact Nat.mod_lt _ hp
  have hk2 : 4096 * ((di x).2 % sz d / 4096) = (di x).2 % sz d := by
    rw [Nat.mul_comm, Nat.div_mul_cancel]
    exact (Nat.dvd_mod_iff (by rw [← sz_zero]; exact sz_dvd (Nat.zero_le d))).mpr (Nat.dvd_of_mod_eq_zero ha)
  have h6 := (h5 _ hk).2
  rw [hk2, ← hxe] at h6
  generalize hb : al d (di x).2 + idx d (di x).2 * sz d = e at h1 h5 h6
  have h7 : (di x).2 = e + (di x).2 % sz d := by
    have := congrArg Prod.snd h6
    exact this
  have hdep : d ≤ (rdOf s (di x).1).d0 := by have := hT.depth; rw [htg] at this; exact this
  have hea : e % sz d = 0 := by
    rw [← hb]
    have := mod_sz_of_dvd (Nat.le_succ d) (al_mod d (di x).2)
    rw [Nat.add_mod, this, Nat.mul_mod_left]; simp
  have hlt : (di x).2 < (rdOf s (di x).1).parSize :=
    region_below (d := d) (dvd_trans (sz_dvd hdep) (h.rds _ hr).geo.par_dvd) hea h1
      (by have := Nat.mod_lt (di x).2 hp; omega)
  have hpi := (h.rds _ hr).geo.par_le
  have hl := leaf_at h (d := d) (g := g) (rdA := (di x).1) (a := (di x).2) ⟨hr, by omega, hg, htg⟩
    (by rw [he]; intro c; simp)
  refine ⟨rp, ?_⟩
  rw [view_of_leaf hl, he]
  show some (VE.assigned rp (pa + (di x).2 % sz d / 4096 * 4096)) = _
  rw [Nat.mul_comm _ 4096, hk2, ← hxe]

theorem view_some (h : InvG P s ti di rl) {r a : Nat} {v : VE} (hv : view s r a = some v) :
    s.st r = .rd ∧ a < (rdOf s r).ipaSize := by
  have hr : s.st r = .rd := by
    by_contra hn
    unfold view at hv; rw [leaf_not_rd h hn] at hv; cases hv
  refine ⟨hr, ?_⟩
  by_contra hn
  unfold view at hv; rw [leaf_none h hr (by omega)] at hv; cases hv

/-- Which of the entry kinds a page can have, by half. -/
theorem view_half (h : InvG P s ti di rl) {r a : Nat} (hr : s.st r = .rd) (ha : a < (rdOf s r).ipaSize) :
    (a < (rdOf s r).parSize ∧ ((∃ rp, view s r a = some (.unassigned rp)) ∨
        ∃ rp x, view s r a = some (.assigned rp x))) ∨
    ((rdOf s r).parSize ≤ a ∧ (view s r a = some .unassignedNs ∨
        ∃ at_ x, view s r a = some (.assignedNs at_ x))) := by
  obtain ⟨d, g, k, hn, hl⟩ := leaf_ex h hr ha
  rw [view_of_leaf hl]
  have hent := k.ent h
  have hp := sz_pos d
  have hle : a / sz d * sz d ≤ a := Nat.div_mul_le_self _ _
  have hlt : a < a / sz d * sz d + sz d := by
    have := Nat.mod_lt a hp
    have h2 := Nat.div_add_mod a (sz d)
    rw [Nat.mul_comm] at h2; omega
  have hpar : a / sz d * sz d < (rdOf s r).parSize → a < (rdOf s r).parSize := fun h1 =>
    region_below (d := d) (dvd_trans (sz_dvd (k.depth h)) (h.rds r hr).geo.par_dvd) (Nat.mul_mod_left _ _) h1 hlt
  cases he : tabOf s g (idx d a) with
  | table c => exact absurd he (hn c)
  | unassigned rp =>
    rw [he] at hent
    refine Or.inl ⟨?_, Or.inl ⟨rp, rfl⟩⟩
    rcases hent with h1 | ⟨h1, _⟩
    · exact hpar h1
    · omega
  | assigned rp pa =>
    rw [he] at hent
    exact Or.inl ⟨hpar hent.1, Or.inr ⟨rp, _, rfl⟩⟩
  | unassignedNs =>
    rw [he] at hent
    exact Or.inr ⟨le_trans hent.1 hle, Or.inl rfl⟩
  | assignedNs at_ pa =>
    rw [he] at hent
    exact Or.inr ⟨le_trans hent.1 hle, Or.inr ⟨at_, _, rfl⟩⟩

end

/-! ## Helpers for the examples -/

/-- A boolean observation holds in a state reached by a concrete execution. -/
theorem Demo.ex (l : List Op) (p : State → Bool) (h : (run plat boot l).any p = true) :
    ∃ s, Reach plat s ∧ p s = true := by
  cases hr : run plat boot l with
  | none => rw [hr] at h; cases h
  | some s => rw [hr] at h; exact ⟨s, run_reach l (.init boot_init) hr, h⟩

/-- A step from a state reached by a concrete execution has the observed result. -/
theorem Demo.ex_step (l : List Op) (op : Op) (p : State → State → Ret → Bool)
    (h : (run plat boot l).any (fun s => (step plat s op).any (fun x => p s x.1 x.2)) = true) :
    ∃ s s' ret, Reach plat s ∧ step plat s op = some (s', ret) ∧ p s s' ret = true := by
  obtain ⟨s, hr, h⟩ := Demo.ex l _ h
  cases hs : step plat s op with
  | none => rw [hs] at h; cases h
  | some x => rw [hs] at h; exact ⟨s, x.1, x.2, hr, hs, h⟩

section
variable {P : Plat} {s s' : State} {ret : Ret}
open Demo

/-! ## C03 -/

/-- C03: what a protected page translates to is a DATA granule, in the Realm physical
address space. -/
theorem C03_assigned_is_data (hP : PlatOk P) (hr : Reach P s) {r a x : Nat} {rp : Ripas}
    (hv : view s r a = some (.assigned rp x)) :
    s.st r = .rd ∧ a < parOf s r ∧ s.st x = .data ∧ s.pas x = .realm := by
  obtain ⟨ti, di, rl, h⟩ := hr.inv hP
  obtain ⟨h1, h2, h3, _⟩ := view_assigned h hv
  have hn : s.st x ≠ .ns := by rw [h3]; simp
  exact ⟨h1, by rw [← par_eq h h1]; exact h2, h3, (h.gpt x (h.trk x hn)).mp hn⟩

/-- C03: no two pages, of the same or of different realms, share a granule. -/
theorem C03_unique (hP : PlatOk P) (hr : Reach P s) {r a r' a' x : Nat} {rp rp' : Ripas}
    (hv : view s r a = some (.assigned rp x)) (hv' : view s r' a' = some (.assigned rp' x)) :
    r = r' ∧ a / 4096 = a' / 4096 := by
  obtain ⟨ti, di, rl, h⟩ := hr.inv hP
  obtain ⟨_, _, _, h1⟩ := view_assigned h hv
  obtain ⟨_, _, _, h2⟩ := view_assigned h hv'
  rw [h1] at h2
  simp only [Prod.mk.injEq] at h2
  exact ⟨h2.1, by omega⟩

/-- C03: every DATA granule is mapped. -/
theorem C03_exists (hP : PlatOk P) (hr : Reach P s) {x : Nat} (hx : s.st x = .data) :
    ∃ r a rp, view s r a = some (.assigned rp x) := by
  obtain ⟨ti, di, rl, h⟩ := hr.inv hP
  exact ⟨_, _, view_data h hx⟩

example : ∃ s, Reach plat s ∧ (view s (G 16) 4096 == some (.assigned .ram (G 23)) &&
    view s (G 16) 0 == some (.assigned .ram (G 22))) = true :=
  Demo.ex all _ (by decide +kernel)

/-! ## C04 -/

/-- C04: the protected half holds only protected pages. -/
theorem C04_protected_half (hP : PlatOk P) (hr : Reach P s) {r a : Nat} {v : VE} (ha : a < parOf s r)
    (hv : view s r a = some v) : (∃ rp, v = .unassigned rp) ∨ ∃ rp x, v = .assigned rp x := by
  obtain ⟨ti, di, rl, h⟩ := hr.inv hP
  obtain ⟨h1, h2⟩ := view_some h hv
  rw [← par_eq h h1] at ha
  rcases view_half h h1 h2 with ⟨_, ⟨rp, h3⟩ | ⟨rp, x, h3⟩⟩ | ⟨h3, _⟩
  · rw [hv] at h3; cases h3; exact Or.inl ⟨_, rfl⟩
  · rw [hv] at h3; cases h3; exact Or.inr ⟨_, _, rfl⟩
  · omega

/-- C04: the unprotected half holds only unprotected pages. -/
theorem C04_unprotected_half (hP : PlatOk P) (hr : Reach P s) {r a : Nat} {v : VE} (ha : parOf s r ≤ a)
    (hv : view s r a = some v) : v = .unassignedNs ∨ ∃ at_ x, v = .assignedNs at_ x := by
  obtain ⟨ti, di, rl, h⟩ := hr.inv hP
  obtain ⟨h1, h2⟩ := view_some h hv
  rw [← par_eq h h1] at ha
  rcases view_half h h1 h2 with ⟨h3, _⟩ | ⟨_, h3 | ⟨at_, x, h3⟩⟩
  · omega
  · rw [hv] at h3; cases h3; exact Or.inl rfl
  · rw [hv] at h3; cases h3; exact Or.inr ⟨_, _, rfl⟩

/-- C04: every address of a live realm, and no other, is described by its tables. -/
theorem C04_total (hP : PlatOk P) (hr : Reach P s) {r a : Nat} (h0 : s.st r = .rd) :
    (view s r a).isSome = true ↔ a < ipaOf s r := by
  obtain ⟨ti, di, rl, h⟩ := hr.inv hP
  constructor
  · intro hv
    obtain ⟨v, hv⟩ := Option.isSome_iff_exists.mp hv
    exact (view_some h hv).2
  · intro ha
    rcases view_half h h0 ha with ⟨_, ⟨rp, h3⟩ | ⟨rp, x, h3⟩⟩ | ⟨_, h3 | ⟨at_, x, h3⟩⟩ <;> rw [h3] <;> rfl

/-- C04: translations by the hardware: a protected address never reaches Non-secure
memory and an unprotected one never uses the Realm address space. -/
theorem C04_translate (hP : PlatOk P) (hr : Reach P s) {r a pa : Nat} {ns : Bool} (h0 : s.st r = .rd)
    (ht : translate s (rdOf s r) a = some (pa, ns)) :
    (ns = true ↔ parOf s r ≤ a) ∧
    (ns = false → s.st (pa / 4096 * 4096) = .data ∧ s.pas (pa / 4096 * 4096) = .realm) := by
  obtain ⟨ti, di, rl, h⟩ := hr.inv hP
  obtain ⟨_, h2⟩ := translate_spec h h0 ht
  rw [← par_eq h h0]
  rcases h2 with ⟨rfl, h3, h4, _⟩ | ⟨rfl, h3, h4⟩
  · have hn : s.st (pa / 4096 * 4096) ≠ .ns := by rw [h4]; simp
    exact ⟨⟨by simp, by omega⟩, fun _ => ⟨h4, (h.gpt _ (h.trk _ hn)).mp hn⟩⟩
  · exact ⟨⟨fun _ => h3, fun _ => rfl⟩, by simp⟩

example : ∃ s, Reach plat s ∧ (view s (G 16) (2 ^ 32) == some (.assignedNs 0 0x9000) &&
    view s (G 16) (2 ^ 32 - 1) == some (.unassigned .empty) && (view s (G 16) (2 ^ 33)).isNone &&
    translate s (rdOf s (G 16)) (2 ^ 32 + 5) == some (0x9005, true) &&
    translate s (rdOf s (G 16)) 4097 == some (G 23 + 1, false)) = true :=
  Demo.ex all _ (by decide +kernel)

/-! ## C08 -/

/-- C08: RTT_CREATE changes nothing that any realm sees. -/
theorem C08_create (hP : PlatOk P) (hr : Reach P s) {rd rtt a : Nat} {lvl : Int}
    (e : step P s (.rttCreate rd rtt a lvl) = some (s', ret)) (r x : Nat) : view s' r x = view s r x := by
  obtain ⟨ti, di, rl, h⟩ := hr.inv hP
  rcases step_eff hP h e with ⟨rfl, _⟩ | ⟨d, g, e, _, k⟩
  · rfl
  · exact k.view_eq h r x

/-- C08: RTT_FOLD changes nothing that any realm sees. -/
theorem C08_fold (hP : PlatOk P) (hr : Reach P s) {rd a : Nat} {lvl : Int}
    (e : step P s (.rttFold rd a lvl) = some (s', ret)) (r x : Nat) : view s' r x = view s r x := by
  obtain ⟨ti, di, rl, h⟩ := hr.inv hP
  rcases step_eff hP h e with ⟨rfl, _⟩ | ⟨d, g, c, e, _, k⟩
  · rfl
  · exact k.view_eq h r x

example : ∃ s s' ret, Reach plat s ∧ step plat s (.rttCreate (G 16) (G 90) (2 ^ 30) 2) = some (s', ret) ∧
    (ret.status == 0 && s'.st (G 90) == .rtt) = true :=
  Demo.ex_step (all ++ delegates 90 1) _ (fun _ s' ret => ret.status == 0 && s'.st (G 90) == .rtt) (by decide +kernel)

example : ∃ s s' ret, Reach plat s ∧ step plat s (.rttFold (G 16) (2 ^ 30) 2) = some (s', ret) ∧
    (ret.status == 0 && s'.st (G 90) == .delegated) = true :=
  Demo.ex_step (all ++ delegates 90 1 ++ [.rttCreate (G 16) (G 90) (2 ^ 30) 2]) _
    (fun _ s' ret => ret.status == 0 && s'.st (G 90) == .delegated) (by decide +kernel)

/-! ## C09 -/

/-- C09: exactly the addresses of the destroyed table change, to DESTROYED or
UNASSIGNED_NS. -/
theorem C09_effect (hP : PlatOk P) (hr : Reach P s) {rd a : Nat} {lvl : Int}
    (e : step P s (.rttDestroy rd a lvl) = some (s', ret)) (h0 : ret.status = 0) (r x : Nat) :
    view s' r x = if r = rd ∧ a ≤ x ∧ x < a + tableSize lvl
      then (if x < parOf s rd then some (.unassigned .destroyed) else some .unassignedNs)
      else view s r x := by
  obtain ⟨ti, di, rl, h⟩ := hr.inv hP
  obtain ⟨d, g, c, hl, k⟩ := step_eff' hP h e rfl h0
  have hl' := k.leaf_eq h r x
  rw [tableSize_eq hl]
  by_cases hc : r = rd ∧ a ≤ x ∧ x < a + sz (d + 1)
  · rw [if_pos hc] at hl' ⊢
    rw [view_of_leaf hl', ← par_eq h k.ch.at_.rd]
    by_cases hp : a < (rdOf s rd).parSize
    · rw [if_pos hp, if_pos]; · rfl
      exact region_below (d := d + 1)
        (dvd_trans (sz_dvd (k.ch.at_.depth h)) (h.rds rd k.ch.at_.rd).geo.par_dvd) k.ch.al hp hc.2.2
    · rw [if_neg hp, if_neg (by omega)]; rfl
  · rw [if_neg hc] at hl' ⊢
    unfold view; rw [hl']

/-- C09: no protected page of the range was backed by data. -/
theorem C09_not_assigned (hP : PlatOk P) (hr : Reach P s) {rd a : Nat} {lvl : Int}
    (e : step P s (.rttDestroy rd a lvl) = some (s', ret)) (h0 : ret.status = 0) {x y : Nat} {rp : Ripas}
    (h1 : a ≤ x) (h2 : x < a + tableSize lvl) : view s rd x ≠ some (.assigned rp y) := by
  obtain ⟨ti, di, rl, h⟩ := hr.inv hP
  obtain ⟨d, g, c, hl, k⟩ := step_eff' hP h e rfl h0
  rw [tableSize_eq hl] at h2
  obtain ⟨h3, h4⟩ := k.leaf_was h x h1 h2
  rw [view_of_leaf h3]
  intro hc
  obtain ⟨pa, h5, _⟩ := pageView_assigned hc
  rw [h5] at h4
  cases h4

/-- C09: the granule reported to the host was the table and is given back scrubbed. -/
theorem C09_table_returned (hP : PlatOk P) (hr : Reach P s) {rd a : Nat} {lvl : Int}
    (e : step P s (.rttDestroy rd a lvl) = some (s', ret)) (h0 : ret.status = 0) :
    s.st ret.x1 = .rtt ∧ s'.st ret.x1 = .delegated ∧ s'.mem ret.x1 = .page 0 ∧
      ∃ g, s.st g = .rtt ∧ (∃ i, tabOf s g i = .table ret.x1) ∧
        ∀ x, x ≠ ret.x1 → s'.st x = s.st x ∧ (x ≠ g → s'.mem x = s.mem x) := by
  obtain ⟨ti, di, rl, h⟩ := hr.inv hP
  obtain ⟨d, g, c, hl, k⟩ := step_eff' hP h e rfl h0
  rw [k.x1, k.st]
  refine ⟨k.ch.cst, upd_same _ _ _, upd_same _ _ _, g, k.ch.at_.st, ⟨_, k.ch.ent⟩, ?_⟩
  intro x hx
  refine ⟨upd_ne _ _ _ hx, fun hg => ?_⟩
  unfold dropTableSt
  dsimp only
  rw [upd_ne _ _ _ hx, upd_ne _ _ _ hg]

/-- C09: RTT_DESTROY of a table with a mapped data page fails. -/
theorem C09_refused_if_assigned (hP : PlatOk P) (hr : Reach P s) {rd a x y : Nat} {rp : Ripas} {lvl : Int}
    (h1 : a ≤ x) (h2 : x < a + tableSize lvl) (hv : view s rd x = some (.assigned rp y))
    (e : step P s (.rttDestroy rd a lvl) = some (s', ret)) : ret.status ≠ 0 ∧ s' = s := by
  obtain ⟨ti, di, rl, h⟩ := hr.inv hP
  have hn : ret.status ≠ 0 := fun h0 => C09_not_assigned hP hr e h0 h1 h2 hv
  refine ⟨hn, ?_⟩
  rcases step_eff hP h e with ⟨rfl, _⟩ | ⟨d, g, c, _, k⟩
  · rfl
  · exact absurd k.status hn

example : ∃ s s' ret, Reach plat s ∧ step plat s (.rttDestroy (G 16) (2 ^ 32) 3) = some (s', ret) ∧
    (ret.status == 0 && view s (G 16) (2 ^ 32) == some (.assignedNs 0 0x9000)) = true :=
  Demo.ex_step all _ (fun s _ ret => ret.status == 0 && view s (G 16) (2 ^ 32) == some (.assignedNs 0 0x9000))
    (by decide +kernel)

example : ∃ s s' ret, Reach plat s ∧ step plat s (.rttDestroy (G 16) 0 3) = some (s', ret) ∧
    (ret.status == 0 && view s (G 16) 0 == some (.unassigned .empty)) = true :=
  Demo.ex_step mkRealm _ (fun s _ ret => ret.status == 0 && view s (G 16) 0 == some (.unassigned .empty))
    (by decide +kernel)

/-! ## C10 -/

/-- C10: DATA_CREATE_UNKNOWN maps zeroed memory, keeps the RIPAS and changes one page. -/
theorem C10_data_create_unknown (hP : PlatOk P) (hr : Reach P s) {rd data a : Nat}
    (e : step P s (.dataCreateUnknown rd data a) = some (s', ret)) (h0 : ret.status = 0) :
    a % 4096 = 0 ∧ a < parOf s rd ∧ s.st data = .delegated ∧ s'.st data = .data ∧ s'.mem data = .page 0 ∧
    ∃ rp, view s rd a = some (.unassigned rp) ∧
      ∀ r x, view s' r x = if r = rd ∧ a ≤ x ∧ x < a + 4096 then some (.assigned rp data) else view s r x := by
  obtain ⟨ti, di, rl, h⟩ := hr.inv hP
  obtain ⟨g, rp, k, _, rfl⟩ := step_eff' hP h e rfl h0
  have hgd : data ≠ g := ne_of_st k.del k.at_.st (by simp)
  refine ⟨k.al, by rw [← par_eq h k.at_.rd]; exact k.par, k.del, upd_same _ _ _, ?_, rp, ?_, ?_⟩
  · unfold dataCreateSt; dsimp only; rw [upd_ne _ _ _ hgd, h.delPage _ k.del]
  · rw [view_of_leaf (leaf_at h k.at_ (by rw [k.ent]; intro c; simp)), k.ent]; rfl
  · intro r x
    have hl := leaf_dataCreateUnknown hP h k r x
    by_cases hc : r = rd ∧ a ≤ x ∧ x < a + 4096
    · rw [if_pos hc] at hl ⊢
      rw [view_of_leaf hl]
      have : x % sz 0 / 4096 * 4096 = 0 := by rw [sz_zero]; omega
      simp only [pageView, this, Nat.add_zero]
    · rw [if_neg hc] at hl ⊢
      unfold view; rw [hl]

/-- C10: DATA_CREATE needs a NEW realm, maps a copy of the source page as RAM, adds the
measurement of the page, and changes one page. -/
theorem C10_data_create (hP : PlatOk P) (hr : Reach P s) {rd data a src flags : Nat}
    (e : step P s (.dataCreate rd data a src flags) = some (s', ret)) (h0 : ret.status = 0) :
    a % 4096 = 0 ∧ a < parOf s rd ∧ s.st data = .delegated ∧ s'.st data = .data ∧
    (rdOf s rd).state = .new ∧ s.st src = .ns ∧
    ∃ p, s.mem src = .page p ∧ s'.mem data = .page p ∧
      (rdOf s' rd).rim = (rdOf s rd).rim ++ [.data a (if flags = 1 then some p else none)] ∧
    ∃ rp, view s rd a = some (.unassigned rp) ∧
      ∀ r x, view s' r x = if r = rd ∧ a ≤ x ∧ x < a + 4096 then some (.assigned .ram data) else view s r x := by
  obtain ⟨ti, di, rl, h⟩ := hr.inv hP
  obtain ⟨g, rp, p, k, _, _, hnew, hsrc, _, hp, rfl⟩ := step_eff' hP h e rfl h0
  have hgd : data ≠ g := ne_of_st k.del k.at_.st (by simp)
  have hrd : data ≠ rd := ne_of_st k.del k.at_.rd (by simp)
  have hgr : rd ≠ g := ne_of_st k.at_.rd k.at_.st (by simp)
  refine ⟨k.al, by rw [← par_eq h k.at_.rd]; exact k.par, k.del, upd_same _ _ _, hnew, hsrc, p, hp, ?_, ?_, rp, ?_, ?_⟩
  · unfold dataCreatedSt dataCreateSt; dsimp only; rw [upd_ne _ _ _ hgd, upd_ne _ _ _ hrd, upd_same]
  · have : (dataCreatedSt s rd data a g p flags).mem rd = .rd { rdOf s rd with
        rim := (rdOf s rd).rim ++ [MeasEv.data a (if flags = 1 then some p else none)] } := by
      unfold dataCreatedSt dataCreateSt
      dsimp only
      rw [upd_ne _ _ _ hgr, upd_same]
    rw [rdOf_of_mem this]
  · rw [view_of_leaf (leaf_at h k.at_ (by rw [k.ent]; intro c; simp)), k.ent]; rfl
  · intro r x
    have hl := leaf_dataCreate (p := p) (flags := flags) hP h k r x
    by_cases hc : r = rd ∧ a ≤ x ∧ x < a + 4096
    · rw [if_pos hc] at hl ⊢
      rw [view_of_leaf hl]
      have : x % sz 0 / 4096 * 4096 = 0 := by rw [sz_zero]; omega
      simp only [pageView, this, Nat.add_zero]
    · rw [if_neg hc] at hl ⊢
      unfold view; rw [hl]

example : ∃ s s' ret, Reach plat s ∧ step plat s (.dataCreateUnknown (G 16) (G 90) 8192) = some (s', ret) ∧
    (ret.status == 0) = true :=
  Demo.ex_step (all ++ delegates 90 1) _ (fun _ _ ret => ret.status == 0) (by decide +kernel)

example : ∃ s s' ret, Reach plat s ∧ step plat s (.dataCreate (G 16) (G 90) 8192 (G 5) 1) = some (s', ret) ∧
    (ret.status == 0 && s'.mem (G 90) matches .page 0x5000) = true :=
  Demo.ex_step (all ++ delegates 90 1) _ (fun _ s' ret => ret.status == 0 && s'.mem (G 90) matches .page 0x5000)
    (by decide +kernel)

/-! ## C11 -/

/-- C11: DATA_DESTROY takes away exactly one page, reports its granule and scrubs it. -/
theorem C11_data_destroy (hP : PlatOk P) (hr : Reach P s) {rd a : Nat}
    (e : step P s (.dataDestroy rd a) = some (s', ret)) (h0 : ret.status = 0) :
    a % 4096 = 0 ∧ a < parOf s rd ∧ s'.st ret.x1 = .delegated ∧ s'.mem ret.x1 = .page 0 ∧
    ∃ rp, view s rd a = some (.assigned rp ret.x1) ∧
      ∀ r x, view s' r x = if r = rd ∧ a ≤ x ∧ x < a + 4096
        then some (.unassigned (if rp = .ram then .destroyed else rp)) else view s r x := by
  obtain ⟨ti, di, rl, h⟩ := hr.inv hP
  obtain ⟨g, pa, rp, k⟩ := step_eff' hP h e rfl h0
  have hx1 : ret.x1 = pa := by rw [k.ret]
  rw [hx1]
  refine ⟨k.al, by rw [← par_eq h k.at_.rd]; exact k.par, by rw [k.st]; exact upd_same _ _ _,
    by rw [k.st]; exact upd_same _ _ _, rp, ?_, ?_⟩
  · rw [view_of_leaf (leaf_at h k.at_ (by rw [k.ent]; intro c; simp)), k.ent]
    have : a % sz 0 / 4096 * 4096 = 0 := by rw [sz_zero]; omega
    simp only [pageView, this, Nat.add_zero]
  · intro r x
    have hl := k.leaf h r x
    by_cases hc : r = rd ∧ a ≤ x ∧ x < a + 4096
    · rw [if_pos hc] at hl ⊢
      rw [view_of_leaf hl]
      cases rp <;> rfl
    · rw [if_neg hc] at hl ⊢
      unfold view; rw [hl]

example : ∃ s s' ret, Reach plat s ∧ step plat s (.dataDestroy (G 16) 0) = some (s', ret) ∧
    (ret.status == 0 && ret.x1 == G 22 && ret.x2 == 4096) = true :=
  Demo.ex_step all _ (fun _ _ ret => ret.status == 0 && ret.x1 == G 22 && ret.x2 == 4096) (by decide +kernel)

/-! ## C13 -/

/-- The measurement events of RTT_INIT_RIPAS: one for each entry of size `n`. -/
def ripasEvents (n base : Nat) (m : Nat) : List MeasEv :=
  (List.range m).map fun i => .ripas (base + i * n) (base + (i + 1) * n)

theorem ripasEvs_eq (d : Nat) : ∀ m base, ripasEvs d base m = ripasEvents (sz d) base m := by
  intro m base
  unfold ripasEvs ripasEvents
  apply List.map_congr_left
  intro i _
  simp [Nat.add_mul, Nat.add_assoc]

/-- C13: RTT_INIT_RIPAS needs a NEW realm, makes progress but not beyond `top`, turns exactly the
EMPTY pages below the reported address into RAM, and measures every entry processed. -/
theorem C13_init_ripas (hP : PlatOk P) (hr : Reach P s) {rd base top : Nat}
    (e : step P s (.rttInitRipas rd base top) = some (s', ret)) (h0 : ret.status = 0) :
    (rdOf s rd).state = .new ∧ base < ret.x1 ∧ ret.x1 ≤ top ∧ top ≤ parOf s rd ∧
    (∀ x, base ≤ x → x < ret.x1 →
      view s rd x = some (.unassigned .empty) ∨ view s rd x = some (.unassigned .ram)) ∧
    (∀ r x, view s' r x = if r = rd ∧ base ≤ x ∧ x < ret.x1 then some (.unassigned .ram) else view s r x) ∧
    ∃ lvl : Int, ∃ m, ret.x1 = base + m * entrySize lvl ∧
      (rdOf s' rd).rim = (rdOf s rd).rim ++ ripasEvents (entrySize lvl) base m ∧
      ∀ x, x ≠ rd → s'.st x ≠ .rtt → s'.mem x = s.mem x := by
  obtain ⟨ti, di, rl, h⟩ := hr.inv hP
  obtain ⟨d, g, m, k⟩ := step_eff' hP h e rfl h0
  have hx1 : ret.x1 = base + m * sz d := by rw [k.ret]
  rw [hx1]
  have hp := sz_pos d
  have hm : sz d ≤ m * sz d := by
    have := Nat.mul_le_mul_right (sz d) k.m1
    omega
  have hpar := par_eq h k.at_.rd
  have hle := k.le
  have htop := k.par
  have hpi := (h.rds rd k.at_.rd).geo.par_le
  have hm2 := k.m2
  have hm1 := k.m1
  have hper : perTab d ≤ 512 := by unfold perTab; split <;> omega
  -- the leaves of the processed range
  have hin : ∀ x, base ≤ x → x < base + m * sz d → ∃ j, idx d base ≤ j ∧ j < idx d base + m ∧
      leaf s rd x = some (tabOf s g j, d) := by
    intro x h1 h2
    have hx : x < 2 ^ 52 := by
      have := (h.rds rd k.at_.rd).geo.ipa_lt
      omega
    obtain ⟨q, hq⟩ : ∃ q, q = (x - base) / sz d := ⟨_, rfl⟩
    have hdm := Nat.div_add_mod (x - base) (sz d)
    have hmm := Nat.mod_lt (x - base) hp
    rw [← hq] at hdm
    have hqm : q < m := by rw [hq, Nat.div_lt_iff_lt_mul hp]; omega
    have hreg : al d base + idx d base * sz d = base := by
      rw [al_add d base (k.at_.lt52 h)]; exact div_mul_of_mod k.al
    have hio := (at_entry h k.at_ hx (idx d base + q) (by omega)).mp (by
      rw [Nat.add_mul, ← Nat.add_assoc, hreg, Nat.mul_comm q]
      constructor <;> omega)
    refine ⟨idx d base + q, by omega, by omega, ?_⟩
    have hw := k.was (idx d base + q) (by omega) (by omega)
    have := leaf_at h (d := d) (g := g) (rdA := rd) (a := x)
      ⟨k.at_.rd, by omega, k.at_.st, by rw [k.at_.ti, hio.1]⟩
      (by rw [hio.2]; intro c hc; rw [hc] at hw; cases hw)
    rw [this, hio.2]
  refine ⟨k.new, by omega, hle, by rw [← hpar]; exact htop, ?_, ?_, 3 - (d : Int), m, ?_, ?_, ?_⟩
  · intro x h1 h2
    obtain ⟨j, h3, h4, h5⟩ := hin x h1 h2
    have hw := k.was j h3 h4
    rw [view_of_leaf h5]
    revert hw
    cases tabOf s g j with
    | unassigned rp => cases rp <;> simp [Entry.initable, pageView]
    | _ => simp [Entry.initable]
  · intro r x
    have hl := leaf_init h k r x
    by_cases hc : r = rd ∧ base ≤ x ∧ x < base + m * sz d
    · rw [if_pos hc] at hl ⊢
      obtain ⟨rfl, h1, h2⟩ := hc
      obtain ⟨j, _, _, h5⟩ := hin x h1 h2
      rw [h5] at hl
      rw [view_of_leaf hl]; rfl
    · rw [if_neg hc] at hl ⊢
      unfold view; rw [hl]
  · rw [entrySize_eq rfl]
  · have hmem : s'.mem rd = .rd { rdOf s rd with rim := (rdOf s rd).rim ++ ripasEvs d base m } := by
      rw [k.st]; exact upd_same _ _ _
    rw [rdOf_of_mem hmem, entrySize_eq rfl, ← ripasEvs_eq]
  · intro x hx hst
    rw [k.st] at hst ⊢
    dsimp only at hst ⊢
    rw [upd_ne _ _ _ hx, upd_ne]
    rintro rfl
    exact hst k.at_.st

/-- C13: RTT_INIT_RIPAS fails with no effect once the realm is not NEW. -/
theorem C13_not_new (hP : PlatOk P) (hr : Reach P s) {rd base top : Nat}
    (e : step P s (.rttInitRipas rd base top) = some (s', ret)) (h0 : (rdOf s rd).state ≠ .new) :
    ret.status ≠ 0 ∧ s' = s := by
  obtain ⟨ti, di, rl, h⟩ := hr.inv hP
  rcases step_eff hP h e with ⟨h1, h2⟩ | ⟨d, g, m, k⟩
  · exact ⟨h2 rfl, h1⟩
  · exact absurd k.new h0

example : ∃ s s' ret, Reach plat s ∧ step plat s (.rttInitRipas (G 16) 8192 (2 ^ 21)) = some (s', ret) ∧
    (ret.status == 0 && ret.x1 == 2 ^ 21 && view s (G 16) 20480 == some (.unassigned .empty)) = true :=
  Demo.ex_step all _ (fun s _ ret => ret.status == 0 && ret.x1 == 2 ^ 21 &&
    view s (G 16) 20480 == some (.unassigned .empty)) (by decide +kernel)

/-! ## C14 -/

/-- C14: RTT_SET_RIPAS works on the pending request of an idle REC of the realm, changes RIPAS
only from its progress address up to the reported address, to the requested value, does
not touch DESTROYED pages unless the realm asked for it, and records the progress. -/
theorem C14_set_ripas (hP : PlatOk P) (hr : Reach P s) {rd rec_ base top : Nat}
    (e : step P s (.rttSetRipas rd rec_ base top) = some (s', ret)) (h0 : ret.status = 0) :
    s.st rec_ = .recd ∧ (recOf s rec_).rd = rd ∧ s.rc rec_ = 0 ∧
    base = (recOf s rec_).sr.addr ∧ base < ret.x1 ∧ ret.x1 ≤ top ∧ top ≤ (recOf s rec_).sr.top ∧
    recOf s' rec_ = { recOf s rec_ with sr := { (recOf s rec_).sr with addr := ret.x1 } } ∧
    (∀ x, base ≤ x → x < ret.x1 →
      ∃ old, (old ≠ .destroyed ∨ (recOf s rec_).sr.chg = true) ∧
        ((view s rd x = some (.unassigned old) ∧ view s' rd x = some (.unassigned (recOf s rec_).sr.ripas)) ∨
         ∃ y, view s rd x = some (.assigned old y) ∧ view s' rd x = some (.assigned (recOf s rec_).sr.ripas y))) ∧
    (∀ r x, ¬ (r = rd ∧ base ≤ x ∧ x < ret.x1) → view s' r x = view s r x) := by
  obtain ⟨ti, di, rl, h⟩ := hr.inv hP
  obtain ⟨d, g, m, k⟩ := step_eff' hP h e rfl h0
  have hx1 := k.x1
  rw [hx1]
  have hp := sz_pos d
  have hm : sz d ≤ m * sz d := by
    have := Nat.mul_le_mul_right (sz d) k.m1
    omega
  have hle := k.le
  have htop := k.topLe
  have hsr := (h.recs rec_ k.rst).sr
  have hsrp := hsr.par
  rw [k.own] at hsrp
  have hpi := (h.rds rd k.at_.rd).geo.par_le
  have hm2 := k.m2
  have hm1 := k.m1
  have hmem : s'.mem rec_ = .recd { recOf s rec_ with sr := { (recOf s rec_).sr with addr := base + m * sz d } } := by
    rw [k.st]; exact upd_same _ _ _
  refine ⟨k.rst, k.own, k.idle, k.addr, by omega, hle, htop, recOf_of_mem hmem, ?_, ?_⟩
  · intro x h1 h2
    have hx : x < 2 ^ 52 := by
      have := (h.rds rd k.at_.rd).geo.ipa_lt
      omega
    obtain ⟨q, hq⟩ : ∃ q, q = (x - base) / sz d := ⟨_, rfl⟩
    have hdm := Nat.div_add_mod (x - base) (sz d)
    have hmm := Nat.mod_lt (x - base) hp
    rw [← hq] at hdm
    have hqm : q < m := by rw [hq, Nat.div_lt_iff_lt_mul hp]; omega
    have hreg : al d base + idx d base * sz d = base := by
      rw [al_add d base (k.at_.lt52 h)]; exact div_mul_of_mod k.al
    have hio := (at_entry h k.at_ hx (idx d base + q) (by omega)).mp (by
      rw [Nat.add_mul, ← Nat.add_assoc, hreg, Nat.mul_comm q]
      constructor <;> omega)
    have hw := k.can (idx d base + q) (by omega) (by omega)
    have h5 := leaf_at h (d := d) (g := g) (rdA := rd) (a := x)
      ⟨k.at_.rd, by omega, k.at_.st, by rw [k.at_.ti, hio.1]⟩
      (by rw [hio.2]; intro c hc; rw [hc] at hw; cases hw)
    rw [hio.2] at h5
    have hl := leaf_set h k rd x
    rw [if_pos ⟨rfl, h1, h2⟩, h5] at hl
    rw [view_of_leaf h5, view_of_leaf hl]
    have hnd := hsr.ripas
    revert hw hnd
    generalize (recOf s rec_).sr.ripas = v
    generalize (recOf s rec_).sr.chg = c
    cases tabOf s g (idx d base + q) with
    | unassigned o => cases v <;> cases o <;> cases c <;> simp [updateRipas, Entry.setRipas, pageView]
    | assigned o pa => cases v <;> cases o <;> cases c <;> simp [updateRipas, Entry.setRipas, pageView]
    | _ => simp [updateRipas]
  · intro r x hc
    have hl := leaf_set h k r x
    rw [if_neg hc] at hl
    unfold view; rw [hl]

/-- The realm gives back its first two pages; the host carries it out in one go. -/
example : ∃ s s' ret, Reach plat s ∧ step plat s (.rttSetRipas (G 16) (G 32) 0 8192) = some (s', ret) ∧
    (decide (ret.status = 0) && decide (ret.x1 = 8192) && decide (view s (G 16) 4096 = some (.assigned .ram (G 23)))
      && decide (view s' (G 16) 4096 = some (.assigned .empty (G 23)))) = true :=
  Demo.ex_step (all ++ [.realmActivate (G 16), .recEnter (G 32) (G 2) true false,
    .rsiIpaStateSet (G 32) 0 8192 .empty false]) _ _ (by decide +kernel)

end
end Verif.Rmm
