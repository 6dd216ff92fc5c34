import Verif.Rmm.PresTab

/-!
# The RMM machine: the invariant is kept by (un)delegation and by creating and destroying realms
-/

namespace Verif.Rmm

section
variable {P : Plat} {s : State} {ti : Nat → TabInfo} {di : Nat → Nat × Nat} {rl : Nat → List Nat}

/-! ## Delegation -/

/-- One granule outside every realm changes between NS and DELEGATED. -/
theorem inv_flip (h : InvG P s ti di rl) (a : Nat) (x : GSt) (c : Content) (q : Pas)
    (ha : s.st a = .ns ∨ s.st a = .delegated) (ht : P.tracked a = true)
    (hx : (x = .ns ∧ q ≠ .realm ∧ ∃ p, c = .page p) ∨ (x = .delegated ∧ q = .realm ∧ c = .page 0)) :
    InvG P { s with st := upd s.st a x, mem := upd s.mem a c, pas := upd s.pas a q } ti di rl := by
  generalize hs' : ({ s with st := upd s.st a x, mem := upd s.mem a c, pas := upd s.pas a q } : State) = s'
  have st_ne : ∀ b, b ≠ a → s'.st b = s.st b := fun b hb => by rw [← hs']; exact upd_ne _ _ _ hb
  have st_eq : s'.st a = x := by rw [← hs']; exact upd_same _ _ _
  have mem_ne : ∀ b, b ≠ a → s'.mem b = s.mem b := fun b hb => by rw [← hs']; exact upd_ne _ _ _ hb
  have mem_eq : s'.mem a = c := by rw [← hs']; exact upd_same _ _ _
  have pas_ne : ∀ b, b ≠ a → s'.pas b = s.pas b := fun b hb => by rw [← hs']; exact upd_ne _ _ _ hb
  have pas_eq : s'.pas a = q := by rw [← hs']; exact upd_same _ _ _
  have rc_eq : ∀ b, s'.rc b = s.rc b := fun b => by rw [← hs']
  have ne_of : ∀ b, s.st b ≠ .ns → s.st b ≠ .delegated → b ≠ a := by
    rintro b h1 h2 rfl; rcases ha with h | h <;> contradiction
  have st_of : ∀ b, s.st b ≠ .ns → s.st b ≠ .delegated → s'.st b = s.st b := fun b h1 h2 =>
    st_ne b (ne_of b h1 h2)
  have hxs : x = .ns ∨ x = .delegated := by rcases hx with h | h <;> simp [h.1]
  have ge : ∀ b y, s'.st b = y → y ≠ .ns → y ≠ .delegated → s.st b = y ∧ b ≠ a := by
    intro b y hb h1 h2
    by_cases hba : b = a
    · subst hba; rw [st_eq] at hb; rcases hxs with h | h <;> simp_all
    · rw [st_ne b hba] at hb; exact ⟨hb, hba⟩
  refine inv_tabs h ?_ ?_ (by rw [← hs']) ?_ ?_ ?_ ?_ ?_ ?_ ?_ ?_ ?_
  · intro b
    by_cases hba : b = a
    · subst hba; rw [st_eq]; rcases hxs with h | h <;> rcases ha with h' | h' <;> rw [h, h'] <;> simp
    · rw [st_ne b hba]; simp
  · intro b hb
    refine ⟨mem_ne b (ne_of b ?_ ?_), rc_eq b⟩ <;> rcases hb with h | h | h <;> simp [h]
  · intro g hg _; exact ⟨(st_of g (by simp [hg]) (by simp [hg])).trans hg, rfl⟩
  · intro b hb
    by_cases hba : b = a
    · subst hba; exact ht
    · rw [st_ne b hba] at hb; exact h.trk b hb
  · intro b hb
    by_cases hba : b = a
    · subst hba; rw [st_eq, pas_eq]
      rcases hx with ⟨rfl, h2, _⟩ | ⟨rfl, rfl, _⟩ <;> simp [*]
    · rw [st_ne b hba, pas_ne b hba]; exact h.gpt b hb
  · intro b hb
    by_cases hba : b = a
    · subst hba
      rw [st_eq] at hb
      rcases hx with ⟨_, _, h2⟩ | ⟨h1, _⟩
      · rw [mem_eq]; exact h2
      · rw [h1] at hb; simp at hb
    · rw [st_ne b hba] at hb; rw [mem_ne b hba]; exact h.nsPage b hb
  · intro b hb
    by_cases hba : b = a
    · subst hba
      rw [st_eq] at hb
      rcases hx with ⟨h1, _⟩ | ⟨_, _, h2⟩
      · rw [h1] at hb; simp at hb
      · rw [mem_eq]; exact h2
    · rw [st_ne b hba] at hb; rw [mem_ne b hba]; exact h.delPage b hb
  · intro b hb
    obtain ⟨h1, h2⟩ := ge b _ hb (by simp) (by simp)
    rw [mem_ne b h2]; exact h.dataPage b h1
  · intro b hb
    rw [rc_eq]
    by_cases hba : b = a
    · subst hba; exact h.rc0 b (by rcases ha with h | h <;> simp [h])
    · rw [st_ne b hba] at hb; exact h.rc0 b (by rcases hb with h | h | h <;> simp [h])
  · intro g hg
    obtain ⟨h1, h2⟩ := ge g _ hg (by simp) (by simp)
    have hT := h.tab g h1
    have hr : rdOf s' (ti g).rd = rdOf s (ti g).rd := by
      unfold rdOf getRd; rw [mem_ne _ (ne_of _ (by simp [hT.rd]) (by simp [hT.rd]))]
    refine hT.frame (mem_ne g h2) rfl (rc_eq g) ((st_of _ (by simp [hT.rd]) (by simp [hT.rd])).trans hT.rd)
      (by rw [hr]; exact SameGeo.refl _) ?_ ?_ ?_
    · intro p hp he
      refine ⟨(st_of _ (by simp [hp]) (by simp [hp])).trans hp, rfl, ?_⟩
      unfold tabOf getTab; rw [mem_ne _ (ne_of _ (by simp [hp]) (by simp [hp]))]; exact he
    · intro _ _ c _ hc; exact ⟨(st_of _ (by simp [hc]) (by simp [hc])).trans hc, rfl⟩
    · intro _ _ _ _ _ _ _ hc; exact ⟨(st_of _ (by simp [hc]) (by simp [hc])).trans hc, rfl⟩
  · intro b hb
    obtain ⟨h1, h2⟩ := ge b _ hb (by simp) (by simp)
    obtain ⟨c1, c2, g, d, rp, pa, c3, c4, c5, c6⟩ := h.data b h1
    refine ⟨(st_of _ (by simp [c1]) (by simp [c1])).trans c1, c2, g, d, rp, pa,
      (st_of _ (by simp [c3]) (by simp [c3])).trans c3, c4, ?_, c6⟩
    unfold tabOf getTab; rw [mem_ne _ (ne_of _ (by simp [c3]) (by simp [c3]))]; exact c5

theorem granuleDelegate_spec (a : Nat) :
    ∃ s' ret, granuleDelegate P s a = some (s', ret) ∧
      ((s' = s ∧ ret.status ≠ 0) ∨
       (P.tracked a = true ∧ s.st a = .ns ∧ s.pas a = .ns ∧ ret = {} ∧
        s' = { s with
          st := upd s.st a .delegated
          mem := upd s.mem a (.page 0)
          pas := upd s.pas a .realm })) := by
  unfold granuleDelegate
  by_cases h1 : lk P s a .ns = true
  · rw [if_pos h1]
    by_cases h2 : s.pas a = .ns
    · rw [if_pos h2]; rw [lk_iff] at h1; exact ⟨_, _, rfl, Or.inr ⟨h1.1, h1.2, h2, rfl, rfl⟩⟩
    · rw [if_neg h2]; exact ⟨_, _, rfl, Or.inl ⟨rfl, by decide⟩⟩
  · rw [if_neg h1]; exact ⟨_, _, rfl, Or.inl ⟨rfl, by decide⟩⟩

theorem granuleUndelegate_spec (h : InvG P s ti di rl) (a : Nat) :
    ∃ s' ret, granuleUndelegate P s a = some (s', ret) ∧
      ((s' = s ∧ ret.status ≠ 0) ∨
       (P.tracked a = true ∧ s.st a = .delegated ∧ ret = {} ∧
        s' = { s with st := upd s.st a .ns, pas := upd s.pas a .ns })) := by
  unfold granuleUndelegate
  by_cases h1 : lk P s a .delegated = true
  · rw [if_pos h1]
    rw [lk_iff] at h1
    have h2 : s.pas a = .realm := (h.gpt a h1.1).mp (by rw [h1.2]; simp)
    rw [if_pos h2]; exact ⟨_, _, rfl, Or.inr ⟨h1.1, h1.2, rfl, rfl⟩⟩
  · rw [if_neg h1]; exact ⟨_, _, rfl, Or.inl ⟨rfl, by decide⟩⟩

theorem inv_delegate (h : InvG P s ti di rl) {a : Nat} (ht : P.tracked a = true) (ha : s.st a = .ns) :
    InvG P { s with
      st := upd s.st a .delegated
      mem := upd s.mem a (.page 0)
      pas := upd s.pas a .realm } ti di rl :=
  inv_flip h a _ _ _ (Or.inl ha) ht (Or.inr ⟨rfl, rfl, rfl⟩)

theorem inv_undelegate (h : InvG P s ti di rl) {a : Nat} (ht : P.tracked a = true) (ha : s.st a = .delegated) :
    InvG P { s with st := upd s.st a .ns, pas := upd s.pas a .ns } ti di rl := by
  have := inv_flip h a .ns (.page 0) .ns (Or.inr ha) ht (Or.inl ⟨rfl, by simp, _, rfl⟩)
  have e : upd s.mem a (.page 0) = s.mem := by
    rw [← h.delPage a ha]; exact upd_self _ _
  rw [e] at this
  exact this

/-! ## REALM_CREATE -/

theorem inRange_iff (b n a : Nat) : inRange b n a = true ↔ ∃ j < n, a = b + 4096 * j := by
  unfold inRange; simp

theorem rangeIdx_eq (b j : Nat) : rangeIdx b (b + 4096 * j) = j := by
  unfold rangeIdx; omega

/-- Starting-level entry `i` of root table `j`. -/
def rootSpec (r : Rd) (e : Nat) : Entry :=
  if e < r.parSize then .unassigned .empty else if e < r.ipaSize then .unassignedNs else .unassigned .empty

theorem sz_entrySize (sl : Int) (h : sl ≤ 3) : Geometry.entrySize sl = sz (dOf sl) := rfl

theorem legal_geo {w bits n : Nat} {sl : Int} {lp : Bool} (hg : Geometry.Legal w bits sl lp n) {r : Rd}
    (h1 : r.d0 = dOf sl) (h2 : r.ipaBits = bits) (h3 : r.nroots = n) (h4 : r.lpa2 = lp) :
    Geo r ∧ ∃ ts, Geometry.initStartingLevel bits sl n = some ts ∧
      ∀ j < n, ∀ i < 512, rootEntry (ts j i) = rootSpec r (j * sz (dOf sl + 1) + i * sz (dOf sl)) := by
  obtain ⟨hw, hl, -, e, h5, he, hc⟩ := hg
  have hsz : Geometry.entrySize sl = sz (dOf sl) := sz_entrySize sl hl.2
  have hpos := sz_pos (dOf sl)
  have he2 : ∃ m, e = 2 * m := by
    have hp : 2 ^ bits = 2 ^ (bits - 1) * 2 := by
      conv_lhs => rw [show bits = (bits - 1) + 1 by omega, Nat.pow_succ]
    rw [← Geometry.pow_lsb] at he
    obtain ⟨hle, rfl⟩ := Geometry.pow_split he
    have : Geometry.lsb sl ≠ bits := by
      rintro hh; rw [hh] at h5; simp at h5
    refine ⟨2 ^ (bits - Geometry.lsb sl - 1), ?_⟩
    conv_lhs => rw [show bits - Geometry.lsb sl = (bits - Geometry.lsb sl - 1) + 1 by omega, Nat.pow_succ]
    omega
  obtain ⟨m, rfl⟩ := he2
  rw [hsz] at he
  have hi : r.ipaSize = 2 * m * sz (dOf sl) := by unfold Rd.ipaSize; rw [h2, he]
  have hpar : r.parSize = m * sz (dOf sl) := by
    unfold Rd.parSize; rw [hi]
    rw [show 2 * m * sz (dOf sl) = m * sz (dOf sl) * 2 by ring]; exact Nat.mul_div_cancel _ (by omega)
  have hd4 : dOf sl = 4 ↔ sl = -1 := by unfold dOf; omega
  constructor
  · refine ⟨?_, ?_, by omega, ⟨m, by omega, by rw [hpar, h1], by rw [hi, h1], ?_, ?_, ?_⟩, ?_⟩
    · rw [h1, h4]; unfold dOf
      cases lp
      · simp at hl ⊢; omega
      · simp at hl ⊢; omega
    · rw [h2, h4]; exact hw.2
    · rw [h3]
      rcases hc with ⟨hc, rfl⟩ | ⟨_, hc, _⟩
      · split at hc <;> omega
      · omega
    · rw [h3]
      rcases hc with ⟨hc, rfl⟩ | ⟨_, hc, _⟩
      · omega
      · omega
    · intro hd
      rw [h1, hd4] at hd
      rcases hc with ⟨hc, _⟩ | ⟨_, _, _, hc⟩
      · rw [if_pos hd] at hc; exact hc
      · omega
    · rw [h3]
      rcases hc with ⟨_, rfl⟩ | ⟨_, hc, _⟩ <;> omega
  · have hfit : 2 * m ≤ n * Geometry.perTable sl := by
      unfold Geometry.perTable
      rcases hc with ⟨hc, rfl⟩ | ⟨-, hc, -, hs⟩
      · omega
      · rw [if_neg (by omega)]; omega
    obtain ⟨ts, t1, t2⟩ := Geometry.initTables_spec (2 ^ bits / 2) (2 ^ bits) (2 ^ Geometry.lsb sl)
      (Geometry.perTable sl) (Nat.two_pow_pos _) (by unfold Geometry.perTable; split <;> omega) n 0 0
      (fun _ _ => .untouched) (2 * m) (by rw [Geometry.pow_lsb, hsz]; omega) (by omega) hfit
    refine ⟨ts, t1, ?_⟩
    intro j hj i hi512
    have hper : (2 : Nat) ^ bits / 2 = m * sz (dOf sl) := by
      rw [he, show 2 * m * sz (dOf sl) = m * sz (dOf sl) * 2 by ring]; exact Nat.mul_div_cancel _ (by omega)
    rw [t2, hper, Geometry.pow_lsb, hsz]
    have e1 : j * sz (dOf sl + 1) + i * sz (dOf sl) = (j * 512 + i) * sz (dOf sl) := by
      rw [sz_succ]; ring
    unfold rootSpec
    rw [e1, hi, hpar]
    have c1 : ∀ x y : Nat, x * sz (dOf sl) < y * sz (dOf sl) ↔ x < y := fun x y => Nat.mul_lt_mul_right hpos
    simp only [Nat.zero_le, Nat.sub_zero, Nat.zero_add, true_and, c1]
    unfold Geometry.perTable
    by_cases hm1 : sl = -1
    · rw [if_pos hm1]
      have hn : n = 1 ∧ 2 * m ≤ 16 := by
        rcases hc with ⟨hc, hn⟩ | ⟨_, _, _, hc⟩
        · rw [if_pos hm1] at hc; exact ⟨hn, hc⟩
        · omega
      have hj0 : j = 0 := by omega
      subst hj0
      by_cases h1 : i < 16 ∧ 0 * 16 + i < 2 * m
      · rw [if_pos h1]
        by_cases h2 : 0 * 16 + i < m
        · rw [if_pos h2, if_pos (by omega)]; rfl
        · rw [if_neg h2, if_neg (by omega), if_pos (by omega)]; rfl
      · rw [if_neg h1]
        rw [if_neg (by omega), if_neg (by omega)]; rfl
    · rw [if_neg hm1]
      by_cases h1 : i < 512 ∧ j * 512 + i < 2 * m
      · rw [if_pos h1]
        by_cases h2 : j * 512 + i < m
        · rw [if_pos h2, if_pos h2]; rfl
        · rw [if_neg h2, if_neg h2, if_pos h1.2]; rfl
      · rw [if_neg h1, if_neg (by omega), if_neg (by omega)]; rfl

/-- The realm descriptor REALM_CREATE writes. -/
def newRd (q : RealmParams) : Rd :=
  { state := .new, recCount := 0, d0 := dOf q.p.rttLevelStart, ipaBits := q.p.s2sz
    nroots := q.p.rttNumStart, root := q.rttBase, vmid := q.vmid
    lpa2 := Features.lpa2Requested q.p, numAux := 16, algo := q.p.algorithm
    rim := [.params q.p], rem := fun _ => [] }

structure RealmCreateOk (P : Plat) (s : State) (rdA : Nat) (q : RealmParams) (s' : State) (ret : Ret) : Prop where
  rd : P.tracked rdA = true ∧ s.st rdA = .delegated
  roots : ∀ j < q.p.rttNumStart, P.tracked (q.rttBase + 4096 * j) = true ∧ s.st (q.rttBase + 4096 * j) = .delegated
  disj : ∀ j < q.p.rttNumStart, rdA ≠ q.rttBase + 4096 * j
  ok : Features.ParamsOk P.hw q.p
  vmid : q.vmid < P.vmidCount ∧ s.vmid q.vmid = false
  st : ∃ ts, Geometry.initStartingLevel q.p.s2sz q.p.rttLevelStart q.p.rttNumStart = some ts ∧
    s' = realmCreateSt s rdA q ts
  ret : ret = {}

theorem vmid_undo (s : State) (v : Nat) (h : s.vmid v = false) :
    ({ s with vmid := upd (upd s.vmid v true) v false } : State) = s := by
  have : upd (upd s.vmid v true) v false = s.vmid := by
    funext x
    unfold upd
    by_cases hx : x = v
    · rw [if_pos hx, hx, h]
    · rw [if_neg hx, if_neg hx]
  rw [this]

theorem realmCreate_spec (hP : PlatOk P) (rdA pA : Nat) (q : RealmParams) :
    ∃ s' ret, realmCreate P s rdA pA q = some (s', ret) ∧
      ((s' = s ∧ ret.status ≠ 0) ∨ RealmCreateOk P s rdA q s' ret) := by
  unfold realmCreate
  by_cases h0 : (lk P s pA .ns && decide (s.pas pA = .ns)) = true
  swap
  · rw [if_neg h0]; exact ⟨_, _, rfl, Or.inl ⟨rfl, by decide⟩⟩
  rw [if_pos h0]
  obtain ⟨b, hb, hok⟩ := Features.C21_params_accepted_iff P.hw hP.hw q.p
  rw [hb]
  cases b with
  | false => exact ⟨_, _, rfl, Or.inl ⟨rfl, by decide⟩⟩
  | true =>
    have hok := hok.mp rfl
    dsimp only
    by_cases h1 : q.vmid < P.vmidCount ∧ s.vmid q.vmid = false
    swap
    · rw [if_neg h1]; exact ⟨_, _, rfl, Or.inl ⟨rfl, by decide⟩⟩
    rw [if_pos h1]
    by_cases h2 : q.rttBase ≤ rdA ∧ rdA < q.rttBase + q.p.rttNumStart * 4096
    · rw [if_pos h2]; exact ⟨_, _, rfl, Or.inl ⟨vmid_undo s _ h1.2, by decide⟩⟩
    rw [if_neg h2]
    by_cases h3 : (lk P s rdA .delegated &&
      (List.range q.p.rttNumStart).all (fun j => lk P s (q.rttBase + 4096 * j) .delegated)) = true
    swap
    · rw [if_neg h3]; exact ⟨_, _, rfl, Or.inl ⟨vmid_undo s _ h1.2, by decide⟩⟩
    rw [if_pos h3]
    have hg := hok.geometry
    rw [← Features.lpa2Requested_eq] at hg
    obtain ⟨_, ts, hts, _⟩ := legal_geo hg (r := newRd q) rfl rfl rfl rfl
    rw [hts]
    rw [Bool.and_eq_true, lk_iff, List.all_eq_true] at h3
    refine ⟨_, _, rfl, Or.inr ⟨h3.1, ?_, ?_, hok, h1, ⟨ts, hts, rfl⟩, rfl⟩⟩
    · intro j hj
      have := h3.2 j (List.mem_range.mpr hj)
      rwa [lk_iff] at this
    · intro j hj hh
      apply h2
      omega

/-- Ghost data of the new tables. -/
def realmTi (ti : Nat → TabInfo) (rdA : Nat) (q : RealmParams) : Nat → TabInfo := fun x =>
  if inRange q.rttBase q.p.rttNumStart x
  then ⟨rdA, dOf q.p.rttLevelStart, rangeIdx q.rttBase x * sz (dOf q.p.rttLevelStart + 1)⟩ else ti x

theorem RealmCreateOk.inv (h : InvG P s ti di rl) {rdA : Nat} {q : RealmParams} {s' : State}
    {ret : Ret} (k : RealmCreateOk P s rdA q s' ret) :
    InvG P s' (realmTi ti rdA q) di (upd rl rdA []) := by
  obtain ⟨ts, hts, hs'⟩ := k.st
  have hg := k.ok.geometry
  rw [← Features.lpa2Requested_eq] at hg
  obtain ⟨hgeo, ts', hts', hroot⟩ := legal_geo hg (r := newRd q) rfl rfl rfl rfl
  rw [hts] at hts'
  obtain rfl : ts = ts' := Option.some.inj hts'
  -- the three kinds of granules
  have notDel : ∀ x, s.st x ≠ .delegated → x ≠ rdA ∧ inRange q.rttBase q.p.rttNumStart x = false := by
    intro x hx
    refine ⟨fun e => hx (e ▸ k.rd.2), ?_⟩
    rw [Bool.eq_false_iff]
    intro hc
    obtain ⟨j, hj, rfl⟩ := (inRange_iff _ _ _).mp hc
    exact hx (k.roots j hj).2
  have st_rd : s'.st rdA = .rd := by rw [hs']; unfold realmCreateSt; dsimp only; rw [upd_same]
  have mem_rd : s'.mem rdA = .rd (newRd q) := by
    rw [hs']; unfold realmCreateSt newRd; dsimp only; rw [upd_same]
  have rdOf_rd : rdOf s' rdA = newRd q := rdOf_of_mem mem_rd
  have st_root : ∀ j < q.p.rttNumStart, s'.st (q.rttBase + 4096 * j) = .rtt := by
    intro j hj
    rw [hs']; unfold realmCreateSt; dsimp only
    rw [upd_ne _ _ _ (Ne.symm (k.disj j hj)), if_pos ((inRange_iff _ _ _).mpr ⟨j, hj, rfl⟩)]
  have mem_root : ∀ j < q.p.rttNumStart, s'.mem (q.rttBase + 4096 * j) =
      .table (fun i => rootEntry (ts j i)) := by
    intro j hj
    rw [hs']; unfold realmCreateSt; dsimp only
    rw [upd_ne _ _ _ (Ne.symm (k.disj j hj)), if_pos ((inRange_iff _ _ _).mpr ⟨j, hj, rfl⟩), rangeIdx_eq]
  have ti_root : ∀ j < q.p.rttNumStart, realmTi ti rdA q (q.rttBase + 4096 * j) =
      ⟨rdA, dOf q.p.rttLevelStart, j * sz (dOf q.p.rttLevelStart + 1)⟩ := by
    intro j hj
    unfold realmTi
    rw [if_pos ((inRange_iff _ _ _).mpr ⟨j, hj, rfl⟩), rangeIdx_eq]
  have old : ∀ x, x ≠ rdA → inRange q.rttBase q.p.rttNumStart x = false →
      s'.st x = s.st x ∧ s'.mem x = s.mem x ∧ realmTi ti rdA q x = ti x := by
    intro x h1 h2
    rw [hs']; unfold realmCreateSt realmTi; dsimp only
    rw [upd_ne _ _ _ h1, upd_ne _ _ _ h1, h2]
    simp
  have rc_eq : s'.rc = s.rc := by rw [hs']; rfl
  have pas_eq : s'.pas = s.pas := by rw [hs']; rfl
  have keep : ∀ x, s.st x ≠ .delegated → s'.st x = s.st x ∧ s'.mem x = s.mem x ∧ realmTi ti rdA q x = ti x :=
    fun x hx => old x (notDel x hx).1 (notDel x hx).2
  have st_of : ∀ x y, s.st x = y → y ≠ .delegated → s'.st x = y := fun x y hx hy =>
    (keep x (by rw [hx]; exact hy)).1.trans hx
  have ti_of : ∀ x y, s.st x = y → y ≠ .delegated → realmTi ti rdA q x = ti x := fun x y hx hy =>
    (keep x (by rw [hx]; exact hy)).2.2
  have mem_of : ∀ x y, s.st x = y → y ≠ .delegated → s'.mem x = s.mem x := fun x y hx hy =>
    (keep x (by rw [hx]; exact hy)).2.1
  have rd_of : ∀ x, s.st x = .rd → rdOf s' x = rdOf s x := by
    intro x hx; unfold rdOf getRd; rw [mem_of x _ hx (by simp)]
  have rec_of : ∀ x, s.st x = .recd → recOf s' x = recOf s x := by
    intro x hx; unfold recOf getRec; rw [mem_of x _ hx (by simp)]
  -- classification of granules in the new state
  have cls : ∀ x, (x = rdA) ∨ (∃ j < q.p.rttNumStart, x = q.rttBase + 4096 * j) ∨
      (s'.st x = s.st x ∧ s'.mem x = s.mem x ∧ realmTi ti rdA q x = ti x ∧ x ≠ rdA) := by
    intro x
    by_cases h1 : x = rdA
    · exact Or.inl h1
    · by_cases h2 : inRange q.rttBase q.p.rttNumStart x = true
      · exact Or.inr (Or.inl ((inRange_iff _ _ _).mp h2))
      · obtain ⟨a1, a2, a3⟩ := old x h1 (by simpa using h2)
        exact Or.inr (Or.inr ⟨a1, a2, a3, h1⟩)
  have back : ∀ x y, s'.st x = y → y ≠ .rd → y ≠ .rtt → s.st x = y := by
    intro x y hx h1 h2
    rcases cls x with rfl | ⟨j, hj, rfl⟩ | ⟨a1, _⟩
    · rw [st_rd] at hx; exact absurd hx.symm h1
    · rw [st_root j hj] at hx; exact absurd hx.symm h2
    · rw [← a1]; exact hx
  have backRd : ∀ x, s'.st x = .rd → x = rdA ∨ (s.st x = .rd ∧ x ≠ rdA) := by
    intro x hx
    rcases cls x with h1 | ⟨j, hj, rfl⟩ | ⟨a1, _, _, a4⟩
    · exact Or.inl h1
    · rw [st_root j hj] at hx; simp at hx
    · exact Or.inr ⟨by rw [← a1]; exact hx, a4⟩
  have hv : ∀ v, s'.vmid v = if v = q.vmid then true else s.vmid v := by
    intro v; rw [hs']; rfl
  refine ⟨?_, ?_, ?_, ?_, ?_, ?_, ?_, ?_, ?_, ?_, ?_, ?_, ?_, ?_, ?_, ?_⟩
  · intro x hx
    rcases cls x with rfl | ⟨j, hj, rfl⟩ | ⟨a1, _⟩
    · exact k.rd.1
    · exact (k.roots j hj).1
    · rw [a1] at hx; exact h.trk x hx
  · intro x hx
    rw [pas_eq]
    have hh := h.gpt x hx
    rcases cls x with rfl | ⟨j, hj, rfl⟩ | ⟨a1, _⟩
    · rw [st_rd]; rw [k.rd.2] at hh; simpa using hh
    · rw [st_root j hj]; rw [(k.roots j hj).2] at hh; simpa using hh
    · rw [a1]; exact hh
  · intro x hx
    have := back x _ hx (by simp) (by simp)
    rw [mem_of x _ this (by simp)]; exact h.nsPage x this
  · intro x hx
    rcases cls x with rfl | ⟨j, hj, rfl⟩ | ⟨a1, a2, _⟩
    · rw [st_rd] at hx; simp at hx
    · rw [st_root j hj] at hx; simp at hx
    · rw [a2]; rw [a1] at hx; exact h.delPage x hx
  · intro x hx
    have := back x _ hx (by simp) (by simp)
    rw [mem_of x _ this (by simp)]; exact h.dataPage x this
  · intro x hx
    have := back x _ hx (by simp) (by simp)
    rw [mem_of x _ this (by simp)]; exact h.auxPage x this
  · intro x hx
    rw [rc_eq]
    apply h.rc0
    rcases hx with hx | hx | hx | hx <;> have := back x _ hx (by simp) (by simp) <;> simp [this]
  · -- tables
    intro g hgst
    rcases cls g with rfl | ⟨j, hj, rfl⟩ | ⟨a1, a2, a3, _⟩
    · rw [st_rd] at hgst; simp at hgst
    · have e1 : (newRd q).nroots = q.p.rttNumStart := rfl
      have hlt : j * sz (dOf q.p.rttLevelStart + 1) < (newRd q).ipaSize := by
        obtain ⟨m, _, _, hi, _, hm, _⟩ := hgeo.halves
        rw [e1] at hm
        rw [hi]
        have e2 : (newRd q).d0 = dOf q.p.rttLevelStart := rfl
        rw [e2, sz_succ, ← Nat.mul_assoc]
        apply Nat.mul_lt_mul_of_pos_right _ (sz_pos _)
        have : j * 512 ≤ (q.p.rttNumStart - 1) * 512 := Nat.mul_le_mul_right _ (by omega)
        exact lt_of_le_of_lt this hm
      refine ⟨?_, ?_, ?_, ?_, ?_, ?_, ?_, ?_⟩
      · rw [tabOf_of_mem (mem_root j hj)]; exact mem_root j hj
      · rw [ti_root j hj]; exact st_rd
      · rw [ti_root j hj]; dsimp only; rw [rdOf_rd]; exact Nat.le_refl _
      · rw [ti_root j hj]; exact Nat.mul_mod_left _ _
      · rw [ti_root j hj]; dsimp only; rw [rdOf_rd]; exact hlt
      · left
        rw [ti_root j hj]; dsimp only; rw [rdOf_rd]
        exact ⟨rfl, j, hj, rfl, rfl⟩
      · intro i hi
        rw [tabOf_of_mem (mem_root j hj), ti_root j hj]
        dsimp only
        rw [rdOf_rd, hroot j hj i hi]
        unfold rootSpec
        split
        · exact Or.inl ‹_›
        · split
          · exact ⟨by omega, ‹_›⟩
          · exact Or.inr ⟨by omega, rfl⟩
      · rw [tabOf_of_mem (mem_root j hj), rc_eq, h.rc0 _ (by simp [(k.roots j hj).2]), cnt_zero]
        intro i hi
        cases ts j i <;> rfl
    · rw [a1] at hgst
      have hT := h.tab g hgst
      refine hT.frame a2 a3 (by rw [rc_eq]) (st_of _ _ hT.rd (by simp))
        (by rw [rd_of _ hT.rd]; exact SameGeo.refl _) ?_ ?_ ?_
      · intro p hp he
        refine ⟨st_of _ _ hp (by simp), ti_of _ _ hp (by simp), ?_⟩
        unfold tabOf getTab; rw [mem_of p _ hp (by simp)]; exact he
      · intro _ _ c _ hc; exact ⟨st_of _ _ hc (by simp), ti_of _ _ hc (by simp)⟩
      · intro _ _ _ _ _ _ _ hc; exact ⟨st_of _ _ hc (by simp), rfl⟩
  · -- realm descriptors
    intro x hx
    rcases backRd x hx with rfl | ⟨hx0, hne⟩
    · refine ⟨?_, ?_, ?_, ?_, ?_, ?_, ?_, ?_, ?_⟩
      · rw [rdOf_rd]; exact mem_rd
      · rw [rdOf_rd]; exact hgeo
      · rw [rdOf_rd]; intro j hj; exact ⟨st_root j hj, ti_root j hj⟩
      · rw [rdOf_rd]; rfl
      · rw [rdOf_rd]; exact ⟨k.vmid.1, by rw [hv]; simp [newRd]⟩
      · rw [upd_same]; exact List.nodup_nil
      · intro y
        rw [upd_same]
        constructor
        · intro hy; simp at hy
        · rintro ⟨h1, h2⟩
          have h1 := back y _ h1 (by simp) (by simp)
          rw [rec_of y h1] at h2
          have := (h.recs y h1).rd
          rw [h2, k.rd.2] at this
          simp at this
      · rw [upd_same, rc_eq, h.rc0 _ (by simp [k.rd.2])]; rfl
      · rw [rc_eq, h.rc0 _ (by simp [k.rd.2])]; omega
    · have hR := h.rds x hx0
      refine ⟨?_, ?_, ?_, ?_, ?_, ?_, ?_, ?_, ?_⟩
      · rw [mem_of x _ hx0 (by simp), rd_of x hx0]; exact hR.mem
      · rw [rd_of x hx0]; exact hR.geo
      · rw [rd_of x hx0]; intro j hj
        obtain ⟨a1, a2⟩ := hR.roots j hj
        exact ⟨st_of _ _ a1 (by simp), (ti_of _ _ a1 (by simp)).trans a2⟩
      · rw [rd_of x hx0]; exact hR.aux
      · rw [rd_of x hx0]; refine ⟨hR.vmid.1, ?_⟩
        rw [hv]; split
        · rfl
        · exact hR.vmid.2
      · rw [upd_ne _ _ _ hne]; exact hR.nodup
      · intro y
        rw [upd_ne _ _ _ hne, hR.recs y]
        constructor
        · rintro ⟨h1, h2⟩; exact ⟨st_of _ _ h1 (by simp), by rw [rec_of y h1]; exact h2⟩
        · rintro ⟨h1, h2⟩
          have h1 := back y _ h1 (by simp) (by simp)
          rw [rec_of y h1] at h2; exact ⟨h1, h2⟩
      · rw [upd_ne _ _ _ hne, rc_eq]; exact hR.rc
      · rw [rc_eq]; exact hR.max
  · intro x hx
    have hx := back x _ hx (by simp) (by simp)
    have hR := h.recs x hx
    have e1 := rec_of x hx
    have e2 := rd_of _ hR.rd
    refine ⟨?_, ?_, ?_, ?_, ?_, ?_, ?_, ?_, ?_⟩
    · rw [mem_of x _ hx (by simp), e1]; exact hR.mem
    · rw [e1]; exact st_of _ _ hR.rd (by simp)
    · rw [rc_eq]; exact hR.rc
    · rw [e1, e2]; exact hR.idx
    · rw [e1]; intro y hy; exact st_of _ _ (hR.auxSt y hy) (by simp)
    · rw [e1]; exact hR.auxNodup
    · rw [e1]; exact hR.auxLen
    · rw [e1, e2]; exact hR.sr
    · rw [e1, e2, rc_eq]; exact hR.run
  · intro a b ha hb
    have ha := back a _ ha (by simp) (by simp)
    have hb := back b _ hb (by simp) (by simp)
    rw [rec_of a ha, rec_of b hb]; exact h.recIdx a b ha hb
  · intro x hx
    obtain ⟨a, ha, hxa⟩ := h.auxOwner x (back x _ hx (by simp) (by simp))
    exact ⟨a, st_of _ _ ha (by simp), by rw [rec_of a ha]; exact hxa⟩
  · intro a b x ha hb
    have ha := back a _ ha (by simp) (by simp)
    have hb := back b _ hb (by simp) (by simp)
    rw [rec_of a ha, rec_of b hb]; exact h.auxDisj a b x ha hb
  · intro x hx
    have hx := back x _ hx (by simp) (by simp)
    obtain ⟨c1, c2, g, d, rp, pa, c3, c4, c5, c6⟩ := h.data x hx
    refine ⟨st_of _ _ c1 (by simp), c2, g, d, rp, pa, st_of _ _ c3 (by simp),
      (ti_of _ _ c3 (by simp)).trans c4, ?_, c6⟩
    unfold tabOf getTab; rw [mem_of g _ c3 (by simp)]; exact c5
  · intro a b ha hb hab
    have fresh : ∀ x, s.st x = .rd → (rdOf s x).vmid ≠ q.vmid := by
      intro x hx he
      have := (h.rds x hx).vmid.2
      rw [he, k.vmid.2] at this
      simp at this
    rcases backRd a ha with rfl | ⟨ha0, _⟩ <;> rcases backRd b hb with hb1 | ⟨hb0, _⟩
    · exact hb1.symm
    · rw [rdOf_rd, rd_of b hb0] at hab; exact absurd hab.symm (fresh b hb0)
    · rw [hb1, rdOf_rd, rd_of a ha0] at hab; exact absurd hab (fresh a ha0)
    · rw [rd_of a ha0, rd_of b hb0] at hab; exact h.vmidInj a b ha0 hb0 hab
  · intro v hvv
    rw [hv] at hvv
    by_cases he : v = q.vmid
    · exact ⟨rdA, st_rd, by rw [rdOf_rd, he]; rfl⟩
    · rw [if_neg he] at hvv
      obtain ⟨a, ha, hav⟩ := h.vmidOwner v hvv
      exact ⟨a, st_of _ _ ha (by simp), by rw [rd_of a ha]; exact hav⟩

/-! ## REALM_DESTROY -/

structure RealmDestroyOk (s : State) (rdA : Nat) (s' : State) (ret : Ret) : Prop where
  rd : s.st rdA = .rd
  rc : s.rc rdA = 0
  roots : ∀ j < (rdOf s rdA).nroots, s.rc ((rdOf s rdA).root + 4096 * j) = 0
  st : s' = realmDestroySt s rdA (rdOf s rdA)
  ret : ret = {}

theorem realmDestroy_spec (h : InvG P s ti di rl) (rdA : Nat) :
    ∃ s' ret, realmDestroy P s rdA = some (s', ret) ∧
      ((s' = s ∧ ret.status ≠ 0) ∨ RealmDestroyOk s rdA s' ret) := by
  unfold realmDestroy
  by_cases h1 : lk P s rdA .rd = true
  swap
  · rw [if_neg h1]; exact ⟨_, _, rfl, Or.inl ⟨rfl, by decide⟩⟩
  rw [if_pos h1]
  rw [lk_iff] at h1
  by_cases h2 : s.rc rdA = 0
  swap
  · rw [if_neg h2]; exact ⟨_, _, rfl, Or.inl ⟨rfl, by decide⟩⟩
  rw [if_pos h2, getRd_eq h h1.2]
  dsimp only
  have hR := h.rds rdA h1.2
  have h3 : (List.range (rdOf s rdA).nroots).all
      (fun j => decide (s.st ((rdOf s rdA).root + 4096 * j) = .rtt)) = true := by
    rw [List.all_eq_true]
    intro j hj
    exact decide_eq_true (hR.roots j (List.mem_range.mp hj)).1
  rw [if_pos h3]
  by_cases h4 : (List.range (rdOf s rdA).nroots).all
      (fun j => decide (s.rc ((rdOf s rdA).root + 4096 * j) = 0)) = true
  swap
  · rw [if_neg h4]; exact ⟨_, _, rfl, Or.inl ⟨rfl, by decide⟩⟩
  rw [if_pos h4, if_pos hR.vmid.1]
  rw [List.all_eq_true] at h4
  exact ⟨_, _, rfl, Or.inr ⟨h1.2, h2, fun j hj => by simpa using h4 j (List.mem_range.mpr hj), rfl, rfl⟩⟩

/-- Without table entries in its root tables a realm has no other tables. -/
theorem only_roots (h : InvG P s ti di rl) {rdA : Nat} (hr : s.st rdA = .rd)
    (hz : ∀ j < (rdOf s rdA).nroots, s.rc ((rdOf s rdA).root + 4096 * j) = 0) :
    ∀ g, s.st g = .rtt → (ti g).rd = rdA → ∃ j < (rdOf s rdA).nroots, g = (rdOf s rdA).root + 4096 * j := by
  intro g hg hrd
  have hT := h.tab g hg
  rcases hT.up with ⟨_, j, hj, _, he⟩ | ⟨hlt, p, hp, htp, hep⟩
  · rw [hrd] at hj he; exact ⟨j, hj, he⟩
  · exfalso
    -- the root above `g` has a table entry
    have hlt52 : (ti g).base < 2 ^ 52 := by
      have := hT.lt
      rw [hrd] at this
      exact lt_of_lt_of_le this (h.rds rdA hr).geo.ipa_lt
    obtain ⟨n, hn⟩ := Nat.exists_eq_add_of_lt hlt
    obtain ⟨p, c, hp, htp, hep⟩ := ancestor h n g (ti g).base hg hlt52
      (by unfold al; rw [div_mul_of_mod hT.base]) (by omega)
    rcases (h.tab p hp).up with ⟨_, j, hj, _, he⟩ | ⟨hlt', _⟩
    · rw [htp] at hj he
      dsimp only at hj he
      rw [hrd] at hj he
      have h0 := hz j hj
      rw [← he, (h.tab p hp).rc] at h0
      have := cnt_eq_zero _ _ h0 _ (idx_lt ((ti g).d + n + 1) (ti g).base)
      rw [hep] at this
      simp [Entry.counted] at this
    · rw [htp] at hlt'
      dsimp only at hlt'
      omega

theorem RealmDestroyOk.inv (h : InvG P s ti di rl) {rdA : Nat} {s' : State}
    {ret : Ret} (k : RealmDestroyOk s rdA s' ret) : InvG P s' ti di rl := by
  have hR := h.rds rdA k.rd
  have hs' := k.st
  have honly := only_roots h k.rd k.roots
  -- membership in the set of granules given back
  have hin : ∀ x, inRange (rdOf s rdA).root (rdOf s rdA).nroots x = true → s.st x = .rtt ∧ (ti x).rd = rdA ∧ s.rc x = 0 := by
    intro x hx
    obtain ⟨j, hj, rfl⟩ := (inRange_iff _ _ _).mp hx
    obtain ⟨a1, a2⟩ := hR.roots j hj
    exact ⟨a1, by rw [a2], k.roots j hj⟩
  have cls : ∀ x, (x = rdA ∨ inRange (rdOf s rdA).root (rdOf s rdA).nroots x = true) ∧
        s'.st x = .delegated ∧ s'.mem x = .page 0 ∨
      (x ≠ rdA ∧ inRange (rdOf s rdA).root (rdOf s rdA).nroots x = false ∧
        s'.st x = s.st x ∧ s'.mem x = s.mem x) := by
    intro x
    rw [hs']; unfold realmDestroySt; dsimp only
    by_cases h1 : x = rdA
    · subst h1; left; exact ⟨Or.inl rfl, upd_same _ _ _, upd_same _ _ _⟩
    · rw [upd_ne _ _ _ h1, upd_ne _ _ _ h1]
      by_cases h2 : inRange (rdOf s rdA).root (rdOf s rdA).nroots x = true
      · left; rw [if_pos h2, if_pos h2]; exact ⟨Or.inr h2, rfl, rfl⟩
      · right; rw [if_neg h2, if_neg h2]; exact ⟨h1, by simpa using h2, rfl, rfl⟩
  have rc_eq : s'.rc = s.rc := by rw [hs']; rfl
  have pas_eq : s'.pas = s.pas := by rw [hs']; rfl
  have keep : ∀ x, x ≠ rdA → (s.st x = .rtt → (ti x).rd ≠ rdA) → s'.st x = s.st x ∧ s'.mem x = s.mem x := by
    intro x h1 h2
    rcases cls x with ⟨h3, _⟩ | ⟨_, _, h3, h4⟩
    · rcases h3 with h3 | h3
      · exact absurd h3 h1
      · obtain ⟨a1, a2, _⟩ := hin x h3; exact absurd a2 (h2 a1)
    · exact ⟨h3, h4⟩
  have back : ∀ x y, s'.st x = y → y ≠ .delegated → s.st x = y ∧ x ≠ rdA ∧ (s.st x = .rtt → (ti x).rd ≠ rdA) := by
    intro x y hx hy
    rcases cls x with ⟨_, h3, _⟩ | ⟨h1, h2, h3, _⟩
    · rw [h3] at hx; exact absurd hx.symm hy
    · refine ⟨by rw [← h3]; exact hx, h1, ?_⟩
      intro h4 h5
      obtain ⟨j, hj, he⟩ := honly x h4 h5
      rw [(inRange_iff _ _ _).mpr ⟨j, hj, he⟩] at h2
      simp at h2
  have keepSt : ∀ x y, s.st x = y → y ≠ .rd → y ≠ .rtt → s'.st x = y ∧ s'.mem x = s.mem x := by
    intro x y hx h1 h2
    obtain ⟨a1, a2⟩ := keep x (by rintro rfl; rw [k.rd] at hx; exact h1 hx.symm)
      (by intro h3; rw [h3] at hx; exact absurd hx.symm h2)
    exact ⟨a1.trans hx, a2⟩
  have keepRd : ∀ x, s.st x = .rd → x ≠ rdA → s'.st x = .rd ∧ s'.mem x = s.mem x := by
    intro x hx h1
    obtain ⟨a1, a2⟩ := keep x h1 (by intro h3; rw [h3] at hx; simp at hx)
    exact ⟨a1.trans hx, a2⟩
  have keepTab : ∀ x, s.st x = .rtt → (ti x).rd ≠ rdA → s'.st x = .rtt ∧ s'.mem x = s.mem x := by
    intro x hx h1
    obtain ⟨a1, a2⟩ := keep x (by rintro rfl; rw [k.rd] at hx; simp at hx) (fun _ => h1)
    exact ⟨a1.trans hx, a2⟩
  have rd_of : ∀ x, s.st x = .rd → x ≠ rdA → rdOf s' x = rdOf s x := by
    intro x hx h1; unfold rdOf getRd; rw [(keepRd x hx h1).2]
  have rec_of : ∀ x, s.st x = .recd → recOf s' x = recOf s x := by
    intro x hx; unfold recOf getRec; rw [(keepSt x _ hx (by simp) (by simp)).2]
  have recNe : ∀ x, s.st x = .recd → (recOf s x).rd ≠ rdA := by
    intro x hx he
    have := (hR.recs x).mpr ⟨hx, he⟩
    have h0 := hR.rc
    rw [k.rc] at h0
    rw [List.eq_nil_of_length_eq_zero h0.symm] at this
    simp at this
  have dataNe : ∀ x, s.st x = .data → (di x).1 ≠ rdA := by
    intro x hx he
    obtain ⟨_, _, g, d, rp, pa, c3, c4, c5, _⟩ := h.data x hx
    obtain ⟨j, hj, hgj⟩ := honly g c3 (by rw [c4]; exact he)
    have h0 := k.roots j hj
    rw [← hgj, (h.tab g c3).rc] at h0
    have := cnt_eq_zero _ _ h0 _ (idx_lt d (di x).2)
    rw [c5] at this
    simp [Entry.counted] at this
  refine ⟨?_, ?_, ?_, ?_, ?_, ?_, ?_, ?_, ?_, ?_, ?_, ?_, ?_, ?_, ?_, ?_⟩
  · intro x hx
    rcases cls x with ⟨h1, _⟩ | ⟨_, _, h3, _⟩
    · rcases h1 with rfl | h1
      · exact h.trk x (by rw [k.rd]; simp)
      · exact h.trk x (by rw [(hin x h1).1]; simp)
    · rw [h3] at hx; exact h.trk x hx
  · intro x hx
    rw [pas_eq]
    have hh := h.gpt x hx
    rcases cls x with ⟨h1, h2, _⟩ | ⟨_, _, h3, _⟩
    · rw [h2]
      rcases h1 with rfl | h1
      · rw [k.rd] at hh; simpa using hh
      · rw [(hin x h1).1] at hh; simpa using hh
    · rw [h3]; exact hh
  · intro x hx
    obtain ⟨h1, _⟩ := back x _ hx (by simp)
    rw [(keepSt x _ h1 (by simp) (by simp)).2]; exact h.nsPage x h1
  · intro x hx
    rcases cls x with ⟨_, _, h1⟩ | ⟨_, _, h3, h4⟩
    · exact h1
    · rw [h3] at hx; rw [h4]; exact h.delPage x hx
  · intro x hx
    obtain ⟨h1, _⟩ := back x _ hx (by simp)
    rw [(keepSt x _ h1 (by simp) (by simp)).2]; exact h.dataPage x h1
  · intro x hx
    obtain ⟨h1, _⟩ := back x _ hx (by simp)
    rw [(keepSt x _ h1 (by simp) (by simp)).2]; exact h.auxPage x h1
  · intro x hx
    rw [rc_eq]
    rcases cls x with ⟨h1, _⟩ | ⟨_, _, h3, _⟩
    · rcases h1 with rfl | h1
      · exact k.rc
      · exact (hin x h1).2.2
    · rw [h3] at hx; exact h.rc0 x hx
  · intro g hg
    obtain ⟨h1, _, h2⟩ := back g _ hg (by simp)
    have h2 := h2 h1
    have hT := h.tab g h1
    refine hT.frame (keepTab g h1 h2).2 rfl (by rw [rc_eq]) (keepRd _ hT.rd h2).1
      (by rw [rd_of _ hT.rd h2]; exact SameGeo.refl _) ?_ ?_ ?_
    · intro p hp he
      have hpr : (ti p).rd ≠ rdA := by
        -- the parent belongs to the same realm
        have := (h.tab p hp).ent _ (idx_lt ((ti g).d + 1) (ti g).base)
        rw [he] at this
        have h4 := this.2.2.2.1
        intro h5
        rw [h5] at h4
        apply h2; rw [h4]
      obtain ⟨b1, b2⟩ := keepTab p hp hpr
      refine ⟨b1, rfl, ?_⟩
      unfold tabOf getTab; rw [b2]; exact he
    · intro i hi c he hc
      have := hT.ent i hi
      rw [he] at this
      have h4 := this.2.2.2.1
      exact ⟨(keepTab c hc (by rw [h4]; exact h2)).1, rfl⟩
    · intro _ _ _ _ _ _ _ hc; exact ⟨(keepSt _ _ hc (by simp) (by simp)).1, rfl⟩
  · intro x hx
    obtain ⟨h1, hne, _⟩ := back x _ hx (by simp)
    have hX := h.rds x h1
    have e := rd_of x h1 hne
    refine ⟨?_, ?_, ?_, ?_, ?_, ?_, ?_, ?_, ?_⟩
    · rw [(keepRd x h1 hne).2, e]; exact hX.mem
    · rw [e]; exact hX.geo
    · rw [e]; intro j hj
      obtain ⟨a1, a2⟩ := hX.roots j hj
      exact ⟨(keepTab _ a1 (by rw [a2]; exact hne)).1, a2⟩
    · rw [e]; exact hX.aux
    · rw [e]; refine ⟨hX.vmid.1, ?_⟩
      rw [hs']; unfold realmDestroySt; dsimp only
      rw [upd_ne]
      · exact hX.vmid.2
      · intro hc; exact hne (h.vmidInj x rdA h1 k.rd hc)
    · exact hX.nodup
    · intro y
      rw [hX.recs y]
      constructor
      · rintro ⟨b1, b2⟩; exact ⟨(keepSt y _ b1 (by simp) (by simp)).1, by rw [rec_of y b1]; exact b2⟩
      · rintro ⟨b1, b2⟩
        have b1 := (back y _ b1 (by simp)).1
        rw [rec_of y b1] at b2; exact ⟨b1, b2⟩
    · rw [rc_eq]; exact hX.rc
    · rw [rc_eq]; exact hX.max
  · intro x hx
    have hx := (back x _ hx (by simp)).1
    have hX := h.recs x hx
    have e1 := rec_of x hx
    have e2 := rd_of _ hX.rd (recNe x hx)
    refine ⟨?_, ?_, ?_, ?_, ?_, ?_, ?_, ?_, ?_⟩
    · rw [(keepSt x _ hx (by simp) (by simp)).2, e1]; exact hX.mem
    · rw [e1]; exact (keepRd _ hX.rd (recNe x hx)).1
    · rw [rc_eq]; exact hX.rc
    · rw [e1, e2]; exact hX.idx
    · rw [e1]; intro y hy; exact (keepSt _ _ (hX.auxSt y hy) (by simp) (by simp)).1
    · rw [e1]; exact hX.auxNodup
    · rw [e1]; exact hX.auxLen
    · rw [e1, e2]; exact hX.sr
    · rw [e1, e2, rc_eq]; exact hX.run
  · intro a b ha hb
    have ha := (back a _ ha (by simp)).1
    have hb := (back b _ hb (by simp)).1
    rw [rec_of a ha, rec_of b hb]; exact h.recIdx a b ha hb
  · intro x hx
    obtain ⟨a, ha, hxa⟩ := h.auxOwner x (back x _ hx (by simp)).1
    exact ⟨a, (keepSt _ _ ha (by simp) (by simp)).1, by rw [rec_of a ha]; exact hxa⟩
  · intro a b x ha hb
    have ha := (back a _ ha (by simp)).1
    have hb := (back b _ hb (by simp)).1
    rw [rec_of a ha, rec_of b hb]; exact h.auxDisj a b x ha hb
  · intro x hx
    have hx := (back x _ hx (by simp)).1
    obtain ⟨c1, c2, g, d, rp, pa, c3, c4, c5, c6⟩ := h.data x hx
    have hne := dataNe x hx
    obtain ⟨b1, b2⟩ := keepTab g c3 (by rw [c4]; exact hne)
    refine ⟨(keepRd _ c1 hne).1, c2, g, d, rp, pa, b1, c4, ?_, c6⟩
    unfold tabOf getTab; rw [b2]; exact c5
  · intro a b ha hb
    obtain ⟨ha, hna, _⟩ := back a _ ha (by simp)
    obtain ⟨hb, hnb, _⟩ := back b _ hb (by simp)
    rw [rd_of a ha hna, rd_of b hb hnb]; exact h.vmidInj a b ha hb
  · intro v hv
    rw [hs'] at hv
    unfold realmDestroySt at hv
    dsimp only at hv
    by_cases he : v = (rdOf s rdA).vmid
    · subst he; rw [upd_same] at hv; simp at hv
    · rw [upd_ne _ _ _ he] at hv
      obtain ⟨a, ha, hav⟩ := h.vmidOwner v hv
      have hne : a ≠ rdA := by rintro rfl; exact he hav.symm
      exact ⟨a, (keepRd a ha hne).1, by rw [rd_of a ha hne]; exact hav⟩

end

end Verif.Rmm
