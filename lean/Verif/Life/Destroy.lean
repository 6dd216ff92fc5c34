import Verif.Life.Cmds

/-!
# REALM_DESTROY keeps the invariant
-/

namespace Verif.Life

open Rmm
open Atom (MInv PcOk Keeps isWalk foot two rdA user)

/-- A granule is no longer in another state. -/
def Ov.drop (T : Ov) (x : Nat) : Ov := { T with g := upd T.g x none }

/-- The realm descriptor and the root tables of a realm stay what they are though the realm is gone. -/
def Ov.dying (T : Ov) (s : State) (rd : Nat) (r : Rd) : Ov :=
  { T with
    g := fun a => if a = rd then some (.rd, s.mem rd)
      else if inRange r.root r.nroots a then some (.rtt, s.mem a) else T.g a }

section
variable {P : Plat} {n : Nat} {m : M} {s : State} {T : Ov}

/-- CPU `i` gives back one granule. -/
theorem LInv.drop (I : LInv P n m s T) {i : Nat} (hi : i < n) {p : Pc} {x : Nat} {e : GSt} {l1 l2 : List (Nat × GSt)}
    (hl : tr (m.pc i) = l1 ++ (x, e) :: l2) (hl' : tr p = l1 ++ l2) (h2 : vmOf p = vmOf (m.pc i))
    (h3 : putOf p = putOf (m.pc i)) (hb : base p = .idle) (hheld : ∀ y ∈ held p, y ∈ held (m.pc i))
    (hr : ∀ op c, p ≠ .walk (.root op c)) {s2 : State} (hs2 : s2 = ov (T.drop x) s)
    (hok : LOk P n (upd m.pc i p) s (T.drop x) i p) : LInv P n ⟨s2, upd m.pc i p⟩ s (T.drop x) := by
  have hnd := I.trk.nd hi
  rw [hl, List.map_append, List.map_cons, List.perm_middle.nodup_iff, List.nodup_cons, ← List.map_append] at hnd
  have hx : ∀ e', (x, e') ∉ tr p := by
    intro e' h
    rw [hl'] at h
    exact hnd.1 (List.mem_map.mpr ⟨_, h, rfl⟩)
  have sub : ∀ a e', (a, e') ∈ tr p → (a, e') ∈ tr (m.pc i) := by
    intro a e' h
    rw [hl'] at h; rw [hl]
    simp only [List.mem_append, List.mem_cons] at h ⊢
    tauto
  have cov : ∀ a e', (a, e') ∈ tr (m.pc i) → a ≠ x → (a, e') ∈ tr p := by
    intro a e' h hne
    rw [hl] at h; rw [hl']
    simp only [List.mem_append, List.mem_cons, Prod.mk.injEq] at h ⊢
    tauto
  have hg : ∀ a, a ≠ x → (T.drop x).g a = T.g a := fun a ha => upd_ne _ _ _ ha
  refine I.turn hi hs2 hb ⟨?_, I.sep.rc, I.sep.vm, I.sep.cap⟩ ⟨?_, ?_, ?_, ?_, ?_, ?_, ?_, ?_⟩ hheld ?_
    (fun j _ _ y _ e' h => ⟨e', sub y e' h⟩) (fun _ => le_refl _) hr hok
  · intro a e' c h
    by_cases ha : a = x
    · rw [ha] at h; simp only [Ov.drop, upd_same] at h; cases h
    · rw [hg a ha] at h; exact I.sep.g h
  · intro a _ h
    refine hg a ?_
    rintro rfl
    exact h e (by rw [hl]; simp)
  · intro a e' h
    have ha : a ≠ x := by rintro rfl; exact hx e' h
    rw [hg a ha]
    exact I.trk.has hi (sub a e' h)
  · intro a e' h h'
    by_cases ha : a = x
    · rw [ha]; exact upd_same _ _ _
    · exact absurd (cov a e' h ha) (h' e')
  · intro a e' h; exact Or.inl ⟨e', sub a e' h⟩
  · rw [hl']; exact hnd.2
  · intro v
    rw [h2]
    constructor
    · intro h
      by_cases hv : vmOf (m.pc i) = some v
      · exact Or.inl hv
      · exact Or.inr ⟨h, hv⟩
    · rintro (h | ⟨h, _⟩)
      · exact (I.trk.vm v).mpr ⟨i, hi, h⟩
      · exact h
  · intro v h; rw [h2] at h; exact Or.inl h
  · intro a; rw [h3]; rfl
  · intro y hy e' c h
    have ha : y ≠ x := by rintro rfl; simp only [Ov.drop, upd_same] at h; cases h
    rw [hg y ha] at h
    exact cov y e' (I.mine i hi y (hheld y hy) h) ha

/-- Freeing a granule takes its change away. -/
theorem wipe_ov {x : Nat} (h1 : s.st x = .delegated) (h2 : s.mem x = .page 0) :
    wipe (ov T s) x = ov (T.drop x) s := by
  refine state_ext (fun a => ?_) (fun _ => rfl) (fun a => ?_) (fun _ => rfl) (fun _ => rfl)
  · simp only [wipe, ov, ovSt, Ov.drop, upd]
    split
    · rename_i he; rw [he, h1]
    · rfl
  · simp only [wipe, ov, ovMem, Ov.drop, upd]
    split
    · rename_i he; rw [he, h2]
    · rfl

theorem LInv.clean (I : LInv P n m s T) {x : Nat} (hx : T.g x ≠ none) : s.st x = .delegated ∧ s.mem x = .page 0 := by
  obtain ⟨ti, di, rl, h⟩ := inv_of I
  cases hg : T.g x with
  | none => exact absurd hg hx
  | some y =>
    obtain ⟨e, c⟩ := y
    have := (I.sep.g hg).1
    exact ⟨this, h.delPage x this⟩

theorem realmDestroy_busy {ti : Nat → TabInfo} {di : Nat → Nat × Nat} {rl : Nat → List Nat} (h : InvG P s ti di rl)
    {rd : Nat} (ht : P.tracked rd = true) (hs : s.st rd = .rd) (hr : s.rc rd = 0)
    (hn : ¬ ∀ j < (rdOf s rd).nroots, s.rc ((rdOf s rd).root + 4096 * j) = 0) :
    step P s (.realmDestroy rd) = some (s, errRealm 0) := by
  show realmDestroy P s rd = _
  unfold realmDestroy
  rw [if_pos ((lk_iff ..).mpr ⟨ht, hs⟩), if_pos hr, getRd_eq h hs]
  dsimp only
  have h3 : (List.range (rdOf s rd).nroots).all
      (fun j => decide (s.st ((rdOf s rd).root + 4096 * j) = .rtt)) = true := by
    rw [List.all_eq_true]
    intro j hj
    exact decide_eq_true ((h.rds rd hs).roots j (List.mem_range.mp hj)).1
  rw [if_pos h3, if_neg]
  intro h4
  rw [List.all_eq_true] at h4
  exact hn fun j hj => by simpa using h4 j (List.mem_range.mpr hj)

theorem realmDestroy_good {ti : Nat → TabInfo} {di : Nat → Nat × Nat} {rl : Nat → List Nat} (h : InvG P s ti di rl)
    {rd : Nat} (ht : P.tracked rd = true) (hs : s.st rd = .rd) (hr : s.rc rd = 0)
    (hn : ∀ j < (rdOf s rd).nroots, s.rc ((rdOf s rd).root + 4096 * j) = 0) :
    step P s (.realmDestroy rd) = some (realmDestroySt s rd (rdOf s rd), {}) := by
  show realmDestroy P s rd = _
  unfold realmDestroy
  rw [if_pos ((lk_iff ..).mpr ⟨ht, hs⟩), if_pos hr, getRd_eq h hs]
  dsimp only
  have h3 : (List.range (rdOf s rd).nroots).all
      (fun j => decide (s.st ((rdOf s rd).root + 4096 * j) = .rtt)) = true := by
    rw [List.all_eq_true]
    intro j hj
    exact decide_eq_true ((h.rds rd hs).roots j (List.mem_range.mp hj)).1
  have h4 : (List.range (rdOf s rd).nroots).all
      (fun j => decide (s.rc ((rdOf s rd).root + 4096 * j) = 0)) = true := by
    rw [List.all_eq_true]
    intro j hj
    exact decide_eq_true (hn j (List.mem_range.mp hj))
  rw [if_pos h3, if_pos h4, if_pos (h.rds rd hs).vmid.1]

theorem mem_tr_dFree {rd k a : Nat} {r : Rd} {e : GSt} (hk : k ≤ r.nroots) : (a, e) ∈ tr (.dFree rd r k) ↔
    (a = rd ∧ e = .rd) ∨ ∃ j, k ≤ j ∧ j < r.nroots ∧ a = r.root + 4096 * j ∧ e = .rtt := by
  simp only [tr, List.mem_cons, Prod.mk.injEq, List.mem_map, List.mem_range'_1]
  constructor
  · rintro (h | ⟨j, h1, h2, h3⟩)
    · exact Or.inl h
    · exact Or.inr ⟨j, by omega, by omega, h2.symm, h3.symm⟩
  · rintro (h | ⟨j, h1, h2, h3, h4⟩)
    · exact Or.inl h
    · exact Or.inr ⟨j, by omega, h3.symm, h4.symm⟩

theorem dSum_ok (I : LInv P n m s T) {i : Nat} (hi : i < n) {rd k acc : Nat} {r : Rd}
    (hp : m.pc i = .dSum rd r k acc) : LOut P n m s i (go P n m i) := by
  have h1 : tr (m.pc i) = [] := by rw [hp]; rfl
  have h2 : vmOf (m.pc i) = none := by rw [hp]; rfl
  have h3 : putOf (m.pc i) = none := by rw [hp]; rfl
  have o := I.ok i hi
  rw [hp] at o
  obtain ⟨o1, o2, o3, o4, o5, o6, o7, o8⟩ := o
  obtain ⟨ti, di, rl, h, hpc, hd⟩ := I.low
  change InvG P s ti di rl at h
  have hR := h.rds rd o2
  have hroot := hR.roots
  have hvmr := hR.vmid
  rw [o3] at hroot hvmr
  have hgr : T.g rd = none := I.sep.none (by rw [o2]; simp)
  have hg : ∀ j < r.nroots, T.g (r.root + 4096 * j) = none := fun j hj => I.sep.none (by rw [(hroot j hj).1]; simp)
  unfold go
  rw [hp]
  dsimp only
  by_cases hk : k < r.nroots
  · rw [if_pos hk]
    by_cases hf : free n m (r.root + 4096 * k) = true
    swap
    · rw [if_neg hf]; trivial
    rw [if_pos hf]
    have hst : m.s.st (r.root + 4096 * k) = .rtt := by
      rw [I.mem]
      simpa [ov, ovSt_none _ (hg k hk)] using (hroot k hk).1
    rw [if_pos hst]
    have hrc : m.s.rc (r.root + 4096 * k) = s.rc (r.root + 4096 * k) := by
      rw [I.mem]
      exact ovRc_zero _ (I.sep.rc0 (by rw [(hroot k hk).1]; simp))
    rw [hrc]
    refine ⟨s, T, I.move hi (Or.inr rfl) (by rw [h1]; rfl) (by rw [h2]; rfl) (by rw [h3]; rfl)
      (fun x hx => Or.inl (by rw [hp]; exact hx)) (fun _ _ h => (by cases h)) ⟨o1, o2, o3, o4, o5, hk, ?_, ?_⟩,
      Or.inl ⟨rfl, rfl⟩⟩
    · constructor
      · intro h0 j hj
        by_cases hj' : j = k
        · rw [hj']; omega
        · exact o7.mp (by omega) j (by omega)
      · intro h0
        have := o7.mpr fun j hj => h0 j (by omega)
        have := h0 k (by omega)
        omega
    · intro l hl hne
      rw [upd_ne _ _ _ hne]
      have hfl := (free_iff ..).mp hf l hl
      refine ⟨fun j hj => ?_, fun _ op c hpl he => ?_⟩
      · by_cases hj' : j = k
        · rw [hj']; exact hfl
        · exact (o8 l hl hne).1 j (by omega)
      · by_cases hk0 : 0 < k
        · exact (o8 l hl hne).2 hk0 op c hpl he
        · have hpl' := hpc l hl
          simp only [low, hpl, base] at hpl'
          have hroot := hpl'.1.geo.root
          rw [he] at hroot
          change (rdOf s rd).root = c.r.root at hroot
          rw [o3] at hroot
          have hk0 : k = 0 := by omega
          rw [hk0, hpl] at hfl
          apply hfl
          simp [held, Atom.held, hroot]
  rw [if_neg hk]
  have hk : k = r.nroots := by omega
  by_cases ha : acc ≠ 0
  · rw [if_pos ha]
    refine ⟨s, T, I.idle hi h1 h2 h3, Or.inr ⟨_, _, rfl, Or.inl ?_⟩⟩
    refine realmDestroy_busy h o1 o2 o4 ?_
    rw [o3, ← hk]
    exact fun hh => ha (o7.mpr hh)
  rw [if_neg ha]
  have hz : ∀ j < r.nroots, s.rc (r.root + 4096 * j) = 0 := by
    rw [← hk]; exact o7.mp (by omega)
  rw [if_pos hvmr.1]
  have hvm : s.vmid r.vmid = true := hvmr.2
  have hvT : T.vm r.vmid = false := by
    cases hv : T.vm r.vmid with
    | false => rfl
    | true => rw [I.sep.vm hv] at hvm; cases hvm
  have K : RealmDestroyOk s rd (realmDestroySt s rd r) {} :=
    ⟨o2, o4, by rw [o3]; exact hz, by rw [o3], rfl⟩
  have hin : ∀ x, inRange r.root r.nroots x = true ↔ ∃ j < r.nroots, x = r.root + 4096 * j := fun x => inRange_iff _ _ _
  have hrn : ¬ inRange r.root r.nroots rd = true := by
    rw [hin]; rintro ⟨j, hj, e⟩
    have := (hroot j hj).1
    rw [← e, o2] at this; cases this
  have hheldn : ∀ j < n, j ≠ i → ∀ x ∈ held (m.pc j), x ≠ rd ∧ ¬ inRange r.root r.nroots x = true := by
    intro j hj hne x hx
    refine ⟨?_, ?_⟩
    · rintro rfl
      exact I.excl i hi j hj (Ne.symm hne) x (by rw [hp]; simp [held]) hx
    · rw [hin]; rintro ⟨l, hl, rfl⟩
      exact (o8 j hj hne).1 l (by omega) hx
  have hstd : ∀ x, s.st x = .delegated → (realmDestroySt s rd r).st x = .delegated := by
    intro x hx
    simp only [realmDestroySt, upd]
    split
    · rfl
    · split
      · rfl
      · exact hx
  refine ⟨realmDestroySt s rd r, T.dying s rd r,
    I.commit h hpc hi (p := .dFree rd r 0) rfl (op := .realmDestroy rd) (ret := {}) K rfl (K.inv h)
      (fun _ _ => rfl) ?_ ?_ ?_ ⟨?_, ?_, ?_, ?_⟩ ⟨?_, ?_, ?_, ?_, ?_, ?_, ?_, ?_⟩ ?_ ?_ ?_ ?_ (fun _ _ => rfl)
      (fun _ _ h => (by cases h)) (Nat.zero_le _),
    Or.inr ⟨_, _, rfl, Or.inl ?_⟩⟩
  · -- footprint
    intro j hj hne x hx hxf
    obtain ⟨n1, n2⟩ := hheldn j hj hne x hx
    simp only [foot, o3, List.mem_cons, List.mem_map, List.mem_range] at hxf
    rcases hxf with rfl | ⟨l, hl, rfl⟩
    · exact n1 rfl
    · exact n2 ((hin _).mpr ⟨l, hl, rfl⟩)
  · -- nobody walks the tables of the realm
    intro rd' he j hj hne hu
    cases he
    obtain ⟨g, hg1, hg2, hg3⟩ := (hpc j hj).table hu
    obtain ⟨l, hl, rfl⟩ := only_roots h o2 (by rw [o3]; exact hz) g hg2 hg3
    rw [o3] at hl hg1
    exact (o8 j hj hne).1 l (by omega) (held_base hg1)
  · -- memory
    rw [I.mem]
    refine state_ext (fun x => ?_) (fun _ => rfl) (fun x => ?_) (fun _ => rfl) (fun x => ?_)
    · simp only [ov, ovSt, realmDestroySt, upd, Ov.dying]
      by_cases hx : x = rd
      · simp only [hx, if_true, hgr, o2]
      · simp only [if_neg hx]
        by_cases hx2 : inRange r.root r.nroots x = true
        · obtain ⟨j, hj, rfl⟩ := (hin x).mp hx2
          simp only [if_pos hx2, hg j hj, (hroot j hj).1]
        · simp only [if_neg hx2]
    · simp only [ov, ovMem, realmDestroySt, upd, Ov.dying]
      by_cases hx : x = rd
      · simp only [hx, if_true, hgr]
      · simp only [if_neg hx]
        by_cases hx2 : inRange r.root r.nroots x = true
        · obtain ⟨j, hj, rfl⟩ := (hin x).mp hx2
          simp only [if_pos hx2, hg j hj]
        · simp only [if_neg hx2]
    · simp only [ov, ovVm, realmDestroySt, upd, Ov.dying]
      split
      · rename_i he; rw [he, hvT]; rfl
      · rfl
  · -- separation
    intro a e c hga
    dsimp only [Ov.dying] at hga
    by_cases ha1 : a = rd
    · rw [if_pos ha1] at hga
      cases hga
      rw [ha1]
      exact ⟨by simp only [realmDestroySt]; exact upd_same _ _ _, by simp⟩
    · rw [if_neg ha1] at hga
      by_cases ha2 : inRange r.root r.nroots a = true
      · rw [if_pos ha2] at hga
        cases hga
        refine ⟨?_, by simp⟩
        simp only [realmDestroySt]
        rw [upd_ne _ _ _ ha1, if_pos ha2]
      · rw [if_neg ha2] at hga
        exact ⟨hstd a (I.sep.g hga).1, (I.sep.g hga).2⟩
  · intro a hra
    have hs := I.sep.rc hra
    have n1 : a ≠ rd := by rintro rfl; exact hra o5
    have n2 : ¬ inRange r.root r.nroots a = true := by
      rw [hin]; rintro ⟨j, hj, rfl⟩; rw [(hroot j hj).1] at hs; cases hs
    simp only [realmDestroySt]
    rw [upd_ne _ _ _ n1, if_neg n2, hs]
  · intro v hv
    simp only [realmDestroySt, upd]
    split
    · rfl
    · exact I.sep.vm hv
  · intro a hra
    refine I.sep.cap (?_ : s.st a = .rd)
    simp only [realmDestroySt, upd] at hra
    split at hra
    · cases hra
    · split at hra
      · cases hra
      · exact hra
  · -- the changes
    intro a hn1 _
    have n1 : a ≠ rd := fun e => hn1 .rd ((mem_tr_dFree (Nat.zero_le _)).mpr (Or.inl ⟨e, rfl⟩))
    have n2 : ¬ inRange r.root r.nroots a = true := by
      rw [hin]; rintro ⟨j, hj, e⟩
      exact hn1 .rtt ((mem_tr_dFree (Nat.zero_le _)).mpr (Or.inr ⟨j, Nat.zero_le _, hj, e, rfl⟩))
    dsimp only [Ov.dying]
    rw [if_neg n1, if_neg n2]
  · intro a e he
    rcases (mem_tr_dFree (Nat.zero_le _)).mp he with ⟨rfl, rfl⟩ | ⟨j, _, hj, rfl, rfl⟩
    · exact ⟨_, if_pos rfl⟩
    · have n1 : r.root + 4096 * j ≠ rd := by
        intro e; exact hrn ((hin _).mpr ⟨j, hj, e.symm⟩)
      exact ⟨_, by dsimp only [Ov.dying]; rw [if_neg n1, if_pos ((hin _).mpr ⟨j, hj, rfl⟩)]⟩
  · rw [h1]; exact fun _ _ hh => (by cases hh)
  · intro a e he
    right
    rcases (mem_tr_dFree (Nat.zero_le _)).mp he with ⟨rfl, rfl⟩ | ⟨j, _, hj, rfl, rfl⟩
    · exact hgr
    · exact hg j hj
  · simp only [tr, List.map_cons, List.map_map, List.nodup_cons]
    refine ⟨?_, ?_⟩
    · intro hh
      obtain ⟨j, hj, e⟩ := List.mem_map.mp hh
      rw [List.mem_range'_1] at hj
      exact hrn ((hin _).mpr ⟨j, by omega, e.symm⟩)
    · refine List.pairwise_map.mpr (List.Pairwise.imp ?_ (List.nodup_range' (s := 0) (n := r.nroots - 0)))
      intro a b hab hc
      simp only [Function.comp] at hc
      omega
  · intro v
    rw [h2]
    simp [vmOf, Ov.dying]
  · intro v hv; cases hv
  · intro a; rw [h3]; rfl
  · intro x hx; left; rw [hp]; exact hx
  · intro x hx e c hgx
    simp only [held, List.mem_singleton] at hx
    dsimp only [Ov.dying] at hgx
    rw [if_pos hx] at hgx
    cases hgx
    rw [hx]
    exact (mem_tr_dFree (Nat.zero_le _)).mpr (Or.inl ⟨rfl, rfl⟩)
  · intro j hj hne x hx e he
    obtain ⟨n1, n2⟩ := hheldn j hj hne x hx
    rcases (mem_tr_dFree (Nat.zero_le _)).mp he with ⟨rfl, rfl⟩ | ⟨l, _, hl, rfl, rfl⟩
    · exact absurd rfl n1
    · exact absurd ((hin _).mpr ⟨l, hl, rfl⟩) n2
  · intro j hj hne rd' r' k' acc' hpj
    have o := I.ok j hj
    rw [hpj] at o
    exact o.2.2.2.2.1
  · have := realmDestroy_good h o1 o2 o4 (by rw [o3]; exact hz)
    rw [this, o3]

theorem dFree_ok (I : LInv P n m s T) {i : Nat} (hi : i < n) {rd k : Nat} {r : Rd}
    (hp : m.pc i = .dFree rd r k) : LOut P n m s i (go P n m i) := by
  have o := I.ok i hi
  rw [hp] at o
  have hk : k ≤ r.nroots := o
  have hin : ∀ {a e}, (a, e) ∈ tr (.dFree rd r k) → ∃ c, T.g a = some (e, c) := by
    intro a e he
    exact I.trk.has hi (by rw [hp]; exact he)
  unfold go
  rw [hp]
  dsimp only
  by_cases hk' : k < r.nroots
  · rw [if_pos hk']
    by_cases hf : free n m (r.root + 4096 * k) = true
    swap
    · rw [if_neg hf]; trivial
    rw [if_pos hf]
    obtain ⟨c, hc⟩ := hin ((mem_tr_dFree hk).mpr (Or.inr ⟨k, le_refl _, hk', rfl, rfl⟩))
    have hst : m.s.st (r.root + 4096 * k) = .rtt := by
      rw [I.mem]; simp [ov, ovSt, hc]
    rw [if_pos hst]
    obtain ⟨c1, c2⟩ := I.clean (x := r.root + 4096 * k) (by rw [hc]; simp)
    refine ⟨s, T.drop (r.root + 4096 * k), I.drop hi (x := r.root + 4096 * k) (e := .rtt) (l1 := [(rd, .rd)])
      (l2 := (List.range' (k + 1) (r.nroots - (k + 1))).map fun j => (r.root + 4096 * j, .rtt)) ?_ rfl (by rw [hp]; rfl)
      (by rw [hp]; rfl) rfl (fun y hy => (by rw [hp]; exact hy)) (fun _ _ h => (by cases h)) ?_ ?_, Or.inl ⟨rfl, rfl⟩⟩
    · rw [hp]
      have : r.nroots - k = (r.nroots - (k + 1)) + 1 := by omega
      simp only [tr]
      rw [this, List.range'_succ]
      rfl
    · rw [I.mem]; exact wipe_ov c1 c2
    · exact hk'
  · rw [if_neg hk']
    obtain ⟨c, hc⟩ := hin ((mem_tr_dFree hk).mpr (Or.inl ⟨rfl, rfl⟩))
    obtain ⟨c1, c2⟩ := I.clean (x := rd) (by rw [hc]; simp)
    refine ⟨s, T.drop rd, I.drop hi (x := rd) (e := .rd) (l1 := []) (l2 := []) ?_ rfl (by rw [hp]; rfl)
      (by rw [hp]; rfl) rfl (fun y hy => (by cases hy)) (fun _ _ h => (by cases h)) ?_ trivial, Or.inl ⟨rfl, rfl⟩⟩
    · rw [hp]
      have : r.nroots - k = 0 := by omega
      simp only [tr]
      rw [this]
      rfl
    · rw [I.mem]; exact wipe_ov c1 c2

/-- A granule no CPU has locked is seen to be a realm descriptor or REC only when it is. -/
theorem LInv.freeSt (I : LInv P n m s T) {x : Nat} (hf : Life.free n m x = true) {e : GSt} (he : e = .rd ∨ e = .recd) :
    (m.s.st x = e ↔ s.st x = e) ∧ (s.st x = e → T.g x = none) := by
  have hn : s.st x = e → T.g x = none := by
    intro h; apply I.sep.none; rw [h]; rcases he with rfl | rfl <;> simp
  refine ⟨⟨fun h => ?_, fun h => ?_⟩, hn⟩
  · rw [I.mem] at h
    cases hg : T.g x with
    | none => simpa [ov, ovSt_none _ hg] using h
    | some y =>
      obtain ⟨e', c⟩ := y
      simp only [ov, ovSt, hg] at h
      rcases I.free hf hg with rfl | rfl <;> rcases he with rfl | rfl <;> cases h
  · rw [I.mem]; simpa [ov, ovSt_none _ (hn h)] using h

theorem realmDestroy_start (I : LInv P n m s T) {i : Nat} (hi : i < n) {rd : Nat}
    (hp : m.pc i = .walk .idle) : LOut P n m s i (start P n m i (.realmDestroy rd)) := by
  have h1 : tr (m.pc i) = [] := by rw [hp]; rfl
  have h2 : vmOf (m.pc i) = none := by rw [hp]; rfl
  have h3 : putOf (m.pc i) = none := by rw [hp]; rfl
  obtain ⟨ti, di, rl, h⟩ := inv_of I
  have bad : ¬ lk P s rd .rd = true → LOut P n m s i (m.fin i m.s (.realmDestroy rd) errInput) := by
    intro hb
    refine ⟨s, T, I.idle hi h1 h2 h3, Or.inr ⟨_, _, rfl, Or.inl ?_⟩⟩
    show realmDestroy P s rd = _
    unfold realmDestroy
    rw [if_neg hb]
  unfold start
  rw [hp]
  dsimp only
  by_cases ht : P.tracked rd = false
  · rw [if_pos ht]
    exact bad (by rw [lk_iff, ht]; simp)
  rw [if_neg ht]
  have ht : P.tracked rd = true := by simpa using ht
  by_cases hf : free n m rd = true
  swap
  · rw [if_neg hf]; trivial
  rw [if_pos hf]
  obtain ⟨f1, f2⟩ := I.freeSt hf (e := .rd) (Or.inl rfl)
  by_cases hs : m.s.st rd = .rd
  swap
  · rw [if_neg hs]
    exact bad (by rw [lk_iff]; exact fun hh => hs (f1.mpr hh.2))
  rw [if_pos hs]
  have hs := f1.mp hs
  have hrc : m.s.rc rd = s.rc rd + T.rc rd := by rw [I.mem]; rfl
  by_cases hr : m.s.rc rd = 0
  swap
  · rw [if_neg hr]
    refine ⟨s, T, I.idle hi h1 h2 h3, Or.inr ⟨_, _, rfl, ?_⟩⟩
    by_cases hr2 : s.rc rd = 0
    · exact Or.inr (Or.inr ⟨rfl, by decide, Or.inl (I.busyRc (x := rd) (by omega) (by rw [h3]; simp))⟩)
    · left
      show realmDestroy P s rd = _
      unfold realmDestroy
      rw [if_pos ((lk_iff ..).mpr ⟨ht, hs⟩), if_neg hr2]
  rw [if_pos hr]
  have hgr := f2 hs
  have : getRd m.s rd = some (rdOf s rd) := by rw [I.mem, getRd_ov hgr, getRd_eq h hs]
  rw [this]
  dsimp only
  refine ⟨s, T, I.move hi (Or.inr rfl) (by rw [h1]; rfl) (by rw [h2]; rfl) (by rw [h3]; rfl) ?_
    (fun _ _ h => (by cases h)) ⟨ht, hs, rfl, by omega, by omega, Nat.zero_le _, by simp, ?_⟩, Or.inl ⟨rfl, rfl⟩⟩
  · intro x hx
    simp only [held, List.mem_singleton] at hx
    subst hx
    exact Or.inr ⟨hf, hgr, by rw [hs]; simp⟩
  · intro l _ _
    exact ⟨fun j hj => absurd hj (by omega), fun h0 => absurd h0 (by omega)⟩

end

end Verif.Life
