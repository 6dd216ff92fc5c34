import Mathlib.Data.Finset.Lattice.Fold
import Verif.Atom.Main

/-!
# Nobody waits in a circle
-/

namespace Verif.Atom

open Rmm

/-- Own steps a command has left, at most. -/
def fuel : Pc → Nat
  | .idle => 0
  | .locking _ todo _ => 9 + todo.length
  | .checked .. => 8
  | .root .. => 7
  | .walking _ _ d _ => 1 + d

/-- A step of a CPU that does not end its command brings it closer to its end. -/
theorem go_fuel {P : Plat} {n : Nat} {m m' : M} {i : Nat} (hi : i < n) (I : MInv P n m)
    (e : go P n m i = .ok m' none) :
    fuel (m'.pc i) < fuel (m.pc i) ∧ (∀ j, j ≠ i → m'.pc j = m.pc j) ∧ m'.s = m.s := by
  obtain ⟨ti, di, rl, h, hp, -⟩ := I
  have hpi := hp i hi
  have hto : ∀ p, m.to i p = .ok m' none → m'.pc i = p ∧ (∀ j, j ≠ i → m'.pc j = m.pc j) ∧ m'.s = m.s := by
    intro p hh
    unfold M.to at hh
    injection hh with h1 _
    subst h1
    exact ⟨upd_same .., fun j hj => upd_ne _ _ _ hj, rfl⟩
  have fin : ∀ op s ret, m.fin i op s ret ≠ .ok m' none := by
    intro op s ret hh
    unfold M.fin at hh
    injection hh with _ h2
    cases h2
  unfold go at e
  cases hpc : m.pc i with
  | idle => rw [hpc] at e; cases e
  | locking op todo done =>
    rw [hpc] at e
    cases todo with
    | cons p todo =>
      dsimp only at e
      split at e
      · exact (fin _ _ _ e).elim
      split at e
      · split at e
        · obtain ⟨h1, h2⟩ := hto _ e; rw [h1]; exact ⟨by simp [fuel], h2⟩
        · exact (fin _ _ _ e).elim
      · cases e
    | nil =>
      dsimp only at e
      split at e
      · cases e
      split at e
      · exact (fin _ _ _ e).elim
      · cases e
      · obtain ⟨h1, h2⟩ := hto _ e; rw [h1]; exact ⟨by simp [fuel], h2⟩
  | checked op c =>
    rw [hpc] at e
    dsimp only at e
    split at e
    · split at e
      · obtain ⟨h1, h2⟩ := hto _ e; rw [h1]; exact ⟨by simp [fuel], h2⟩
      · cases e
    · cases e
  | root op c =>
    rw [hpc] at e hpi
    have hd : c.r.d0 ≤ 4 := by
      have := (h.rds _ hpi.1.rd).geo.d0
      rw [hpi.1.geo.d0] at this
      split at this <;> omega
    dsimp only at e
    split at e
    swap
    · cases e
    split at e
    · obtain ⟨h1, h2⟩ := hto _ e; rw [h1]; exact ⟨by simp only [fuel]; omega, h2⟩
    split at e
    · split at e
      · obtain ⟨h1, h2⟩ := hto _ e; rw [h1]; exact ⟨by simp only [fuel]; omega, h2⟩
      · cases e
    · cases e
  | walking op c d g =>
    rw [hpc] at e
    dsimp only at e
    have nofin : (if ((extra m.s ⟨g, d, idx d (ipa op)⟩ op).all (free n m)) = true then
          match post P m.s c.r c.q ⟨g, d, idx d (ipa op)⟩ op with
          | none => .fail op
          | some (s', ret) => m.fin i op s' ret
        else .blocked) ≠ Res.ok m' none := by
      split
      · split
        · simp
        · exact fin _ _ _
      · simp
    split at e
    · cases e
    split at e
    · exact absurd e nofin
    · rename_i hd
      split at e
      · split at e
        · split at e
          · obtain ⟨h1, h2⟩ := hto _ e; rw [h1]; exact ⟨by simp only [fuel]; omega, h2⟩
          · cases e
        · cases e
      · exact absurd e nofin

/-- `k` steps of CPUs inside their commands; none begins another one. -/
inductive Goes (P : Plat) (n : Nat) : Nat → M → M → Prop where
  | refl {m} : Goes P n 0 m m
  | step {k m m' m'' i d} : Goes P n k m m' → i < n → go P n m' i = .ok m'' d → Goes P n (k + 1) m m''

/-- The granule a CPU that takes its first locks wants. -/
def want : Pc → Nat
  | .locking _ ((x, _) :: _) _ => x
  | _ => 0

/-- Who waits for a lock waits for a CPU of lower rank. -/
def rank (B : Nat) : Pc → Nat
  | .idle => 0
  | .locking _ [] _ => 0
  | .locking _ ((x, _) :: _) _ => 20 + (B - x)
  | .checked .. => 19
  | .root .. => 18
  | .walking _ _ d _ => d

theorem first_sorted (op : Op) : (first op).Pairwise (fun a b => a.1 ≤ b.1) := by
  cases op <;> simp only [first, two] <;> first
    | (split <;> simp <;> omega)
    | simp

theorem not_free {n : Nat} {m : M} {x : Nat} (h : ¬ free n m x = true) : ∃ j < n, x ∈ held (m.pc j) := by
  by_contra hh
  apply h
  rw [free_iff]
  intro j hj hx
  exact hh ⟨j, hj, hx⟩

section
variable {P : Plat} {n : Nat} {m : M} {ti : Nat → TabInfo} {di : Nat → Nat × Nat} {rl : Nat → List Nat}

/-- A table is locked by a CPU that walks. -/
theorem table_held (h : InvG P m.s ti di rl) {pc : Pc} (k : PcOk P m.s ti pc) {x : Nat} (hx : x ∈ held pc)
    (hs : m.s.st x = .rtt) :
    (∃ op c, pc = .root op c ∧ x = c.r.root ∧ (ti x).rd = rdA op ∧ x = (rdOf m.s (rdA op)).root ∧
      (ti x).d = (rdOf m.s (rdA op)).d0) ∨
    (∃ op c, pc = .walking op c (ti x).d x ∧ (ti x).d ≤ 4) := by
  cases pc with
  | idle => cases hx
  | locking op todo done =>
    obtain ⟨_, _, h1, h2⟩ := k
    simp only [held, List.mem_map] at hx
    obtain ⟨p, hp, rfl⟩ := hx
    have := first_st op p (by rw [h1]; exact List.mem_append_left _ hp)
    rw [(h2 p hp).2] at hs
    simp [hs] at this
  | checked op c =>
    obtain ⟨_, h2, _⟩ := k
    simp only [held, List.mem_map] at hx
    obtain ⟨p, hp, rfl⟩ := hx
    have := first_st op p hp
    rw [(h2 p hp).2] at hs
    simp [hs] at this
  | root op c =>
    obtain ⟨b, h2, h3⟩ := k
    simp only [held, List.mem_cons] at hx
    rcases hx with rfl | hx
    · left
      have hR := h.rds _ b.rd
      obtain ⟨_, h5⟩ := hR.roots 0 hR.geo.roots1
      simp only [Nat.mul_zero, Nat.add_zero] at h5
      refine ⟨op, c, rfl, rfl, h3, b.geo.root.symm, ?_⟩
      rw [← b.geo.root, h5]
    · have := Base.held b x hx
      rw [hs] at this; simp at this
  | walking op c d g =>
    obtain ⟨b, k, _⟩ := k
    simp only [held, List.mem_cons] at hx
    rcases hx with rfl | hx
    · right
      have hd := k.depth h
      have := (h.rds _ b.rd).geo.d0
      rw [k.ti]
      refine ⟨op, c, rfl, ?_⟩
      dsimp only
      split at this <;> omega
    · have := Base.held b x hx
      rw [hs] at this; simp at this

/-- A CPU that waits waits for another one that moves or has lower rank. -/
theorem waits (h : InvG P m.s ti di rl) (hp : ∀ i < n, PcOk P m.s ti (m.pc i)) {B : Nat}
    (hB : ∀ i < n, want (m.pc i) < B) {i : Nat} (hi : i < n) (hne : m.pc i ≠ .idle) (hb : go P n m i = .blocked) :
    ∃ j < n, m.pc j ≠ .idle ∧ (go P n m j ≠ .blocked ∨ rank B (m.pc j) < rank B (m.pc i)) := by
  have hpi := hp i hi
  unfold go at hb
  cases hpc : m.pc i with
  | idle => exact absurd hpc hne
  | locking op todo done =>
    rw [hpc] at hb
    cases todo with
    | nil =>
      dsimp only at hb
      split at hb
      · cases hb
      split at hb <;> simp [M.fin, M.to] at hb
    | cons p todo =>
      obtain ⟨x, e⟩ := p
      have hxB := hB i hi
      rw [hpc] at hxB
      simp only [want] at hxB
      dsimp only at hb
      split at hb
      · simp [M.fin] at hb
      split at hb
      · split at hb <;> simp [M.fin, M.to] at hb
      rename_i hf
      obtain ⟨j, hj, hx⟩ := not_free hf
      have hpj := hp j hj
      have hBj := hB j hj
      refine ⟨j, hj, ?_, ?_⟩
      · intro hh; rw [hh] at hx; cases hx
      cases hpcj : m.pc j with
      | idle => rw [hpcj] at hx; cases hx
      | locking op' todo' done' =>
        rw [hpcj] at hx hpj hBj
        cases todo' with
        | nil => right; simp [rank]
        | cons q todo' =>
          obtain ⟨y, e'⟩ := q
          simp only [held] at hx
          simp only [want] at hBj
          by_cases hxy : y ∈ done'.map (·.1)
          · left
            unfold go
            rw [hpcj]
            dsimp only
            rw [if_pos (Or.inl hxy)]
            simp [M.fin]
          · right
            obtain ⟨p, hp', rfl⟩ := List.mem_map.mp hx
            have hs := first_sorted op'
            rw [hpj.2.2.1, List.pairwise_append] at hs
            have := hs.2.2 p hp' (y, e') List.mem_cons_self
            dsimp only at this
            have hny : p.1 ≠ y := fun hh => hxy (hh ▸ hx)
            simp only [rank]
            omega
      | checked op' c' => right; simp [rank]; omega
      | root op' c' => right; simp [rank]; omega
      | walking op' c' d' g' =>
        rw [hpcj] at hpj
        have := hpj.2.1.depth h
        have := (h.rds _ hpj.1.rd).geo.d0
        right
        simp only [rank]
        split at this <;> omega
  | checked op c =>
    rw [hpc] at hb hpi
    obtain ⟨b, _, hsame⟩ := hpi
    have hR := (h.rds _ b.rd)
    obtain ⟨h1, -⟩ := hR.roots 0 hR.geo.roots1
    rw [hsame] at h1
    simp only [Nat.mul_zero, Nat.add_zero] at h1
    dsimp only at hb
    split at hb
    · simp [M.to] at hb
    rename_i hf
    obtain ⟨j, hj, hx⟩ := not_free hf
    refine ⟨j, hj, fun hh => (by rw [hh] at hx; cases hx), Or.inr ?_⟩
    rcases table_held h (hp j hj) hx h1 with ⟨op', c', h2, -⟩ | ⟨op', c', h2, h3⟩
    · rw [h2]; simp [rank]
    · rw [h2]; simp only [rank]; omega
  | root op c =>
    rw [hpc] at hb hpi
    obtain ⟨b, hroot, hti⟩ := hpi
    have hlt : ipa op < c.r.ipaSize := pre_lt b.walk b.pre
    have hlt' : ipa op < (rdOf m.s (rdA op)).ipaSize := by rw [b.geo.ipa]; exact hlt
    obtain ⟨r1, r2, r3, r4⟩ := root_spec h b.rd hlt'
    rw [SameGeo.rootFor b.geo] at r1 r2 r3 r4
    dsimp only at hb
    split at hb
    swap
    · simp at hb
    split at hb
    · simp [M.to] at hb
    rename_i hn0
    split at hb
    · simp [M.to] at hb
    rename_i hf
    obtain ⟨j, hj, hx⟩ := not_free hf
    refine ⟨j, hj, fun hh => (by rw [hh] at hx; cases hx), Or.inr ?_⟩
    rcases table_held h (hp j hj) hx r3 with ⟨op', c', h2, h3, h4, h5, h6⟩ | ⟨op', c', h2, h3⟩
    · rw [r4] at h4
      dsimp only at h4
      rw [← h4, r2] at h5
      omega
    · rw [h2]; simp only [rank]; omega
  | walking op c d g =>
    rw [hpc] at hb hpi
    obtain ⟨b, k, htgt⟩ := hpi
    have child : ∀ x, tabOf m.s g (idx d (ipa op)) = .table x → ¬ free n m x = true →
        ∃ j < n, m.pc j ≠ .idle ∧ (go P n m j ≠ .blocked ∨ rank B (m.pc j) < rank B (.walking op c d g)) := by
      intro x hent hf
      have hE := k.ent h
      rw [hent] at hE
      obtain ⟨_, e2, e3, e4, _⟩ := hE
      obtain ⟨j, hj, hx⟩ := not_free hf
      refine ⟨j, hj, fun hh => (by rw [hh] at hx; cases hx), Or.inr ?_⟩
      rcases table_held h (hp j hj) hx e3 with ⟨op', c', h2, h3, h4, h5, h6⟩ | ⟨op', c', h2, h3⟩
      · rw [e4] at h4 h6
        dsimp only at h4 h6
        rw [← h4] at h6
        have := k.depth h
        omega
      · rw [h2, e4]; simp only [rank]; omega
    have fin : (if ((extra m.s ⟨g, d, idx d (ipa op)⟩ op).all (free n m)) = true then
          match post P m.s c.r c.q ⟨g, d, idx d (ipa op)⟩ op with
          | none => .fail op
          | some (s', ret) => m.fin i op s' ret
        else .blocked) = Res.blocked →
        ∃ j < n, m.pc j ≠ .idle ∧ (go P n m j ≠ .blocked ∨ rank B (m.pc j) < rank B (.walking op c d g)) := by
      intro hh
      split at hh
      · split at hh <;> simp [M.fin] at hh
      rename_i hx
      rw [List.all_eq_true] at hx
      push Not at hx
      obtain ⟨x, hx, hfx⟩ := hx
      have hdata : ∀ rp pa, tabOf m.s g (idx d (ipa op)) = .assigned rp pa → d = 0 → x = pa → False := by
        intro rp pa hent hd0 hxp
        obtain ⟨j, hj, hxj⟩ := not_free hfx
        have h1 := PcOk.held (hp j hj) x hxj
        have hE := k.ent h
        rw [hent] at hE
        subst hd0 hxp
        have := (hE.2.2.2.2 0 (by simp)).1
        rw [Nat.mul_zero, Nat.add_zero] at this
        rw [this] at h1
        simp at h1
      cases op with
      | rttFold rd a lvl | rttDestroy rd a lvl =>
        simp only [extra] at hx
        split at hx
        · split at hx
          · rename_i c' hc'
            rw [List.mem_singleton] at hx
            subst hx
            exact child _ hc' hfx
          · cases hx
        · cases hx
      | dataDestroy rd a =>
        simp only [extra] at hx
        split at hx
        · rename_i hd0
          split at hx
          · rename_i rp pa hc'
            rw [List.mem_singleton] at hx
            exact (hdata _ _ hc' hd0 hx).elim
          · cases hx
        · cases hx
      | _ => cases hx
    dsimp only at hb
    rw [getTab_eq h k.st] at hb
    dsimp only at hb
    split at hb
    · exact fin hb
    · split at hb
      · rename_i x hent
        split at hb
        · split at hb <;> simp [M.to] at hb
        · rename_i hf; exact child _ hent hf
      · exact fin hb

/-- Some CPU moves, as long as one is inside a command. -/
theorem progress (I : MInv P n m) {i : Nat} (hi : i < n) (hne : m.pc i ≠ .idle) :
    ∃ j < n, m.pc j ≠ .idle ∧ go P n m j ≠ .blocked := by
  obtain ⟨ti, di, rl, h, hp, -⟩ := I
  obtain ⟨B, hB⟩ : ∃ B, ∀ i < n, want (m.pc i) < B := by
    refine ⟨(Finset.range n).sup (fun i => want (m.pc i)) + 1, fun i hi => ?_⟩
    have := Finset.le_sup (f := fun i => want (m.pc i)) (Finset.mem_range.mpr hi)
    omega
  induction hr : rank B (m.pc i) using Nat.strong_induction_on generalizing i with
  | _ r ih =>
    by_cases hb : go P n m i = .blocked
    · obtain ⟨j, hj, h1, h2 | h2⟩ := waits h hp hB hi hne hb
      · exact ⟨j, hj, h1, h2⟩
      · exact ih _ (hr ▸ h2) hj h1 rfl
    · exact ⟨i, hi, hne, hb⟩

theorem go_other {m' : M} {i : Nat} {d : Op × Ret} (e : go P n m i = .ok m' (some d)) :
    m.pc i ≠ .idle ∧ m'.pc i = .idle ∧ ∀ j, j ≠ i → m'.pc j = m.pc j := by
  have hfin : ∀ op s ret, m.fin i op s ret = .ok m' (some d) → m'.pc i = .idle ∧ ∀ j, j ≠ i → m'.pc j = m.pc j := by
    intro op s ret hh
    unfold M.fin at hh
    injection hh with h1 _
    subst h1
    exact ⟨upd_same .., fun j hj => upd_ne _ _ _ hj⟩
  refine ⟨fun hh => ?_, ?_⟩
  · unfold go at e; rw [hh] at e; cases e
  unfold go at e
  repeat' split at e
  all_goals first
    | exact hfin _ _ _ e
    | simp [M.to] at e

theorem sum_lt {f g : Nat → Nat} {i : Nat} : ∀ {n : Nat}, i < n → g i < f i → (∀ j, j ≠ i → g j = f j) →
    ((List.range n).map g).sum < ((List.range n).map f).sum := by
  intro n
  induction n with
  | zero => intro h; omega
  | succ n ih =>
    intro hi hlt hj
    rw [List.range_succ, List.map_append, List.map_append, List.sum_append, List.sum_append]
    simp only [List.map_cons, List.map_nil, List.sum_cons, List.sum_nil, Nat.add_zero]
    by_cases h : i = n
    · subst h
      have : (List.range i).map g = (List.range i).map f :=
        List.map_congr_left fun j hj' => hj j (by have := List.mem_range.mp hj'; omega)
      rw [this]; omega
    · have := ih (by omega) hlt hj
      rw [hj n (Ne.symm h)]; omega

/-- The steps left to all CPUs. -/
def total (n : Nat) (m : M) : Nat := ((List.range n).map fun i => fuel (m.pc i)).sum

theorem go_total (I : MInv P n m) {m' : M} {i : Nat} (hi : i < n) {d : Option (Op × Ret)} (e : go P n m i = .ok m' d) :
    total n m' < total n m := by
  cases d with
  | none =>
    obtain ⟨h1, h2, _⟩ := go_fuel hi I e
    exact sum_lt hi h1 (fun j hj => by rw [h2 j hj])
  | some d =>
    obtain ⟨h0, h1, h2⟩ := go_other e
    refine sum_lt hi ?_ (fun j hj => by rw [h2 j hj])
    rw [h1]
    cases hpc : m.pc i with
    | idle => exact absurd hpc h0
    | _ => simp only [fuel]; omega

theorem Goes.inv (hP : PlatOk P) {k : Nat} {m m' : M} (g : Goes P n k m m') (I : MInv P n m) :
    MInv P n m' ∧ k + total n m' ≤ total n m := by
  induction g with
  | refl => exact ⟨I, by omega⟩
  | @step k m m' m'' i d _ hi e ih =>
    obtain ⟨h1, h2⟩ := ih I
    have k := go_ok hP h1 hi
    rw [e] at k
    have := go_total h1 hi e
    refine ⟨?_, by omega⟩
    cases d with
    | none => exact k.2
    | some d => exact k.2

end

end Verif.Atom
