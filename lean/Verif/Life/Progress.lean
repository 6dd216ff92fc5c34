import Verif.Life.Trace
import Verif.Atom.Progress

/-!
# Nobody waits in a circle, and commands end
-/

namespace Verif.Life

open Rmm
open Atom (MInv PcOk rdA two extra post ipa pre_lt table_held)

/-- The granule a CPU that takes its first locks wants. -/
def want : Pc → Nat
  | .walk p => Atom.want p
  | .cLock _ _ _ (x :: _) _ => x
  | .nLock _ _ _ _ ((x, _) :: _) _ => x
  | _ => 0

/-- Who waits for a lock waits for a CPU of lower rank. -/
def rank (B : Nat) : Pc → Nat
  | .walk p => Atom.rank B p
  | .cLock _ _ _ (x :: _) _ => 20 + (B - x)
  | .nLock _ _ _ _ ((x, _) :: _) _ => 20 + (B - x)
  | .nTake .. => 21 + B
  | .dSum .. => 19
  | _ => 0

theorem order_sorted {rd : Nat} {q : RealmParams} (h : ¬ (q.rttBase ≤ rd ∧ rd < q.rttBase + q.p.rttNumStart * 4096)) :
    (order rd q).Pairwise (· < ·) := by
  have hr : (roots q).Pairwise (· < ·) := by
    unfold roots
    rw [List.pairwise_map]
    exact List.pairwise_lt_range.imp fun h => by omega
  unfold order
  split
  · rename_i hlt
    rw [List.pairwise_cons]
    refine ⟨fun x hx => ?_, hr⟩
    obtain ⟨j, _, rfl⟩ := mem_roots.mp hx
    omega
  · rw [List.pairwise_append]
    refine ⟨hr, List.pairwise_singleton _ _, fun x hx y hy => ?_⟩
    rw [List.mem_singleton] at hy
    subst hy
    obtain ⟨j, hj, rfl⟩ := mem_roots.mp hx
    omega

theorem two_sorted (a b : Nat × GSt) : (two a b).Pairwise (fun a b => a.1 ≤ b.1) := by
  simp only [two]
  split <;> simp <;> omega

theorem not_free {n : Nat} {m : M} {x : Nat} (h : ¬ free n m x = true) : ∃ j < n, x ∈ held (m.pc j) := by
  by_contra hh
  apply h
  rw [free_iff]
  intro j hj hx
  exact hh ⟨j, hj, hx⟩

/-- `k` steps of CPUs inside their commands; none begins another one. -/
inductive Goes (P : Plat) (n : Nat) : Nat → M → M → Prop where
  | refl {m : M} : Goes P n 0 m m
  | step {k : Nat} {m m' m'' : M} {i : Nat} {ev : List Ev} : Goes P n k m m' → i < n → go P n m' i = .ok m'' ev → Goes P n (k + 1) m m''

section
variable {P : Plat} {n : Nat} {m : M} {s : State} {T : Ov} {ti : Nat → TabInfo} {di : Nat → Nat × Nat} {rl : Nat → List Nat}

/-- A granule that a command under way has taken, or has still to free, is locked by no other
CPU. -/
theorem LInv.freeTr (I : LInv P n m s T) {i x : Nat} (hi : i < n) {e : GSt} (hx : (x, e) ∈ tr (m.pc i))
    (hh : x ∉ held (m.pc i)) : Life.free n m x = true := by
  rw [free_iff]
  intro j hj hxj
  obtain ⟨c, hc⟩ := I.trk.has hi hx
  have := I.mine j hj x hxj hc
  have := I.trk.one hj hi this hx
  subst this
  exact hh hxj

/-- A table is locked by a CPU that walks. -/
theorem LInv.tab (I : LInv P n m s T) (h : InvG P s ti di rl) (hpc : ∀ i < n, PcOk P s ti (base (m.pc i)))
    {j x : Nat} (hj : j < n) (hx : x ∈ held (m.pc j)) (hs : s.st x = .rtt) :
    (∃ op c, m.pc j = .walk (.root op c) ∧ x = c.r.root ∧ (ti x).rd = rdA op ∧ x = (rdOf s (rdA op)).root ∧
      (ti x).d = (rdOf s (rdA op)).d0) ∨
    (∃ op c, m.pc j = .walk (.walking op c (ti x).d x) ∧ (ti x).d ≤ 4) := by
  have ht : ∀ e, (x, e) ∉ tr (m.pc j) := by
    intro e h
    obtain ⟨c, hc⟩ := I.trk.has hj h
    rw [(I.sep.g hc).1] at hs; cases hs
  have o := I.ok j hj
  cases hp : m.pc j with
  | walk p =>
    have hk := hpc j hj
    rw [hp] at hx hk
    have := table_held (m := ⟨s, fun _ => .idle⟩) (ti := ti) (di := di) (rl := rl) h hk hx hs
    rcases this with ⟨op, c, h1, h2⟩ | ⟨op, c, h1, h2⟩
    · exact Or.inl ⟨op, c, congrArg Pc.walk h1, h2⟩
    · exact Or.inr ⟨op, c, congrArg Pc.walk h1, h2⟩
  | cLock rd pA q todo done =>
    rw [hp] at hx o
    rw [(o.2.2.2.2 x hx).2] at hs; cases hs
  | dSum rd r k acc =>
    rw [hp] at hx o
    simp only [held, List.mem_singleton] at hx
    subst hx; rw [o.2.1] at hs; cases hs
  | dFree rd r k =>
    rw [hp] at hx ht
    simp only [held, List.mem_singleton] at hx
    exact absurd (by simp [tr, hx]) (ht .rd)
  | nLock rd recA pA q todo done =>
    rw [hp] at hx o
    obtain ⟨p, h1, rfl⟩ := List.mem_map.mp hx
    have h2 : p ∈ two (recA, .delegated) (rd, GSt.rd) := by rw [o.2.2.1]; exact List.mem_append_left _ h1
    rw [(o.2.2.2 p h1).2.1] at hs
    rw [Atom.mem_two] at h2
    rcases h2 with rfl | rfl <;> cases hs
  | kFree recA rd todo =>
    rw [hp] at hx ht
    simp only [held, List.mem_singleton] at hx
    exact absurd (by simp [tr, hx]) (ht .recd)
  | _ => rw [hp] at hx; cases hx

/-- Who holds a lock that a CPU at the beginning of its locks wants moves, or has lower rank. -/
theorem holder (I : LInv P n m s T) (h : InvG P s ti di rl) (hpc : ∀ i < n, PcOk P s ti (base (m.pc i))) {B : Nat}
    (hB : ∀ i < n, want (m.pc i) < B) {x : Nat} (hf : ¬ free n m x = true) :
    ∃ j < n, m.pc j ≠ .idle ∧ (go P n m j ≠ .blocked ∨ rank B (m.pc j) < 20 ∨ rank B (m.pc j) < 20 + (B - x)) := by
  obtain ⟨j, hj, hx⟩ := not_free hf
  refine ⟨j, hj, fun hh => (by rw [hh] at hx; cases hx), ?_⟩
  have hBj := hB j hj
  have hpj := hpc j hj
  have o := I.ok j hj
  cases hp : m.pc j with
  | walk p =>
    rw [hp] at hx hpj hBj
    change PcOk P s ti p at hpj
    cases p with
    | idle => cases hx
    | locking op' todo' done' =>
      cases todo' with
      | nil => right; left; simp [rank, Atom.rank]
      | cons q todo' =>
        obtain ⟨y, e'⟩ := q
        simp only [held, Atom.held] at hx
        simp only [want, Atom.want] at hBj
        by_cases hxy : y ∈ done'.map (·.1)
        · left
          unfold go
          rw [hp]
          dsimp only
          unfold Atom.go
          have : m.atom.pc j = .locking op' ((y, e') :: todo') done' := by simp [M.atom, hp, shown]
          rw [this]
          dsimp only
          rw [if_pos (Or.inl hxy)]
          simp [Atom.M.fin, lift, M.to]
        · right; right
          obtain ⟨p, hp', rfl⟩ := List.mem_map.mp hx
          have hs := Atom.first_sorted op'
          rw [hpj.2.2.1, List.pairwise_append] at hs
          have := hs.2.2 p hp' (y, e') List.mem_cons_self
          dsimp only at this
          have hny : p.1 ≠ y := fun hh => hxy (hh ▸ hx)
          simp only [rank, Atom.rank]
          omega
    | checked op' c' => right; left; simp [rank, Atom.rank]
    | root op' c' => right; left; simp [rank, Atom.rank]
    | walking op' c' d' g' =>
      have := hpj.2.1.depth h
      have := (h.rds _ hpj.1.rd).geo.d0
      right; left
      simp only [rank, Atom.rank]
      split at this <;> omega
  | cLock rd pA q todo done =>
    rw [hp] at hx o hBj
    cases todo with
    | nil => right; left; simp [rank]
    | cons y todo =>
      right; right
      have hs := order_sorted o.2.2.1
      rw [o.2.2.2.1, List.pairwise_append] at hs
      have := hs.2.2 x hx y List.mem_cons_self
      simp only [want] at hBj
      simp only [rank]
      omega
  | nLock rd recA pA q todo done =>
    rw [hp] at hx o hBj
    cases todo with
    | nil => right; left; simp [rank]
    | cons y todo =>
      obtain ⟨y, e'⟩ := y
      simp only [held] at hx
      by_cases hxy : y ∈ done.map (·.1)
      · left
        unfold go
        rw [hp]
        dsimp only
        rw [if_pos (Or.inl hxy)]
        simp [M.to]
      · right; right
        obtain ⟨p, hp', rfl⟩ := List.mem_map.mp hx
        have hs := two_sorted (recA, .delegated) (rd, GSt.rd)
        rw [o.2.2.1, List.pairwise_append] at hs
        have := hs.2.2 p hp' (y, e') List.mem_cons_self
        dsimp only at this
        have hny : p.1 ≠ y := fun hh => hxy (hh ▸ hx)
        simp only [want] at hBj
        simp only [rank]
        omega
  | nTake => rw [hp] at hx; cases hx
  | dSum => right; left; simp [rank]
  | _ => right; left; simp [rank]

theorem lift_blocked {i : Nat} {r : Atom.Res} (h : lift m i r = .blocked) : r = .blocked := by
  cases r with
  | blocked => rfl
  | fail op => cases h
  | ok a d => cases d <;> cases h

/-- A CPU that waits waits for another one that moves or has lower rank. -/
theorem waits (I : LInv P n m s T) {B : Nat} (hB : ∀ i < n, want (m.pc i) < B) {i : Nat} (hi : i < n)
    (hne : m.pc i ≠ .idle) (hb : go P n m i = .blocked) :
    ∃ j < n, m.pc j ≠ .idle ∧ (go P n m j ≠ .blocked ∨ rank B (m.pc j) < rank B (m.pc i)) := by
  obtain ⟨ti, di, rl, h, hpc, -⟩ := id I.low
  change InvG P s ti di rl at h
  have hpc : ∀ i < n, PcOk P s ti (base (m.pc i)) := hpc
  have hold : ∀ {x}, ¬ Life.free n m x = true → 20 + (B - x) ≤ rank B (m.pc i) →
      ∃ j < n, m.pc j ≠ .idle ∧ (go P n m j ≠ .blocked ∨ rank B (m.pc j) < rank B (m.pc i)) := by
    intro x hf hr
    obtain ⟨j, hj, h1, h2⟩ := holder I h hpc hB hf
    refine ⟨j, hj, h1, ?_⟩
    rcases h2 with h2 | h2 | h2
    · exact Or.inl h2
    · right; omega
    · right; omega
  have own := I.ok i hi
  cases hp : m.pc i with
  | walk p =>
    unfold go at hb
    rw [hp] at hb hold
    have hb := lift_blocked hb
    have hpa : m.atom.pc i = p := by simp [M.atom, hp, shown]
    have hsa : m.atom.s = ov T s := I.mem
    have hpi := hpc i hi
    rw [hp] at hpi
    change PcOk P s ti p at hpi
    unfold Atom.go at hb
    rw [hpa] at hb
    cases p with
    | idle => exact absurd hp hne
    | locking op todo done =>
      cases todo with
      | nil =>
        dsimp only at hb
        split at hb
        · cases hb
        split at hb <;> simp [Atom.M.fin, Atom.M.to] at hb
      | cons p todo =>
        obtain ⟨x, e⟩ := p
        dsimp only at hb
        split at hb
        · simp [Atom.M.fin] at hb
        split at hb
        · split at hb <;> simp [Atom.M.fin, Atom.M.to] at hb
        rename_i hf
        rw [free_atom] at hf
        exact hold hf (by simp [rank, Atom.rank])
    | checked op c =>
      obtain ⟨b, _, hsame⟩ := hpi
      have hR := (h.rds _ b.rd)
      obtain ⟨h1, -⟩ := hR.roots 0 hR.geo.roots1
      rw [hsame] at h1
      simp only [Nat.mul_zero, Nat.add_zero] at h1
      dsimp only at hb
      split at hb
      · split at hb <;> simp [Atom.M.to] at hb
      rename_i hf
      rw [free_atom] at hf
      obtain ⟨j, hj, hx⟩ := not_free hf
      refine ⟨j, hj, fun hh => (by rw [hh] at hx; cases hx), Or.inr ?_⟩
      rcases I.tab h hpc hj hx h1 with ⟨op', c', h2, -⟩ | ⟨op', c', h2, h3⟩
      · rw [h2]; simp [rank, Atom.rank]
      · rw [h2]; simp only [rank, Atom.rank]; omega
    | root op c =>
      obtain ⟨b, hroot, hti⟩ := hpi
      have hlt : ipa op < c.r.ipaSize := pre_lt b.walk b.pre
      have hlt' : ipa op < (rdOf s (rdA op)).ipaSize := by rw [b.geo.ipa]; exact hlt
      obtain ⟨r1, r2, r3, r4⟩ := root_spec h b.rd hlt'
      rw [Atom.SameGeo.rootFor b.geo] at r1 r2 r3 r4
      dsimp only at hb
      split at hb
      swap
      · simp at hb
      split at hb
      · simp [Atom.M.to] at hb
      rename_i hn0
      split at hb
      · split at hb <;> simp [Atom.M.to] at hb
      rename_i hf
      rw [free_atom] at hf
      obtain ⟨j, hj, hx⟩ := not_free hf
      refine ⟨j, hj, fun hh => (by rw [hh] at hx; cases hx), Or.inr ?_⟩
      rcases I.tab h hpc hj hx r3 with ⟨op', c', h2, h3, h4, h5, h6⟩ | ⟨op', c', h2, h3⟩
      · rw [r4] at h4
        dsimp only at h4
        rw [← h4, r2] at h5
        omega
      · rw [h2]; simp only [rank, Atom.rank]; omega
    | walking op c d g =>
      obtain ⟨b, k, htgt⟩ := hpi
      have ng : T.g g = Option.none := I.sep.none (by rw [k.st]; simp)
      have child : ∀ x, tabOf s g (idx d (ipa op)) = .table x → ¬ Life.free n m x = true →
          ∃ j < n, m.pc j ≠ .idle ∧ (go P n m j ≠ .blocked ∨ rank B (m.pc j) < rank B (.walk (.walking op c d g))) := by
        intro x hent hf
        have hE := k.ent h
        rw [hent] at hE
        obtain ⟨_, e2, e3, e4, _⟩ := hE
        obtain ⟨j, hj, hx⟩ := not_free hf
        refine ⟨j, hj, fun hh => (by rw [hh] at hx; cases hx), Or.inr ?_⟩
        rcases I.tab h hpc hj hx e3 with ⟨op', c', h2, h3, h4, h5, h6⟩ | ⟨op', c', h2, h3⟩
        · rw [e4] at h4 h6
          dsimp only at h4 h6
          rw [← h4] at h6
          have := k.depth h
          omega
        · rw [h2, e4]; simp only [rank, Atom.rank]; omega
      have fin : (if ((extra m.atom.s ⟨g, d, idx d (ipa op)⟩ op).all (Atom.free n m.atom)) = true then
            match post P m.atom.s c.r c.q ⟨g, d, idx d (ipa op)⟩ op with
            | none => .fail op
            | some (s', ret) => m.atom.fin i op s' ret
          else .blocked) = Atom.Res.blocked →
          ∃ j < n, m.pc j ≠ .idle ∧ (go P n m j ≠ .blocked ∨ rank B (m.pc j) < rank B (.walk (.walking op c d g))) := by
        intro hh
        split at hh
        · split at hh <;> simp [Atom.M.fin] at hh
        rename_i hx
        rw [List.all_eq_true] at hx
        push Not at hx
        obtain ⟨x, hx, hfx⟩ := hx
        rw [free_atom] at hfx
        rw [hsa] at hx
        have hex : extra (ov T s) ⟨g, d, idx d (ipa op)⟩ op = extra s ⟨g, d, idx d (ipa op)⟩ op := by
          cases op <;> simp only [extra, tabOf_ov ng]
        rw [hex] at hx
        have hdata : ∀ rp pa, tabOf s g (idx d (ipa op)) = .assigned rp pa → d = 0 → x = pa → False := by
          intro rp pa hent hd0 hxp
          obtain ⟨j, hj, hxj⟩ := not_free hfx
          have h1 := I.heldSt hj hxj
          have hE := k.ent h
          rw [hent] at hE
          subst hd0 hxp
          have := (hE.2.2.2.2 0 (by simp)).1
          rw [Nat.mul_zero, Nat.add_zero] at this
          rw [this] at h1
          simp at h1
        cases op with
        | rttFold rd a lvl | rttDestroy rd a lvl =>
          simp only [extra] at hx
          split at hx
          · split at hx
            · rename_i c' hc'
              rw [List.mem_singleton] at hx
              subst hx
              exact child _ hc' hfx
            · cases hx
          · cases hx
        | dataDestroy rd a =>
          simp only [extra] at hx
          split at hx
          · rename_i hd0
            split at hx
            · rename_i rp pa hc'
              rw [List.mem_singleton] at hx
              exact (hdata _ _ hc' hd0 hx).elim
            · cases hx
          · cases hx
        | _ => cases hx
      dsimp only at hb
      rw [show getTab m.atom.s g = some (tabOf s g) by
        rw [hsa, getTab_ov ng]; exact getTab_eq h k.st] at hb
      dsimp only at hb
      split at hb
      · exact fin hb
      · split at hb
        · rename_i x hent
          split at hb
          · split at hb <;> simp [Atom.M.to] at hb
          · rename_i hf
            rw [free_atom] at hf
            exact child _ hent hf
        · exact fin hb
  | cLock rd pA q todo done =>
    unfold go at hb
    rw [hp] at hb hold
    cases todo with
    | nil =>
      dsimp only at hb
      split at hb <;> simp [M.fin, M.to] at hb
    | cons x todo =>
      dsimp only at hb
      split at hb
      · simp [M.to] at hb
      split at hb
      · split at hb <;> simp [M.to] at hb
      · rename_i hf
        exact hold hf (by simp [rank])
  | nLock rd recA pA q todo done =>
    unfold go at hb
    rw [hp] at hb hold
    cases todo with
    | nil =>
      dsimp only at hb
      split at hb
      · cases hb
      split at hb <;> simp [M.fin, M.to] at hb
    | cons y todo =>
      obtain ⟨x, e⟩ := y
      dsimp only at hb
      split at hb
      · simp [M.to] at hb
      split at hb
      · split at hb <;> simp [M.to] at hb
      · rename_i hf
        exact hold hf (by simp [rank])
  | nTake rd recA pA q todo done =>
    unfold go at hb
    rw [hp] at hb hold
    cases todo with
    | nil => simp [M.to] at hb
    | cons x todo =>
      dsimp only at hb
      split at hb
      · split at hb <;> simp [M.fin, M.to] at hb
      split at hb
      · split at hb
        · simp [M.to] at hb
        · split at hb <;> simp [M.fin, M.to] at hb
      · rename_i hf
        exact hold hf (by simp only [rank]; omega)
  | dSum rd r k acc =>
    unfold go at hb
    rw [hp] at hb own
    obtain ⟨_, o2, rfl, _⟩ := own
    dsimp only at hb
    split at hb
    · rename_i hk
      split at hb
      · split at hb <;> simp [M.to] at hb
      · rename_i hf
        obtain ⟨h1, -⟩ := (h.rds _ o2).roots k hk
        obtain ⟨j, hj, hx⟩ := not_free hf
        refine ⟨j, hj, fun hh => (by rw [hh] at hx; cases hx), Or.inr ?_⟩
        rcases I.tab h hpc hj hx h1 with ⟨op', c', h2, -⟩ | ⟨op', c', h2, h3⟩
        · rw [h2]; simp [rank, Atom.rank]
        · rw [h2]; simp only [rank, Atom.rank]; omega
    · split at hb
      · simp [M.fin, M.to] at hb
      · split at hb <;> simp [M.to] at hb
  | dFree rd r k =>
    have hf : ∀ x e, (x, e) ∈ tr (m.pc i) → x ≠ rd → Life.free n m x = true :=
      fun x e hx hne => I.freeTr hi hx (by rw [hp]; simp [held, hne])
    unfold go at hb
    rw [hp] at hb own hf
    dsimp only at hb
    have own : k ≤ r.nroots := own
    split at hb
    · rename_i hk
      have hmem : (r.root + 4096 * k, GSt.rtt) ∈ tr (.dFree rd r k) := by
        rw [mem_tr_dFree own]
        exact Or.inr ⟨k, le_refl _, hk, rfl, rfl⟩
      have hnd := I.trk.nd hi
      rw [hp] at hnd
      have hne : r.root + 4096 * k ≠ rd := by
        intro hh
        simp only [tr, List.map_cons, List.nodup_cons, List.map_map] at hnd
        apply hnd.1
        rw [← hh]
        refine List.mem_map.mpr ⟨k, ?_, rfl⟩
        rw [List.mem_range']
        exact ⟨0, by omega, by omega⟩
      rw [if_pos (hf _ _ hmem hne)] at hb
      split at hb <;> simp [M.to] at hb
    · simp [M.to] at hb
  | nFree rd recA pA q ret todo =>
    have hf : ∀ x e, (x, e) ∈ tr (m.pc i) → Life.free n m x = true :=
      fun x e hx => I.freeTr hi hx (by rw [hp]; simp [held])
    unfold go at hb
    rw [hp] at hb hf
    cases todo with
    | nil => simp [M.to] at hb
    | cons x todo =>
      dsimp only at hb
      rw [if_pos (hf x .recAux (by simp [tr]))] at hb
      split at hb <;> simp [M.to] at hb
  | kFree recA rd todo =>
    have hf : ∀ x e, (x, e) ∈ tr (m.pc i) → x ≠ recA → Life.free n m x = true :=
      fun x e hx hne => I.freeTr hi hx (by rw [hp]; simp [held, hne])
    unfold go at hb
    rw [hp] at hb hf
    cases todo with
    | nil => simp [M.to] at hb
    | cons x todo =>
      have hnd := I.trk.nd hi
      rw [hp] at hnd
      have hne : x ≠ recA := by
        rintro rfl
        simp [tr] at hnd
      dsimp only at hb
      rw [if_pos (hf x .recAux (by simp [tr]) hne)] at hb
      split at hb <;> simp [M.to] at hb
  | cReserve rd pA q =>
    unfold go at hb
    rw [hp] at hb
    dsimp only at hb
    split at hb
    · split at hb <;> simp [M.to] at hb
    · simp [M.fin, M.to] at hb
  | cUndo rd pA q =>
    unfold go at hb
    rw [hp] at hb
    simp [M.to] at hb
  | kPut recA rd =>
    unfold go at hb
    rw [hp] at hb
    dsimp only at hb
    split at hb <;> simp [M.to] at hb

/-- Some CPU moves, as long as one is inside a command. -/
theorem progress (I : LInv P n m s T) {i : Nat} (hi : i < n) (hne : m.pc i ≠ .idle) :
    ∃ j < n, m.pc j ≠ .idle ∧ go P n m j ≠ .blocked := by
  obtain ⟨B, hB⟩ : ∃ B, ∀ i < n, want (m.pc i) < B := by
    refine ⟨(Finset.range n).sup (fun i => want (m.pc i)) + 1, fun i hi => ?_⟩
    have := Finset.le_sup (f := fun i => want (m.pc i)) (Finset.mem_range.mpr hi)
    omega
  induction hr : rank B (m.pc i) using Nat.strong_induction_on generalizing i with
  | _ r ih =>
    by_cases hb : go P n m i = .blocked
    · obtain ⟨j, hj, h1, h2 | h2⟩ := waits I hB hi hne hb
      · exact ⟨j, hj, h1, h2⟩
      · exact ih _ (hr ▸ h2) hj h1 rfl
    · exact ⟨i, hi, hne, hb⟩

/-! ## Commands end -/

/-- Own steps a command has left, at most. -/
def fuel : Pc → Nat
  | .walk p => Atom.fuel p
  | .cReserve rd _ q => 3 + (order rd q).length
  | .cLock _ _ _ todo _ => 2 + todo.length
  | .cUndo .. => 1
  | .dSum _ r k _ => 3 + r.nroots + (r.nroots - k)
  | .dFree _ r k => 1 + (r.nroots - k)
  | .nTake _ _ _ q todo _ => 5 + q.auxList.length + todo.length
  | .nLock _ _ _ q todo _ => 2 + q.auxList.length + todo.length
  | .nFree _ _ _ _ _ todo => 1 + todo.length
  | .kFree _ _ todo => 2 + todo.length
  | .kPut .. => 1

theorem two_length (a b : Nat × GSt) : (two a b).length = 2 := by
  simp only [two]; split <;> rfl

/-- A step of a CPU brings its command closer to its end. -/
theorem go_fuel (I : LInv P n m s T) {i : Nat} (hi : i < n) {m' : M} {ev : List Ev} (e : go P n m i = .ok m' ev) :
    fuel (m'.pc i) < fuel (m.pc i) := by
  have hto : ∀ {s p ev'}, fuel p < fuel (m.pc i) → m.to i s p ev' = .ok m' ev → fuel (m'.pc i) < fuel (m.pc i) := by
    intro s p ev' h1 h
    unfold M.to at h
    injection h with h3 h4
    subst h3
    simp only [upd_same]
    exact h1
  unfold go at e
  cases hp : m.pc i with
  | walk p =>
    have hK : ∀ x ∈ held (m.pc i), T.g x = Option.none := by
      intro x hx
      cases hg : T.g x with
      | none => rfl
      | some y =>
        obtain ⟨e, c⟩ := y
        have := I.mine i hi x hx hg
        rw [hp] at this; cases this
    have hpl : (Life.low m s).pc i = p := by simp [Life.low, base, hp]
    have hpa : m.atom.pc i = p := by simp [M.atom, hp, shown]
    have hS := go_sim I.low I.sep I.mem (fun x hx => I.free hx) hK hi hp
    have hne : p ≠ .idle := by
      rintro rfl
      rw [hp] at e
      dsimp only at e
      unfold Atom.go at e
      rw [hpa] at e
      cases e
    have hpos : 0 < Atom.fuel p := by
      cases p with
      | idle => exact absurd rfl hne
      | _ => simp only [Atom.fuel]; omega
    rw [hp] at e hto
    dsimp only at e
    rcases hS with ⟨op, x, h1, _⟩ | ⟨h1, _⟩
    · rw [h1] at e
      refine hto ?_ e
      simp only [upd_same, fuel]
      exact hpos
    · rcases h1 with h1 | ⟨op, h1, _⟩ | ⟨a', b', d, h1, h2, _, h4⟩
      · rw [h1] at e; cases e
      · rw [h1] at e; cases e
      · rw [h1] at e
        have key : Atom.fuel (a'.pc i) < Atom.fuel p := by
          cases d with
          | none =>
            have := (Atom.go_fuel hi I.low h2).1
            rw [hpl] at this
            rw [h4]; exact this
          | some d =>
            have := (Atom.go_other h2).2.1
            rw [h4, this]; exact hpos
        cases d with
        | none => exact hto (p := .walk (a'.pc i)) key e
        | some d => exact hto (p := .walk (a'.pc i)) key e
  | cLock rd pA q todo done =>
    rw [hp] at e hto
    cases todo with
    | nil =>
      dsimp only [M.fin] at e
      repeat' split at e
      all_goals first
        | exact hto (by simp only [fuel, Atom.fuel, List.length_cons, List.length_nil, two_length]; omega) e
        | cases e
    | cons x todo =>
      dsimp only at e
      repeat' split at e
      all_goals first
        | exact hto (by simp only [fuel, Atom.fuel, List.length_cons, List.length_nil, two_length]; omega) e
        | cases e
  | nTake rd recA pA q todo done =>
    rw [hp] at e hto
    cases todo with
    | nil => exact hto (by simp only [fuel, Atom.fuel, List.length_cons, List.length_nil, two_length]; omega) e
    | cons x todo =>
      dsimp only [M.fin] at e
      repeat' split at e
      all_goals first
        | exact hto (by simp only [fuel, Atom.fuel, List.length_cons, List.length_nil, two_length]; omega) e
        | cases e
  | nLock rd recA pA q todo done =>
    rw [hp] at e hto
    cases todo with
    | nil =>
      dsimp only [M.fin] at e
      repeat' split at e
      all_goals first
        | exact hto (by simp only [fuel, Atom.fuel, List.length_cons, List.length_nil, two_length]; omega) e
        | cases e
    | cons x todo =>
      dsimp only at e
      repeat' split at e
      all_goals first
        | exact hto (by simp only [fuel, Atom.fuel, List.length_cons, List.length_nil, two_length]; omega) e
        | cases e
  | nFree rd recA pA q ret todo =>
    rw [hp] at e hto
    cases todo with
    | nil => exact hto (by simp only [fuel, Atom.fuel, List.length_cons, List.length_nil, two_length]; omega) e
    | cons x todo =>
      dsimp only at e
      repeat' split at e
      all_goals first
        | exact hto (by simp only [fuel, Atom.fuel, List.length_cons, List.length_nil, two_length]; omega) e
        | cases e
  | kFree recA rd todo =>
    rw [hp] at e hto
    cases todo with
    | nil => exact hto (by simp only [fuel, Atom.fuel, List.length_cons, List.length_nil, two_length]; omega) e
    | cons x todo =>
      dsimp only at e
      repeat' split at e
      all_goals first
        | exact hto (by simp only [fuel, Atom.fuel, List.length_cons, List.length_nil, two_length]; omega) e
        | cases e
  | _ =>
    rw [hp] at e hto
    try dsimp only [M.fin] at e
    repeat' split at e
    all_goals first
      | exact hto (by simp only [fuel, Atom.fuel, List.length_cons, List.length_nil, two_length]; omega) e
      | cases e

/-- The steps left to all CPUs. -/
def total (n : Nat) (m : M) : Nat := ((List.range n).map fun i => fuel (m.pc i)).sum

theorem Goes.inv (hP : PlatOk P) {k : Nat} {m m' : M} (g : Goes P n k m m') (I : ∃ s T, LInv P n m s T) :
    (∃ s T, LInv P n m' s T) ∧ k + total n m' ≤ total n m := by
  induction g with
  | refl => exact ⟨I, by omega⟩
  | @step k m m' m'' i ev _ hi e ih =>
    obtain ⟨⟨s, T, h1⟩, h2⟩ := ih I
    have k := go_out hP h1 hi
    rw [e] at k
    obtain ⟨s', T', h3, _⟩ := k
    refine ⟨⟨s', T', h3⟩, ?_⟩
    have h4 := go_fuel h1 hi e
    have h5 := mstep_pc (show mstep P n m' i .go = .ok m'' ev from e)
    have : total n m'' < total n m' := Atom.sum_lt hi h4 (fun j hj => by rw [h5, upd_ne _ _ _ hj])
    omega

end

end Verif.Life
