import Verif.Life.Destroy

/-!
# REC_CREATE and REC_DESTROY keep the invariant
-/

namespace Verif.Life

open Rmm
open Atom (MInv PcOk Keeps isWalk foot two rdA user)

/-- A delegated granule becomes an auxiliary granule. -/
def Ov.take (T : Ov) (a : Nat) : Ov := { T with g := upd T.g a (some (.recAux, .page 0)) }

/-- The auxiliary granules are those of a REC now. -/
def Ov.give (T : Ov) (l : List Nat) : Ov := { T with g := fun a => if a ∈ l then none else T.g a }

/-- A REC stays what it is though it is gone, and so do its auxiliary granules and its reference. -/
def Ov.ending (T : Ov) (s : State) (recA : Nat) (c : Rec) : Ov :=
  { T with
    g := fun a => if a = recA then some (.recd, s.mem recA) else if a ∈ c.aux then some (.recAux, s.mem a) else T.g a
    rc := upd T.rc c.rd (T.rc c.rd + 1) }

/-- A reference is dropped. -/
def Ov.put (T : Ov) (rd : Nat) : Ov := { T with rc := upd T.rc rd (T.rc rd - 1) }

section
variable {P : Plat} {n : Nat} {m : M} {s : State} {T : Ov}

theorem mem_map_aux {l : List Nat} {a : Nat} {e : GSt} : (a, e) ∈ l.map (·, GSt.recAux) ↔ a ∈ l ∧ e = .recAux := by
  simp only [List.mem_map, Prod.mk.injEq]
  constructor
  · rintro ⟨b, h, rfl, rfl⟩; exact ⟨h, rfl⟩
  · rintro ⟨h, rfl⟩; exact ⟨a, h, rfl, rfl⟩

theorem map_aux_fst (l : List Nat) : (l.map (·, GSt.recAux)).map (·.1) = l := by
  rw [List.map_map]; exact List.map_id l

theorem nTake_ok (I : LInv P n m s T) {i : Nat} (hi : i < n) {rd recA pA : Nat} {q : RecParams}
    {todo done : List Nat} (hp : m.pc i = .nTake rd recA pA q todo done) : LOut P n m s i (go P n m i) := by
  have h1 : tr (m.pc i) = done.map (·, .recAux) := by rw [hp]; rfl
  have h2 : vmOf (m.pc i) = none := by rw [hp]; rfl
  have h3 : putOf (m.pc i) = none := by rw [hp]; rfl
  have o := I.ok i hi
  rw [hp] at o
  obtain ⟨o1, o2, o3⟩ := o
  obtain ⟨ti, di, rl, h⟩ := inv_of I
  unfold go
  rw [hp]
  cases todo with
  | nil =>
    dsimp only
    rw [List.append_nil] at o2
    refine ⟨s, T, I.move hi (Or.inr rfl) (by rw [h1, ← o2]; rfl) (by rw [h2]; rfl) (by rw [h3]; rfl)
      (fun x hx => (by cases hx)) (fun _ _ h => (by cases h)) ⟨o1, by rw [o2]; exact o3, rfl, fun x hx => (by cases hx)⟩,
      Or.inl ⟨rfl, rfl⟩⟩
  | cons a todo =>
    dsimp only
    have ha : a ∈ q.auxList := by rw [o2]; simp
    have bad : (done = [] → others n m i = true ∨ Refused P s (.recCreate rd recA pA q)) → LOut P n m s i
        (if done = [] then m.fin i m.s (.recCreate rd recA pA q) errInput else .fail (.recCreate rd recA pA q)) := by
      intro hb
      by_cases hd : done = []
      · rw [if_pos hd]
        exact ⟨s, T, I.idle hi (by rw [h1, hd]; rfl) h2 h3, Or.inr ⟨_, _, rfl, Or.inr (Or.inr ⟨rfl, by decide, hb hd⟩)⟩⟩
      · rw [if_neg hd]
        exact Or.inr ⟨rd, recA, pA, q, _, done, rfl, hp, hd⟩
    by_cases ht : P.tracked a = false
    · rw [if_pos ht]
      refine bad fun _ => Or.inr fun s' ret k => ?_
      rw [(k.aux a ha).1] at ht; cases ht
    rw [if_neg ht]
    by_cases hf : free n m a = true
    swap
    · rw [if_neg hf]; trivial
    rw [if_pos hf]
    by_cases hs : m.s.st a = .delegated
    swap
    · rw [if_neg hs]
      refine bad fun hd => ?_
      rw [I.mem] at hs
      rcases I.sep.ndel hs with g | g
      · exact Or.inr fun s' ret k => g (k.aux a ha).2
      · exact Or.inl (I.busy g (fun e => (by rw [h1, hd]; simp)))
    rw [if_pos hs]
    rw [I.mem] at hs
    obtain ⟨g1, g2⟩ := I.sep.del hs
    have hna : a ∉ done := by
      intro hc
      rw [(o3 a hc).2] at g1; cases g1
    have htr : ∀ b e, (b, e) ∈ tr (.nTake rd recA pA q todo (done ++ [a])) ↔ (b ∈ done ∨ b = a) ∧ e = .recAux := by
      intro b e
      simp only [tr]
      rw [mem_map_aux]; simp
    have hg : ∀ b, b ≠ a → (T.take a).g b = T.g b := fun b hb => upd_ne _ _ _ hb
    refine ⟨s, T.take a, I.turn hi ?_ rfl ⟨?_, I.sep.rc, I.sep.vm, I.sep.cap⟩ ⟨?_, ?_, ?_, ?_, ?_, ?_, ?_, ?_⟩
      (fun x hx => (by cases hx)) (fun x hx => (by cases hx)) ?_ (fun _ => le_refl _) (fun _ _ h => (by cases h))
      ⟨o1, by rw [o2]; simp, ?_⟩, Or.inl ⟨rfl, rfl⟩⟩
    · rw [I.mem]
      refine state_ext (fun b => ?_) (fun _ => rfl) (fun b => ?_) (fun _ => rfl) (fun _ => rfl)
      · simp only [ov, ovSt, Ov.take, upd]
        by_cases hb : b = a
        · simp [hb]
        · simp [hb]
      · simp only [ov, ovMem, Ov.take, upd]
        by_cases hb : b = a
        · simp [hb, g1, h.delPage a g2]
        · simp [hb]
    · intro b e c hgb
      by_cases hb : b = a
      · rw [hb] at hgb ⊢
        simp only [Ov.take, upd_same] at hgb
        cases hgb
        exact ⟨g2, by simp⟩
      · rw [hg b hb] at hgb; exact I.sep.g hgb
    · intro b hb _
      exact hg b fun hh => hb .recAux ((htr b _).mpr ⟨Or.inr hh, rfl⟩)
    · intro b e hb
      obtain ⟨hb, rfl⟩ := (htr b e).mp hb
      by_cases hba : b = a
      · rw [hba]; exact ⟨_, upd_same _ _ _⟩
      · rw [hg b hba]
        exact ⟨_, (o3 b (by tauto)).2⟩
    · intro b e hb hb'
      rw [h1, mem_map_aux] at hb
      exact absurd ((htr b .recAux).mpr ⟨Or.inl hb.1, rfl⟩) (hb' _)
    · intro b e hb
      obtain ⟨hb', rfl⟩ := (htr b e).mp hb
      rcases hb' with hb | rfl
      · left; exact ⟨.recAux, by rw [h1, mem_map_aux]; exact ⟨hb, rfl⟩⟩
      · right; exact g1
    · show (((done ++ [a]).map (·, GSt.recAux)).map (·.1)).Nodup
      rw [map_aux_fst]
      have := I.trk.nd hi
      rw [h1, map_aux_fst] at this
      exact List.nodup_append.mpr ⟨this, by simp, by
        intro x hx y hy; simp only [List.mem_singleton] at hy; rw [hy]; rintro rfl; exact hna hx⟩
    · intro v; rw [h2]; simp [vmOf, Ov.take]
    · intro v hv; cases hv
    · intro b; rw [h3]; rfl
    · intro j hj hne x hx e he
      obtain ⟨he', rfl⟩ := (htr x e).mp he
      rcases he' with he | rfl
      · exact ⟨.recAux, by rw [h1, mem_map_aux]; exact ⟨he, rfl⟩⟩
      · exact absurd hx ((free_iff ..).mp hf j hj)
    · intro b hb
      simp only [List.mem_append, List.mem_singleton] at hb
      by_cases hba : b = a
      · rw [hba]; exact ⟨by simpa using ht, upd_same _ _ _⟩
      · rw [hg b hba]; exact o3 b (by tauto)

theorem two_nodup {a b : Nat × GSt} (h : a.1 ≠ b.1) : ((two a b).map (·.1)).Nodup := by
  unfold two
  split <;> simp [h, Ne.symm h]

theorem nLock_ok (I : LInv P n m s T) {i : Nat} (hi : i < n) {rd recA pA : Nat} {q : RecParams}
    {todo done : List (Nat × GSt)} (hp : m.pc i = .nLock rd recA pA q todo done) : LOut P n m s i (go P n m i) := by
  have h1 : tr (m.pc i) = q.auxList.map (·, .recAux) := by rw [hp]; rfl
  have h2 : vmOf (m.pc i) = none := by rw [hp]; rfl
  have h3 : putOf (m.pc i) = none := by rw [hp]; rfl
  have o := I.ok i hi
  rw [hp] at o
  obtain ⟨o1, o2, o3, o4⟩ := o
  obtain ⟨ti, di, rl, h, hpc, hd⟩ := I.low
  change InvG P s ti di rl at h
  -- giving up
  have bad : ∀ ret : Ret, ret.status ≠ 0 → (others n m i = true ∨ Refused P s (.recCreate rd recA pA q)) →
      LOut P n m s i (m.to i m.s (.nFree rd recA pA q ret q.auxList) [.point i (.recCreate rd recA pA q) ret]) := by
    intro ret hr hb
    exact ⟨s, T, I.move hi (Or.inr rfl) (by rw [h1]; rfl) (by rw [h2]; rfl) (by rw [h3]; rfl)
      (fun x hx => (by cases hx)) (fun _ _ h => (by cases h)) ⟨hr, fun a ha => (o2 a ha).2⟩,
      Or.inr ⟨_, _, rfl, Or.inr (Or.inr ⟨rfl, hr, hb⟩)⟩⟩
  have hst0 : errInput.status ≠ 0 := by decide
  unfold go
  rw [hp]
  cases todo with
  | cons y todo =>
    obtain ⟨x, e⟩ := y
    dsimp only
    have hx : (x, e) = (recA, .delegated) ∨ (x, e) = (rd, GSt.rd) := by
      rw [← Atom.mem_two, o3]; simp
    have need : ∀ s' ret, RecCreateOk P s rd recA q s' ret → P.tracked x = true ∧ s.st x = e ∧ x ∉ q.auxList := by
      intro s' ret k
      rcases hx with hx | hx <;> cases hx
      · exact ⟨k.recd.1, k.recd.2, k.recNot⟩
      · refine ⟨h.trk _ (by rw [k.rd]; simp), k.rd, fun hc => ?_⟩
        have := (k.aux _ hc).2
        rw [k.rd] at this; cases this
    by_cases ht : x ∈ done.map (·.1) ∨ P.tracked x = false
    · rw [if_pos ht]
      refine bad _ hst0 (Or.inr fun s' ret k => ?_)
      rcases ht with ht | ht
      · have hne : recA ≠ rd := by
          rintro rfl
          have := k.rd
          rw [k.recd.2] at this; cases this
        have := two_nodup (a := (recA, .delegated)) (b := (rd, GSt.rd)) hne
        rw [o3, List.map_append, List.map_cons, List.perm_middle.nodup_iff, List.nodup_cons] at this
        exact this.1 (List.mem_append_left _ ht)
      · rw [(need s' ret k).1] at ht; cases ht
    rw [if_neg ht]
    by_cases hf : free n m x = true
    swap
    · rw [if_neg hf]; trivial
    rw [if_pos hf]
    by_cases hs : m.s.st x = e
    swap
    · rw [if_neg hs]
      refine bad _ hst0 ?_
      by_cases hg : T.g x = none
      · right
        intro s' ret k
        apply hs
        rw [I.mem]
        simpa [ov, ovSt_none _ hg] using (need s' ret k).2.1
      · by_cases hown : x ∈ q.auxList
        · exact Or.inr fun s' ret k => (need s' ret k).2.2 hown
        · exact Or.inl (I.busy hg fun e' => (by rw [h1, mem_map_aux]; exact fun hh => hown hh.1))
    rw [if_pos hs]
    have hg : T.g x = none ∧ s.st x = e := by
      rcases hx with hx | hx <;> cases hx
      · rw [I.mem] at hs; exact I.sep.del hs
      · obtain ⟨f1, f2⟩ := I.freeSt hf (e := .rd) (Or.inl rfl)
        exact ⟨f2 (f1.mp hs), f1.mp hs⟩
    have hna : x ∉ q.auxList := by
      intro hc; rw [(o2 x hc).2] at hg; cases hg.1
    have hnr : s.st x ≠ .rtt := by
      rw [hg.2]; rcases hx with hx | hx <;> cases hx <;> simp
    refine ⟨s, T, I.move hi (Or.inr rfl) (by rw [h1]; rfl) (by rw [h2]; rfl) (by rw [h3]; rfl) ?_
      (fun _ _ h => (by cases h)) ⟨o1, o2, by rw [o3]; simp, ?_⟩, Or.inl ⟨rfl, rfl⟩⟩
    · intro y hy
      rw [hp]
      simp only [held, List.map_append, List.map_cons, List.map_nil, List.mem_append, List.mem_singleton] at hy ⊢
      rcases hy with hy | rfl
      · exact Or.inl hy
      · exact Or.inr ⟨hf, hg.1, hnr⟩
    · intro y hy
      simp only [List.mem_append, List.mem_singleton] at hy
      rcases hy with hy | rfl
      · exact o4 y hy
      · exact ⟨by simpa using fun hh => ht (Or.inr hh), hg.2, hna⟩
  | nil =>
    dsimp only
    rw [List.append_nil] at o3
    have l1 := o4 (recA, .delegated) (by rw [← o3, Atom.mem_two]; simp)
    have l2 := o4 (rd, .rd) (by rw [← o3, Atom.mem_two]; simp)
    dsimp only at l1 l2
    have hgr : T.g rd = none := I.sep.none (by rw [l2.2.1]; simp)
    have hgc : T.g recA = none := by
      cases hg : T.g recA with
      | none => rfl
      | some y =>
        obtain ⟨e, c⟩ := y
        have := I.mine i hi recA (by rw [hp]; exact List.mem_map.mpr ⟨(recA, .delegated), by rw [← o3, Atom.mem_two]; simp, rfl⟩) hg
        rw [h1, mem_map_aux] at this
        exact absurd this.1 l1.2.2
    have hR := h.rds rd l2.2.1
    have : getRd m.s rd = some (rdOf s rd) := by rw [I.mem, getRd_ov hgr, getRd_eq h l2.2.1]
    rw [this]
    dsimp only
    have hrc : m.s.rc rd = s.rc rd + T.rc rd := by rw [I.mem]; rfl
    unfold nCheck
    by_cases k1 : m.s.rc rd = 1023
    · rw [if_pos k1]
      refine bad _ (by decide) ?_
      by_cases hz : T.rc rd = 0
      · right; intro s' ret k; exact k.rc (by omega)
      · left; exact I.busyRc hz (by rw [h3]; simp)
    rw [if_neg k1]
    by_cases k2 : (rdOf s rd).state ≠ .new
    · rw [if_pos k2]
      exact bad _ (by decide) (Or.inr fun s' ret k => k2 k.new)
    rw [if_neg k2]
    by_cases k3 : Mpidr.isValid q.mpidr = false ∨ (Mpidr.toIdx q.mpidr).toNat ≠ (rdOf s rd).recCount
    · rw [if_pos k3]
      refine bad _ hst0 (Or.inr fun s' ret k => ?_)
      rcases k3 with k3 | k3
      · rw [k.mpidr.1] at k3; cases k3
      · exact k3 k.mpidr.2
    rw [if_neg k3]
    by_cases k4 : q.numAux ≠ (rdOf s rd).numAux
    · rw [if_pos k4]
      exact bad _ hst0 (Or.inr fun s' ret k => k4 k.num)
    rw [if_neg k4]
    dsimp only
    have hnd := I.trk.nd hi
    rw [h1, map_aux_fst] at hnd
    have hcap := I.sep.cap l2.2.1
    have haux : ∀ a ∈ q.auxList, s.st a = .delegated := fun a ha => (I.sep.g (o2 a ha).2).1
    have K : RecCreateOk P s rd recA q (recCreateSt (markAux s q.auxList) rd recA (rdOf s rd) q q.auxList) {} :=
      ⟨fun a ha => ⟨(o2 a ha).1, haux a ha⟩, hnd, by simpa using k4, ⟨l1.1, l1.2.1⟩, l1.2.2, l2.2.1, by simpa using k2,
        by omega, by
          have : ¬ Mpidr.isValid q.mpidr = false := fun hh => k3 (Or.inl hh)
          have h' : ¬ (Mpidr.toIdx q.mpidr).toNat ≠ (rdOf s rd).recCount := fun hh => k3 (Or.inr hh)
          exact ⟨by simpa using this, by simpa using h'⟩, rfl, rfl⟩
    have hst : ∀ x, x ≠ recA → x ∉ q.auxList →
        (recCreateSt (markAux s q.auxList) rd recA (rdOf s rd) q q.auxList).st x = s.st x := by
      intro x n1 n2
      simp only [recCreateSt, markAux]
      rw [upd_ne _ _ _ n1, if_neg n2]
    have hg : ∀ a, a ∉ q.auxList → (T.give q.auxList).g a = T.g a := fun a ha => if_neg ha
    have hg0 : ∀ a ∈ q.auxList, (T.give q.auxList).g a = none := fun a ha => if_pos ha
    refine ⟨_, T.give q.auxList, I.commit h hpc hi (p := .idle) rfl (op := .recCreate rd recA pA q) K rfl (K.inv h)
      (fun _ _ => rfl) ?_ (fun _ hh => (by cases hh)) ?_ ⟨?_, ?_, I.sep.vm, ?_⟩
      ⟨?_, fun _ _ hh => (by cases hh), ?_, fun _ _ hh => (by cases hh), List.nodup_nil, ?_,
        fun _ hh => (by cases hh), ?_⟩ (fun x hx => (by cases hx)) (fun x hx => (by cases hx))
      (fun _ _ _ _ _ _ hh => (by cases hh)) ?_ ?_ (fun _ _ h => (by cases h)) trivial,
      Or.inr ⟨_, _, rfl, Or.inr (Or.inl K)⟩⟩
    · -- footprint
      intro j hj hne x hx hxf
      simp only [foot, List.mem_cons] at hxf
      have hin : ∀ p, p ∈ done → p.1 ∈ held (m.pc i) := by
        intro p hp'; rw [hp]; exact List.mem_map.mpr ⟨p, hp', rfl⟩
      rcases hxf with rfl | rfl | hxf
      · exact I.excl i hi j hj (Ne.symm hne) x (hin (x, .rd) (by rw [← o3, Atom.mem_two]; simp)) hx
      · exact I.excl i hi j hj (Ne.symm hne) x (hin (x, .delegated) (by rw [← o3, Atom.mem_two]; simp)) hx
      · have := I.mine j hj x hx (o2 x hxf).2
        exact hne (I.trk.one hj hi this (by rw [h1, mem_map_aux]; exact ⟨hxf, rfl⟩))
    · -- memory
      rw [I.mem]
      refine state_ext (fun x => ?_) (fun x => ?_) (fun x => ?_) (fun _ => rfl) (fun _ => rfl)
      · simp only [recCreateSt, markAux, ov, ovSt]
        by_cases hx : x = recA
        · rw [hx, upd_same, upd_same, hg _ l1.2.2, hgc]
        · rw [upd_ne _ _ _ hx, upd_ne _ _ _ hx]
          by_cases hx2 : x ∈ q.auxList
          · simp only [hg0 x hx2, ovSt, (o2 x hx2).2, if_pos hx2]
          · simp only [hg x hx2, ovSt, if_neg hx2]
      · simp only [recCreateSt, markAux, ov, ovRc, upd, Ov.give]
        split
        · rename_i he; rw [he]; omega
        · rfl
      · simp only [recCreateSt, markAux, ov, ovMem]
        by_cases hx : x = rd
        · rw [hx, upd_same, upd_same, hg _ l2.2.2, hgr]
        · rw [upd_ne _ _ _ hx, upd_ne _ _ _ hx]
          by_cases hx1 : x = recA
          · rw [hx1, upd_same, upd_same, hg _ l1.2.2, hgc]
          · rw [upd_ne _ _ _ hx1, upd_ne _ _ _ hx1]
            by_cases hx2 : x ∈ q.auxList
            · simp only [hg0 x hx2, ovMem, (o2 x hx2).2, h.delPage x (haux x hx2)]
            · simp only [hg x hx2, ovMem]
    · intro a e c hga
      have ha : a ∉ q.auxList := by intro hc; rw [hg0 a hc] at hga; cases hga
      rw [hg a ha] at hga
      have n1 : a ≠ recA := by rintro rfl; rw [hgc] at hga; cases hga
      rw [hst a n1 ha]
      exact I.sep.g hga
    · intro a ha
      have hs := I.sep.rc ha
      rw [hst a (by rintro rfl; rw [l1.2.1] at hs; cases hs) (fun hc => by rw [haux a hc] at hs; cases hs), hs]
    · intro a ha
      simp only [recCreateSt, markAux] at ha ⊢
      have n1 : a ≠ recA := by rintro rfl; rw [upd_same] at ha; cases ha
      rw [upd_ne _ _ _ n1] at ha
      split at ha
      · cases ha
      · show upd s.rc rd (s.rc rd + 1) a + T.rc a ≤ 1023
        by_cases har : a = rd
        · rw [har, upd_same]; omega
        · rw [upd_ne _ _ _ har]; exact I.sep.cap ha
    · intro a _ ha
      exact hg a fun hc => ha .recAux (by rw [h1, mem_map_aux]; exact ⟨hc, rfl⟩)
    · intro a e ha _
      rw [h1, mem_map_aux] at ha
      exact hg0 a ha.1
    · intro v; rw [h2]; simp [vmOf, Ov.give]
    · intro a; rw [h3]; rfl
    · intro j hj hne rd' r k acc hpj
      have o := I.ok j hj
      rw [hpj] at o
      exact o.2.2.2.2.1
    · intro x hx
      simp only [recCreateSt, markAux]
      exact upd_ne _ _ _ (by rintro rfl; rw [l2.2.1] at hx; cases hx)

theorem nFree_ok (I : LInv P n m s T) {i : Nat} (hi : i < n) {rd recA pA : Nat} {q : RecParams} {ret : Ret}
    {todo : List Nat} (hp : m.pc i = .nFree rd recA pA q ret todo) : LOut P n m s i (go P n m i) := by
  have o := I.ok i hi
  rw [hp] at o
  obtain ⟨o1, o2⟩ := o
  unfold go
  rw [hp]
  cases todo with
  | nil =>
    dsimp only
    exact ⟨s, T, I.idle hi (by rw [hp]; rfl) (by rw [hp]; rfl) (by rw [hp]; rfl), Or.inl ⟨rfl, rfl⟩⟩
  | cons a todo =>
    dsimp only
    by_cases hf : free n m a = true
    swap
    · rw [if_neg hf]; trivial
    rw [if_pos hf]
    have hc := o2 a (by simp)
    have hst : m.s.st a = .recAux := by rw [I.mem]; simp [ov, ovSt, hc]
    rw [if_pos hst]
    obtain ⟨c1, c2⟩ := I.clean (x := a) (by rw [hc]; simp)
    have hnd := I.trk.nd hi
    rw [hp] at hnd
    simp only [tr] at hnd
    rw [map_aux_fst, List.nodup_cons] at hnd
    refine ⟨s, T.drop a, I.drop hi (x := a) (e := .recAux) (l1 := []) (l2 := todo.map (·, .recAux)) (by rw [hp]; rfl) rfl
      (by rw [hp]; rfl) (by rw [hp]; rfl) rfl (fun y hy => (by cases hy)) (fun _ _ h => (by cases h)) ?_ ⟨o1, ?_⟩,
      Or.inl ⟨rfl, rfl⟩⟩
    · rw [← wipe_ov c1 c2, I.mem]
      refine state_ext (fun _ => rfl) (fun _ => rfl) (fun b => ?_) (fun _ => rfl) (fun _ => rfl)
      simp only [wipe, upd]
      split
      · rename_i he; rw [he]; simp [ov, ovMem, hc]
      · rfl
    · intro b hb
      have : b ≠ a := by rintro rfl; exact hnd.1 hb
      simp only [Ov.drop]
      rw [upd_ne _ _ _ this]
      exact o2 b (by simp [hb])

theorem kFree_ok (I : LInv P n m s T) {i : Nat} (hi : i < n) {rd recA : Nat} {todo : List Nat}
    (hp : m.pc i = .kFree recA rd todo) : LOut P n m s i (go P n m i) := by
  unfold go
  rw [hp]
  cases todo with
  | nil =>
    dsimp only
    obtain ⟨c, hc⟩ := I.trk.has hi (a := recA) (e := .recd) (by rw [hp]; simp [tr])
    obtain ⟨c1, c2⟩ := I.clean (x := recA) (by rw [hc]; simp)
    refine ⟨s, T.drop recA, I.drop hi (x := recA) (e := .recd) (l1 := []) (l2 := []) (by rw [hp]; rfl) rfl
      (by rw [hp]; rfl) (by rw [hp]; rfl) rfl (fun y hy => (by cases hy)) (fun _ _ h => (by cases h)) ?_ trivial,
      Or.inl ⟨rfl, rfl⟩⟩
    rw [I.mem]; exact wipe_ov c1 c2
  | cons a todo =>
    dsimp only
    by_cases hf : free n m a = true
    swap
    · rw [if_neg hf]; trivial
    rw [if_pos hf]
    obtain ⟨c, hc⟩ := I.trk.has hi (a := a) (e := .recAux) (by rw [hp]; simp [tr])
    have hst : m.s.st a = .recAux := by rw [I.mem]; simp [ov, ovSt, hc]
    rw [if_pos hst]
    obtain ⟨c1, c2⟩ := I.clean (x := a) (by rw [hc]; simp)
    refine ⟨s, T.drop a, I.drop hi (x := a) (e := .recAux) (l1 := [(recA, .recd)]) (l2 := todo.map (·, .recAux))
      (by rw [hp]; rfl) rfl (by rw [hp]; rfl) (by rw [hp]; rfl) rfl (fun y hy => (by rw [hp]; exact hy))
      (fun _ _ h => (by cases h)) ?_ trivial, Or.inl ⟨rfl, rfl⟩⟩
    rw [I.mem]; exact wipe_ov c1 c2

theorem kPut_ok (I : LInv P n m s T) {i : Nat} (hi : i < n) {rd recA : Nat}
    (hp : m.pc i = .kPut recA rd) : LOut P n m s i (go P n m i) := by
  have h1 : tr (m.pc i) = [] := by rw [hp]; rfl
  have h2 : vmOf (m.pc i) = none := by rw [hp]; rfl
  have h3 : putOf (m.pc i) = some rd := by rw [hp]; rfl
  have hpos : 1 ≤ T.rc rd := by
    have := cnt_upd m.pc i .idle rd n hi
    rw [if_pos h3, if_neg (by simp [putOf])] at this
    rw [I.trk.rc]; omega
  have hrc : m.s.rc rd = s.rc rd + T.rc rd := by rw [I.mem]; rfl
  unfold go
  rw [hp]
  dsimp only
  rw [if_pos (show 1 ≤ m.s.rc rd by omega)]
  refine ⟨s, T.put rd, I.turn hi ?_ rfl ⟨I.sep.g, ?_, I.sep.vm, ?_⟩ ⟨fun _ _ _ => rfl, fun _ _ hh => (by cases hh), ?_,
    fun _ _ hh => (by cases hh), List.nodup_nil, ?_, fun _ hh => (by cases hh), ?_⟩
    (fun x hx => (by cases hx)) (fun x hx => (by cases hx)) (fun _ _ _ _ _ _ hh => (by cases hh))
    ?_ (fun _ _ h => (by cases h)) trivial, Or.inl ⟨rfl, rfl⟩⟩
  · rw [I.mem]
    refine state_ext (fun _ => rfl) (fun x => ?_) (fun _ => rfl) (fun _ => rfl) (fun _ => rfl)
    simp only [ov, ovRc, Ov.put, upd]
    split
    · rename_i he; rw [he]; omega
    · rfl
  · intro a ha
    refine I.sep.rc (a := a) ?_
    simp only [Ov.put, upd] at ha
    split at ha
    · rename_i he; rw [he]; omega
    · exact ha
  · intro a ha
    have := I.sep.cap ha
    simp only [Ov.put, upd]
    split
    · rename_i he; rw [he] at this ⊢; omega
    · exact this
  · rw [h1]; exact fun _ _ hh => (by cases hh)
  · intro v; rw [h2]; simp [vmOf, Ov.put]
  · intro a
    rw [h3]
    simp only [Ov.put, upd, putOf, Option.some.injEq]
    by_cases he : a = rd
    · rw [he]; simp; omega
    · simp [he, Ne.symm he]
  · intro a
    simp only [Ov.put, upd]
    split
    · rename_i he; rw [he]; omega
    · exact le_refl _

/-! ## Beginnings -/

theorem page_ov (I : LInv P n m s T) (pA : Nat) :
    (lk P m.s pA .ns && decide (m.s.pas pA = .ns)) = (lk P s pA .ns && decide (s.pas pA = .ns)) := by
  rw [I.mem, I.sep.lkNs]; rfl

theorem realmCreate_start (I : LInv P n m s T) {i : Nat} (hi : i < n) {rd pA : Nat} {q : RealmParams}
    (hp : m.pc i = .walk .idle) : LOut P n m s i (start P n m i (.realmCreate rd pA q)) := by
  have h1 : tr (m.pc i) = [] := by rw [hp]; rfl
  have h2 : vmOf (m.pc i) = none := by rw [hp]; rfl
  have h3 : putOf (m.pc i) = none := by rw [hp]; rfl
  unfold start
  rw [hp]
  dsimp only
  rw [page_ov I]
  have hs : step P s (.realmCreate rd pA q) = realmCreate P s rd pA q := rfl
  by_cases hc : (lk P s pA .ns && decide (s.pas pA = .ns)) = true
  swap
  · rw [if_neg hc]
    refine ⟨s, T, I.idle hi h1 h2 h3, Or.inr ⟨_, _, rfl, Or.inl ?_⟩⟩
    rw [hs]; unfold realmCreate; rw [if_neg hc]
  rw [if_pos hc]
  cases hv : Features.validateRealmParams P.hw q.p with
  | none =>
    left
    show realmCreate P s rd pA q = none
    unfold realmCreate
    rw [if_pos hc, hv]
  | some b =>
    cases b with
    | false =>
      refine ⟨s, T, I.idle hi h1 h2 h3, Or.inr ⟨_, _, rfl, Or.inl ?_⟩⟩
      rw [hs]; unfold realmCreate; rw [if_pos hc, hv]
    | true =>
      exact ⟨s, T, I.move hi (Or.inr rfl) (by rw [h1]; rfl) (by rw [h2]; rfl) (by rw [h3]; rfl)
        (fun x hx => (by cases hx)) (fun _ _ h => (by cases h)) hv, Or.inl ⟨rfl, rfl⟩⟩

theorem recCreate_start (I : LInv P n m s T) {i : Nat} (hi : i < n) {rd recA pA : Nat} {q : RecParams}
    (hp : m.pc i = .walk .idle) : LOut P n m s i (start P n m i (.recCreate rd recA pA q)) := by
  have h1 : tr (m.pc i) = [] := by rw [hp]; rfl
  have h2 : vmOf (m.pc i) = none := by rw [hp]; rfl
  have h3 : putOf (m.pc i) = none := by rw [hp]; rfl
  unfold start
  rw [hp]
  dsimp only
  rw [page_ov I]
  have hs : step P s (.recCreate rd recA pA q) = recCreate P s rd recA pA q := rfl
  by_cases hc : (lk P s pA .ns && decide (s.pas pA = .ns)) = true
  swap
  · rw [if_neg hc]
    refine ⟨s, T, I.idle hi h1 h2 h3, Or.inr ⟨_, _, rfl, Or.inl ?_⟩⟩
    rw [hs]; unfold recCreate; rw [if_neg hc]
  rw [if_pos hc]
  by_cases h16 : 16 < q.numAux
  · rw [if_pos h16]
    refine ⟨s, T, I.idle hi h1 h2 h3, Or.inr ⟨_, _, rfl, Or.inl ?_⟩⟩
    rw [hs]; unfold recCreate; rw [if_pos hc, if_pos h16]
  · rw [if_neg h16]
    exact ⟨s, T, I.move hi (Or.inr rfl) (by rw [h1]; rfl) (by rw [h2]; rfl) (by rw [h3]; rfl)
      (fun x hx => (by cases hx)) (fun _ _ h => (by cases h)) ⟨by omega, rfl, fun x hx => (by cases hx)⟩,
      Or.inl ⟨rfl, rfl⟩⟩

theorem recDestroy_start (I : LInv P n m s T) {i : Nat} (hi : i < n) {recA : Nat}
    (hp : m.pc i = .walk .idle) : LOut P n m s i (start P n m i (.recDestroy recA)) := by
  have h1 : tr (m.pc i) = [] := by rw [hp]; rfl
  have h2 : vmOf (m.pc i) = none := by rw [hp]; rfl
  have h3 : putOf (m.pc i) = none := by rw [hp]; rfl
  obtain ⟨ti, di, rl, h, hpc, hd⟩ := I.low
  change InvG P s ti di rl at h
  have hs' : step P s (.recDestroy recA) = recDestroy P s recA := rfl
  have bad : ¬ lk P s recA .recd = true → LOut P n m s i (m.fin i m.s (.recDestroy recA) errInput) := by
    intro hb
    refine ⟨s, T, I.idle hi h1 h2 h3, Or.inr ⟨_, _, rfl, Or.inl ?_⟩⟩
    rw [hs']; unfold recDestroy; rw [if_neg hb]
  unfold start
  rw [hp]
  dsimp only
  by_cases ht : P.tracked recA = false
  · rw [if_pos ht]
    exact bad (by rw [lk_iff, ht]; simp)
  rw [if_neg ht]
  have ht : P.tracked recA = true := by simpa using ht
  by_cases hf : free n m recA = true
  swap
  · rw [if_neg hf]; trivial
  rw [if_pos hf]
  obtain ⟨f1, f2⟩ := I.freeSt hf (e := .recd) (Or.inr rfl)
  by_cases hs : m.s.st recA = .recd
  swap
  · rw [if_neg hs]
    exact bad (by rw [lk_iff]; exact fun hh => hs (f1.mpr hh.2))
  rw [if_pos hs]
  have hs := f1.mp hs
  have hrc : m.s.rc recA = s.rc recA := by
    rw [I.mem]; exact ovRc_zero _ (I.sep.rc0 (by rw [hs]; simp))
  rw [hrc]
  by_cases hr : s.rc recA = 0
  swap
  · rw [if_neg hr]
    refine ⟨s, T, I.idle hi h1 h2 h3, Or.inr ⟨_, _, rfl, Or.inl ?_⟩⟩
    rw [hs']; unfold recDestroy; rw [if_pos ((lk_iff ..).mpr ⟨ht, hs⟩), if_neg hr]
  rw [if_pos hr]
  have hgr := f2 hs
  have hge : getRec m.s recA = some (recOf s recA) := by rw [I.mem, getRec_ov hgr, getRec_eq h hs]
  rw [hge]
  dsimp only
  have hX := h.recs recA hs
  have K : RecDestroyOk s recA (recDestroySt s recA) {} := ⟨hs, hr, rfl, rfl⟩
  have hst : step P s (.recDestroy recA) = some (recDestroySt s recA, {}) := by
    obtain ⟨s', ret, e1, e2⟩ := recDestroy_spec h (P := P) recA
    rw [hs', e1]
    rcases e2 with ⟨_, e3⟩ | e3
    · exfalso
      unfold recDestroy at e1
      rw [if_pos ((lk_iff ..).mpr ⟨ht, hs⟩), if_pos hr, getRec_eq h hs] at e1
      dsimp only at e1
      split at e1
      · cases e1; exact e3 rfl
      · cases e1
    · rw [e3.st, e3.ret]
  have hKi := K.inv h
  have hrd := hX.rd
  have haux := hX.auxSt
  have hand := hX.auxNodup
  have hpos : 1 ≤ s.rc (recOf s recA).rd := by
    have hR := h.rds _ hX.rd
    rw [hR.rc]
    exact List.length_pos_of_mem ((hR.recs recA).mpr ⟨hs, rfl⟩)
  have hstx : ∀ x, x ≠ recA → x ∉ (recOf s recA).aux → (recDestroySt s recA).st x = s.st x := by
    intro x n1 n2
    simp only [recDestroySt]
    rw [upd_ne _ _ _ n1, if_neg n2]
  have hrcx : ∀ x, (recDestroySt s recA).rc x = upd s.rc (recOf s recA).rd (s.rc (recOf s recA).rd - 1) x := fun x => rfl
  have hmemx : ∀ x, (recDestroySt s recA).st x = s.st x ∨ (recDestroySt s recA).st x = .delegated := by
    intro x
    simp only [recDestroySt, upd]
    split
    · right; rfl
    · split
      · right; rfl
      · left; rfl
  generalize hc : recOf s recA = c at *
  have hga : ∀ a ∈ c.aux, T.g a = none := fun a ha => I.sep.none (by rw [haux a ha]; simp)
  have hra : recA ∉ c.aux := by
    intro hh; have := haux _ hh; rw [hs] at this; cases this
  have htr : ∀ a e, (a, e) ∈ tr (.kFree recA c.rd c.aux) ↔ (a = recA ∧ e = .recd) ∨ (a ∈ c.aux ∧ e = .recAux) := by
    intro a e
    simp only [tr, List.mem_cons, Prod.mk.injEq]
    rw [mem_map_aux]
  have hgx : ∀ a, a ≠ recA → a ∉ c.aux → (T.ending s recA c).g a = T.g a := by
    intro a n1 n2
    simp only [Ov.ending]; rw [if_neg n1, if_neg n2]
  have hheldn : ∀ j < n, ∀ x ∈ held (m.pc j), x ≠ recA ∧ x ∉ c.aux := by
    intro j hj x hx
    refine ⟨?_, ?_⟩
    · rintro rfl; exact (free_iff ..).mp hf j hj hx
    · intro hh
      have h4 := I.heldSt hj hx
      rw [haux x hh] at h4
      rcases h4 with h4 | h4 | h4 | h4 <;> cases h4
  refine ⟨recDestroySt s recA, T.ending s recA c, I.commit h hpc hi (p := .kFree recA c.rd c.aux) rfl
    (op := .recDestroy recA) (ret := {}) K rfl hKi (fun _ _ => rfl) ?_ (fun _ hh => (by cases hh)) ?_ ⟨?_, ?_, I.sep.vm, ?_⟩
    ⟨?_, ?_, ?_, ?_, ?_, ?_, fun _ hh => (by cases hh), ?_⟩ ?_ ?_ ?_ ?_ ?_ (fun _ _ h => (by cases h)) trivial,
    Or.inr ⟨_, _, rfl, Or.inl hst⟩⟩
  · intro j hj hne x hx hxf
    obtain ⟨n1, n2⟩ := hheldn j hj x hx
    simp only [foot, hc, List.mem_cons] at hxf
    rcases hxf with hxf | hxf
    · exact n1 hxf
    · exact n2 hxf
  · rw [I.mem]
    refine state_ext (fun x => ?_) (fun x => ?_) (fun x => ?_) (fun _ => rfl) (fun _ => rfl)
    · simp only [ov, ovSt]
      by_cases hx : x = recA
      · rw [hx, hgr]; simp only [Ov.ending, if_true]; exact hs
      · by_cases hx2 : x ∈ c.aux
        · rw [hga x hx2]; simp only [Ov.ending, if_neg hx, if_pos hx2]; exact haux x hx2
        · rw [hgx x hx hx2, hstx x hx hx2]
    · simp only [ov, ovRc, Ov.ending]
      rw [hrcx]
      simp only [upd]
      split
      · rename_i he; rw [he]; omega
      · rfl
    · simp only [ov, ovMem]
      by_cases hx : x = recA
      · rw [hx, hgr]; simp only [Ov.ending, if_true]
      · by_cases hx2 : x ∈ c.aux
        · rw [hga x hx2]; simp only [Ov.ending, if_neg hx, if_pos hx2]
        · rw [hgx x hx hx2]
          simp only [recDestroySt, hc]
          rw [upd_ne _ _ _ hx, if_neg hx2]
  · intro a e c' hg
    by_cases hx : a = recA
    · subst hx
      simp only [Ov.ending, if_true] at hg
      cases hg
      exact ⟨by simp only [recDestroySt]; exact upd_same _ _ _, by simp⟩
    · by_cases hx2 : a ∈ c.aux
      · simp only [Ov.ending, if_neg hx, if_pos hx2] at hg
        cases hg
        refine ⟨?_, by simp⟩
        simp only [recDestroySt, hc]
        rw [upd_ne _ _ _ hx, if_pos hx2]
      · rw [hgx a hx hx2] at hg
        rw [hstx a hx hx2]
        exact I.sep.g hg
  · intro a ha
    have hsa : s.st a = .rd := by
      by_cases har : a = c.rd
      · rw [har]; exact hrd
      · simp only [Ov.ending] at ha
        rw [upd_ne _ _ _ har] at ha
        exact I.sep.rc ha
    rw [hstx a (by rintro rfl; rw [hs] at hsa; cases hsa) (fun hh => by rw [haux a hh] at hsa; cases hsa), hsa]
  · intro a ha
    have hsa : s.st a = .rd := by
      rcases hmemx a with h4 | h4
      · rw [← h4]; exact ha
      · rw [ha] at h4; cases h4
    have := I.sep.cap hsa
    rw [hrcx]
    simp only [Ov.ending, upd]
    split
    · rename_i he; rw [he] at this; omega
    · exact this
  · intro a ha _
    exact hgx a (fun e => ha .recd ((htr a _).mpr (Or.inl ⟨e, rfl⟩))) (fun e => ha .recAux ((htr a _).mpr (Or.inr ⟨e, rfl⟩)))
  · intro a e ha
    rcases (htr a e).mp ha with ⟨rfl, rfl⟩ | ⟨h4, rfl⟩
    · exact ⟨s.mem a, by simp only [Ov.ending, if_true]⟩
    · exact ⟨_, by simp only [Ov.ending]; rw [if_neg (by rintro rfl; exact hra h4), if_pos h4]⟩
  · rw [h1]; exact fun _ _ hh => (by cases hh)
  · intro a e ha
    right
    rcases (htr a e).mp ha with ⟨rfl, rfl⟩ | ⟨h4, rfl⟩
    · exact hgr
    · exact hga a h4
  · simp only [tr, List.map_cons]
    rw [map_aux_fst]
    exact List.nodup_cons.mpr ⟨hra, hand⟩
  · intro v; rw [h2]; simp [vmOf, Ov.ending]
  · intro a
    rw [h3]
    simp only [Ov.ending, upd, putOf, Option.some.injEq]
    by_cases he : a = c.rd
    · rw [he]; simp
    · simp [he, Ne.symm he]
  · intro x hx
    simp only [held, List.mem_singleton] at hx
    subst hx
    exact Or.inr ⟨hf, by rw [hs]; simp⟩
  · intro x hx e c' hg
    simp only [held, List.mem_singleton] at hx
    subst hx
    simp only [Ov.ending, if_true] at hg
    cases hg
    exact (htr _ _).mpr (Or.inl ⟨rfl, rfl⟩)
  · intro j hj hne x hx e he
    obtain ⟨n1, n2⟩ := hheldn j hj x hx
    rcases (htr x e).mp he with ⟨h4, _⟩ | ⟨h4, _⟩
    · exact absurd h4 n1
    · exact absurd h4 n2
  · intro j hj hne rd' r k acc hpj
    have o := I.ok j hj
    rw [hpj] at o
    obtain ⟨o1, o2, o3, o4, o5, _⟩ := o
    simp only [Ov.ending]
    rw [upd_ne _ _ _ (by rintro rfl; omega)]
    exact o5
  · intro x hx
    rw [hrcx, upd_ne _ _ _ (by rintro rfl; rw [hrd] at hx; cases hx)]

end

end Verif.Life
