import Verif.Rmm.PresRealm

/-!
# The RMM machine: the invariant is kept by creating and destroying RECs
-/

namespace Verif.Rmm

section
variable {P : Plat} {s : State} {ti : Nat → TabInfo} {di : Nat → Nat × Nat} {rl : Nat → List Nat}

/-- The granules `l` marked as auxiliary. -/
def markAux (s : State) (l : List Nat) : State :=
  { s with st := fun a => if a ∈ l then .recAux else s.st a }

theorem takeAux_spec (P : Plat) : ∀ (l : List Nat) (s : State),
    ∃ tk rest, l = tk ++ rest ∧ (takeAux P s l) = (markAux s tk, tk, decide (rest = [])) ∧
      tk.Nodup ∧ (∀ a ∈ tk, P.tracked a = true ∧ s.st a = .delegated) := by
  intro l
  induction l with
  | nil =>
    intro s
    exact ⟨[], [], rfl, by simp [takeAux, markAux], List.nodup_nil, by simp⟩
  | cons a l ih =>
    intro s
    unfold takeAux
    by_cases h1 : lk P s a .delegated = true
    · rw [if_pos h1]
      rw [lk_iff] at h1
      obtain ⟨tk, rest, e1, e2, e3, e4⟩ := ih { s with st := upd s.st a .recAux }
      have hna : a ∉ tk := by
        intro hc
        have := (e4 a hc).2
        dsimp only at this
        rw [upd_same] at this
        simp at this
      refine ⟨a :: tk, rest, by rw [e1]; rfl, ?_, ?_, ?_⟩
      · rw [e2]
        dsimp only
        have : markAux { s with st := upd s.st a .recAux } tk = markAux s (a :: tk) := by
          unfold markAux
          congr 1
          funext x
          by_cases hx : x = a
          · subst hx; simp [upd_same]
          · simp [hx, upd_ne _ _ _ hx]
        rw [this]
      · exact List.nodup_cons.mpr ⟨hna, e3⟩
      · intro x hx
        rcases List.mem_cons.mp hx with rfl | hx
        · exact h1
        · have := e4 x hx
          dsimp only at this
          have hxa : x ≠ a := fun e => hna (e ▸ hx)
          rw [upd_ne _ _ _ hxa] at this
          exact this
    · rw [if_neg h1]
      exact ⟨[], a :: l, rfl, by simp [markAux], List.nodup_nil, by simp⟩

theorem freeAux_markAux {l : List Nat} (h : ∀ a ∈ l, s.st a = .delegated) :
    freeAux (markAux s l) l = s := by
  have : (fun a => if a ∈ l then GSt.delegated else if a ∈ l then .recAux else s.st a) = s.st := by
    funext a
    by_cases ha : a ∈ l
    · rw [if_pos ha, h a ha]
    · rw [if_neg ha, if_neg ha]
  unfold freeAux markAux
  dsimp only
  rw [this]

structure RecCreateOk (P : Plat) (s : State) (rdA recA : Nat) (q : RecParams) (s' : State) (ret : Ret) : Prop where
  aux : ∀ a ∈ q.auxList, P.tracked a = true ∧ s.st a = .delegated
  nodup : q.auxList.Nodup
  num : q.numAux = (rdOf s rdA).numAux
  recd : P.tracked recA = true ∧ s.st recA = .delegated
  recNot : recA ∉ q.auxList
  rd : s.st rdA = .rd
  new : (rdOf s rdA).state = .new
  rc : s.rc rdA ≠ 1023
  mpidr : Mpidr.isValid q.mpidr = true ∧ (Mpidr.toIdx q.mpidr).toNat = (rdOf s rdA).recCount
  st : s' = recCreateSt (markAux s q.auxList) rdA recA (rdOf s rdA) q q.auxList
  ret : ret = {}

theorem recCreate_spec (h : InvG P s ti di rl) (rdA recA pA : Nat) (q : RecParams) :
    (recCreate P s rdA recA pA q = none ∧ P.asserts = true ∧
      ∃ tk a rest, q.auxList = tk ++ a :: rest ∧ tk ≠ [] ∧
        ∀ x ∈ tk, P.tracked x = true ∧ s.st x = .delegated) ∨
    ∃ s' ret, recCreate P s rdA recA pA q = some (s', ret) ∧
      ((s' = s ∧ ret.status ≠ 0) ∨ RecCreateOk P s rdA recA q s' ret) := by
  unfold recCreate
  by_cases h0 : (lk P s pA .ns && decide (s.pas pA = .ns)) = true
  swap
  · rw [if_neg h0]; exact Or.inr ⟨_, _, rfl, Or.inl ⟨rfl, by decide⟩⟩
  rw [if_pos h0]
  by_cases h1 : 16 < q.numAux
  · rw [if_pos h1]; exact Or.inr ⟨_, _, rfl, Or.inl ⟨rfl, by decide⟩⟩
  rw [if_neg h1]
  obtain ⟨tk, rest, e1, e2, e3, e4⟩ := takeAux_spec P q.auxList s
  rw [e2]
  dsimp only
  cases rest with
  | cons a rest =>
    rw [if_pos (by simp)]
    by_cases h2 : P.asserts = true ∧ tk ≠ []
    · rw [if_pos h2]
      exact Or.inl ⟨rfl, h2.1, tk, a, rest, e1, h2.2, e4⟩
    · rw [if_neg h2]
      exact Or.inr ⟨_, _, rfl, Or.inl ⟨freeAux_markAux (fun x hx => (e4 x hx).2), by decide⟩⟩
  | nil =>
    rw [List.append_nil] at e1
    subst e1
    have hfree := freeAux_markAux (s := s) (fun x hx => (e4 x hx).2)
    rw [if_neg (by simp)]
    right
    by_cases h2 : (lk P (markAux s q.auxList) recA .delegated && lk P (markAux s q.auxList) rdA .rd) = true
    swap
    · rw [if_neg h2]; exact ⟨_, _, rfl, Or.inl ⟨hfree, by decide⟩⟩
    rw [if_pos h2]
    rw [Bool.and_eq_true, lk_iff, lk_iff] at h2
    obtain ⟨⟨h2a, h2b⟩, _, h2c⟩ := h2
    have hrec : recA ∉ q.auxList ∧ s.st recA = .delegated := by
      unfold markAux at h2b
      dsimp only at h2b
      by_cases hc : recA ∈ q.auxList
      · rw [if_pos hc] at h2b; simp at h2b
      · rw [if_neg hc] at h2b; exact ⟨hc, h2b⟩
    have hrd : s.st rdA = .rd := by
      unfold markAux at h2c
      dsimp only at h2c
      by_cases hc : rdA ∈ q.auxList
      · rw [if_pos hc] at h2c; simp at h2c
      · rw [if_neg hc] at h2c; exact h2c
    by_cases h3 : (markAux s q.auxList).rc rdA = 1023
    · rw [if_pos h3]; exact ⟨_, _, rfl, Or.inl ⟨hfree, by simp [errRealm]⟩⟩
    rw [if_neg h3]
    have hget : getRd (markAux s q.auxList) rdA = some (rdOf s rdA) := getRd_eq h hrd
    rw [hget]
    dsimp only
    by_cases h4 : (rdOf s rdA).state ≠ .new
    · rw [if_pos h4]; exact ⟨_, _, rfl, Or.inl ⟨hfree, by simp [errRealm]⟩⟩
    rw [if_neg h4]
    by_cases h5 : Mpidr.isValid q.mpidr = false ∨ (Mpidr.toIdx q.mpidr).toNat ≠ (rdOf s rdA).recCount
    · rw [if_pos h5]; exact ⟨_, _, rfl, Or.inl ⟨hfree, by decide⟩⟩
    rw [if_neg h5]
    by_cases h6 : q.numAux ≠ (rdOf s rdA).numAux
    · rw [if_pos h6]; exact ⟨_, _, rfl, Or.inl ⟨hfree, by decide⟩⟩
    rw [if_neg h6]
    refine ⟨_, _, rfl, Or.inr ⟨e4, e3, ?_, ⟨h2a, hrec.2⟩, hrec.1, hrd, ?_, h3, ?_, rfl, rfl⟩⟩
    · by_contra hc; exact h6 hc
    · by_contra hc; exact h4 hc
    · constructor
      · by_contra hc; exact h5 (Or.inl (by simpa using hc))
      · by_contra hc; exact h5 (Or.inr hc)

theorem RecCreateOk.inv (h : InvG P s ti di rl) {rdA recA : Nat} {q : RecParams} {s' : State}
    {ret : Ret} (k : RecCreateOk P s rdA recA q s' ret) :
    InvG P s' ti di (upd rl rdA (recA :: rl rdA)) := by
  have hs' := k.st
  have hR := h.rds rdA k.rd
  have rdNot : rdA ∉ q.auxList := by
    intro hc; have := (k.aux _ hc).2; rw [k.rd] at this; simp at this
  have rr : rdA ≠ recA := ne_of_st k.rd k.recd.2 (by simp)
  have st_rec : s'.st recA = .recd := by rw [hs']; exact upd_same _ _ _
  have mem_rec : s'.mem recA = .recd (newRec rdA (rdOf s rdA).recCount q q.auxList) := by
    rw [hs']; unfold recCreateSt markAux; dsimp only; rw [upd_ne _ _ _ rr.symm, upd_same]
  have recOf_new : recOf s' recA = newRec rdA (rdOf s rdA).recCount q q.auxList := recOf_of_mem mem_rec
  have st_aux : ∀ x ∈ q.auxList, s'.st x = .recAux := by
    intro x hx
    rw [hs']; unfold recCreateSt markAux; dsimp only
    rw [upd_ne _ _ _ (by rintro rfl; exact k.recNot hx), if_pos hx]
  have st_old : ∀ x, x ≠ recA → x ∉ q.auxList → s'.st x = s.st x := by
    intro x h1 h2
    rw [hs']; unfold recCreateSt markAux; dsimp only
    rw [upd_ne _ _ _ h1, if_neg h2]
  have mem_old : ∀ x, x ≠ recA → x ≠ rdA → s'.mem x = s.mem x := by
    intro x h1 h2
    rw [hs']; unfold recCreateSt markAux; dsimp only
    rw [upd_ne _ _ _ h2, upd_ne _ _ _ h1]
  have rc_old : ∀ x, x ≠ rdA → s'.rc x = s.rc x := by
    intro x h1
    rw [hs']; exact upd_ne _ _ _ h1
  have rc_rd : s'.rc rdA = s.rc rdA + 1 := by rw [hs']; exact upd_same _ _ _
  have pas_eq : s'.pas = s.pas := by rw [hs']; rfl
  have vmid_eq : s'.vmid = s.vmid := by rw [hs']; rfl
  have notDel : ∀ x y, s.st x = y → y ≠ .delegated → x ≠ recA ∧ x ∉ q.auxList := by
    intro x y hx hy
    refine ⟨ne_of_st hx k.recd.2 hy, ?_⟩
    intro hc
    rw [(k.aux x hc).2] at hx
    exact hy hx.symm
  have st_of : ∀ x y, s.st x = y → y ≠ .delegated → s'.st x = y := fun x y hx hy =>
    (st_old x (notDel x y hx hy).1 (notDel x y hx hy).2).trans hx
  have mem_of : ∀ x y, s.st x = y → y ≠ .delegated → y ≠ .rd → s'.mem x = s.mem x := fun x y hx hy hz =>
    mem_old x (notDel x y hx hy).1 (ne_of_st hx k.rd hz)
  -- the realm descriptor
  have mem_rd : ∃ r', s'.mem rdA = .rd r' ∧ SameGeo (rdOf s rdA) r' ∧ r'.recCount = (rdOf s rdA).recCount + 1 ∧
      r'.state = (rdOf s rdA).state := by
    refine ⟨{ rdOf s rdA with
        recCount := (rdOf s rdA).recCount + 1
        rim := if q.flags.getLsbD 0
          then (rdOf s rdA).rim ++ [.recd ((List.range 8).map q.gprs) q.pc q.flags] else (rdOf s rdA).rim },
      by rw [hs']; unfold recCreateSt; dsimp only; rw [upd_same], ⟨rfl, rfl, rfl, rfl, rfl, rfl, rfl⟩, rfl, rfl⟩
  have rdSame : ∀ x, s.st x = .rd → s'.mem x = .rd (rdOf s' x) ∧ SameGeo (rdOf s x) (rdOf s' x) ∧
      (rdOf s x).recCount ≤ (rdOf s' x).recCount ∧ (rdOf s' x).state = (rdOf s x).state := by
    intro x hx
    by_cases he : x = rdA
    · subst he
      obtain ⟨r', a1, a2, a3, a4⟩ := mem_rd
      rw [rdOf_of_mem a1]
      exact ⟨a1, a2, by omega, a4⟩
    · have e := mem_old x (notDel x _ hx (by simp)).1 he
      have : rdOf s' x = rdOf s x := by unfold rdOf getRd; rw [e]
      rw [this]
      exact ⟨e.trans (h.rds x hx).mem, SameGeo.refl _, Nat.le_refl _, rfl⟩
  have rec_of : ∀ x, s.st x = .recd → recOf s' x = recOf s x := by
    intro x hx; unfold recOf getRec; rw [mem_of x _ hx (by simp) (by simp)]
  have back : ∀ x y, s'.st x = y → y ≠ .recd → y ≠ .recAux → s.st x = y ∧ x ≠ recA ∧ x ∉ q.auxList := by
    intro x y hx h1 h2
    by_cases ha : x = recA
    · subst ha; rw [st_rec] at hx; exact absurd hx.symm h1
    · by_cases hb : x ∈ q.auxList
      · rw [st_aux x hb] at hx; exact absurd hx.symm h2
      · rw [st_old x ha hb] at hx; exact ⟨hx, ha, hb⟩
  have backRec : ∀ x, s'.st x = .recd → x = recA ∨ s.st x = .recd := by
    intro x hx
    by_cases ha : x = recA
    · exact Or.inl ha
    · by_cases hb : x ∈ q.auxList
      · rw [st_aux x hb] at hx; simp at hx
      · rw [st_old x ha hb] at hx; exact Or.inr hx
  have backAux : ∀ x, s'.st x = .recAux → x ∈ q.auxList ∨ s.st x = .recAux := by
    intro x hx
    by_cases ha : x = recA
    · subst ha; rw [st_rec] at hx; simp at hx
    · by_cases hb : x ∈ q.auxList
      · exact Or.inl hb
      · rw [st_old x ha hb] at hx; exact Or.inr hx
  have hlen : q.auxList.length = 16 := by
    unfold RecParams.auxList; rw [List.length_map, List.length_range, k.num, hR.aux]
  refine ⟨?_, ?_, ?_, ?_, ?_, ?_, ?_, ?_, ?_, ?_, ?_, ?_, ?_, ?_, ?_, ?_⟩
  · intro x hx
    by_cases ha : x = recA
    · subst ha; exact k.recd.1
    · by_cases hb : x ∈ q.auxList
      · exact (k.aux x hb).1
      · rw [st_old x ha hb] at hx; exact h.trk x hx
  · intro x hx
    rw [pas_eq]
    have hh := h.gpt x hx
    by_cases ha : x = recA
    · subst ha; rw [st_rec]; rw [k.recd.2] at hh; simpa using hh
    · by_cases hb : x ∈ q.auxList
      · rw [st_aux x hb]; rw [(k.aux x hb).2] at hh; simpa using hh
      · rw [st_old x ha hb]; exact hh
  · intro x hx
    obtain ⟨h1, _⟩ := back x _ hx (by simp) (by simp)
    rw [mem_of x _ h1 (by simp) (by simp)]; exact h.nsPage x h1
  · intro x hx
    obtain ⟨h1, h2, _⟩ := back x _ hx (by simp) (by simp)
    rw [mem_old x h2 (ne_of_st h1 k.rd (by simp))]; exact h.delPage x h1
  · intro x hx
    obtain ⟨h1, _⟩ := back x _ hx (by simp) (by simp)
    rw [mem_of x _ h1 (by simp) (by simp)]; exact h.dataPage x h1
  · intro x hx
    rcases backAux x hx with h1 | h1
    · have h2 := (k.aux x h1).2
      rw [mem_old x (by rintro rfl; exact k.recNot h1) (by rintro rfl; exact rdNot h1)]
      exact ⟨0, h.delPage x h2⟩
    · rw [mem_of x _ h1 (by simp) (by simp)]; exact h.auxPage x h1
  · intro x hx
    have hne : x ≠ rdA := by
      rintro rfl
      rw [st_of _ _ k.rd (by simp)] at hx
      simp at hx
    rw [rc_old x hne]
    apply h.rc0
    rcases hx with hx | hx | hx | hx
    · simp [(back x _ hx (by simp) (by simp)).1]
    · simp [(back x _ hx (by simp) (by simp)).1]
    · simp [(back x _ hx (by simp) (by simp)).1]
    · rcases backAux x hx with h1 | h1
      · simp [(k.aux x h1).2]
      · simp [h1]
  · intro g hg
    obtain ⟨h1, h2, h3⟩ := back g _ hg (by simp) (by simp)
    have hT := h.tab g h1
    refine hT.frame (mem_of g _ h1 (by simp) (by simp)) rfl (rc_old g (ne_of_st h1 k.rd (by simp)))
      (st_of _ _ hT.rd (by simp)) (rdSame _ hT.rd).2.1 ?_ ?_ ?_
    · intro p hp he
      refine ⟨st_of _ _ hp (by simp), rfl, ?_⟩
      unfold tabOf getTab; rw [mem_of p _ hp (by simp) (by simp)]; exact he
    · intro _ _ c _ hc; exact ⟨st_of _ _ hc (by simp), rfl⟩
    · intro _ _ _ _ _ _ _ hc; exact ⟨st_of _ _ hc (by simp), rfl⟩
  · intro x hx
    obtain ⟨h1, _⟩ := back x _ hx (by simp) (by simp)
    have hX := h.rds x h1
    obtain ⟨a1, a2, a3, a4⟩ := rdSame x h1
    refine ⟨a1, a2.geo hX.geo, ?_, ?_, ?_, ?_, ?_, ?_, ?_⟩
    · rw [a2.nroots, a2.root, a2.d0]
      intro j hj
      exact ⟨st_of _ _ (hX.roots j hj).1 (by simp), (hX.roots j hj).2⟩
    · rw [a2.numAux]; exact hX.aux
    · rw [a2.vmid, vmid_eq]; exact hX.vmid
    · by_cases he : x = rdA
      · subst he
        rw [upd_same]
        refine List.nodup_cons.mpr ⟨?_, hX.nodup⟩
        intro hc
        have := ((hX.recs recA).mp hc).1
        rw [k.recd.2] at this
        simp at this
      · rw [upd_ne _ _ _ he]; exact hX.nodup
    · intro y
      by_cases he : x = rdA
      · subst he
        rw [upd_same, List.mem_cons, hX.recs y]
        constructor
        · rintro (rfl | ⟨b1, b2⟩)
          · exact ⟨st_rec, by rw [recOf_new]; rfl⟩
          · exact ⟨st_of _ _ b1 (by simp), by rw [rec_of y b1]; exact b2⟩
        · rintro ⟨b1, b2⟩
          rcases backRec y b1 with b3 | b3
          · exact Or.inl b3
          · right; rw [rec_of y b3] at b2; exact ⟨b3, b2⟩
      · rw [upd_ne _ _ _ he, hX.recs y]
        constructor
        · rintro ⟨b1, b2⟩
          exact ⟨st_of _ _ b1 (by simp), by rw [rec_of y b1]; exact b2⟩
        · rintro ⟨b1, b2⟩
          rcases backRec y b1 with b3 | b3
          · subst b3
            rw [recOf_new] at b2
            exact absurd b2.symm he
          · rw [rec_of y b3] at b2; exact ⟨b3, b2⟩
    · by_cases he : x = rdA
      · subst he; rw [upd_same, rc_rd, hX.rc]; rfl
      · rw [upd_ne _ _ _ he, rc_old x he]; exact hX.rc
    · by_cases he : x = rdA
      · subst he; rw [rc_rd]; have := hX.max; have := k.rc; omega
      · rw [rc_old x he]; exact hX.max
  · intro x hx
    rcases backRec x hx with rfl | hx0
    · obtain ⟨a1, a2, a3, a4⟩ := rdSame rdA k.rd
      have hrc0 : s'.rc x = 0 := by
        rw [rc_old x rr.symm]; exact h.rc0 x (by simp [k.recd.2])
      refine ⟨?_, ?_, ?_, ?_, ?_, ?_, ?_, ?_, ?_⟩
      · rw [recOf_new]; exact mem_rec
      · rw [recOf_new]; exact st_of _ _ k.rd (by simp)
      · omega
      · rw [recOf_new]
        obtain ⟨r', b1, b2, b3, b4⟩ := mem_rd
        show (rdOf s rdA).recCount < (rdOf s' rdA).recCount
        rw [rdOf_of_mem b1, b3]; omega
      · rw [recOf_new]; exact st_aux
      · rw [recOf_new]; exact k.nodup
      · rw [recOf_new]; exact hlen
      · rw [recOf_new]
        exact ⟨⟨rfl, rfl⟩, fun hc => absurd rfl hc, Nat.zero_le _, by simp [newRec]⟩
      · intro hc; omega
    · have hX := h.recs x hx0
      obtain ⟨a1, a2, a3, a4⟩ := rdSame _ hX.rd
      rw [← rec_of x hx0] at a1 a2 a3 a4
      have e1 := rec_of x hx0
      have hne : x ≠ rdA := ne_of_st hx0 k.rd (by simp)
      refine ⟨?_, ?_, ?_, ?_, ?_, ?_, ?_, ?_, ?_⟩
      · rw [e1, mem_of x _ hx0 (by simp) (by simp)]; exact hX.mem
      · rw [e1]; exact st_of _ _ hX.rd (by simp)
      · rw [rc_old x hne]; exact hX.rc
      · refine lt_of_lt_of_le ?_ a3
        rw [e1]; exact hX.idx
      · rw [e1]; intro y hy; exact st_of _ _ (hX.auxSt y hy) (by simp)
      · rw [e1]; exact hX.auxNodup
      · rw [e1]; exact hX.auxLen
      · have := hX.sr
        rw [← e1] at this
        exact ⟨this.al, this.le, by rw [a2.par]; exact this.par, this.ripas⟩
      · rw [a4, e1, rc_old x hne]; exact hX.run
  · intro a b ha hb hab hi
    have key : ∀ y, s.st y = .recd → (recOf s' y).rd = rdA → (recOf s' y).idx ≠ (rdOf s rdA).recCount := by
      intro y hy h1 h2
      rw [rec_of y hy] at h1 h2
      have := (h.recs y hy).idx
      rw [h1, h2] at this
      omega
    rcases backRec a ha with rfl | ha0 <;> rcases backRec b hb with hb1 | hb0
    · exact hb1.symm
    · rw [recOf_new] at hab hi
      exact absurd hi.symm (key b hb0 hab.symm)
    · rw [hb1, recOf_new] at hab hi
      exact absurd hi (key a ha0 hab)
    · rw [rec_of a ha0, rec_of b hb0] at hab hi
      exact h.recIdx a b ha0 hb0 hab hi
  · intro x hx
    rcases backAux x hx with h1 | h1
    · exact ⟨recA, st_rec, by rw [recOf_new]; exact h1⟩
    · obtain ⟨a, ha, hxa⟩ := h.auxOwner x h1
      exact ⟨a, st_of _ _ ha (by simp), by rw [rec_of a ha]; exact hxa⟩
  · intro a b x ha hb hxa hxb
    have key : ∀ y, s.st y = .recd → x ∈ (recOf s' y).aux → x ∉ q.auxList := by
      intro y hy h1 h2
      rw [rec_of y hy] at h1
      have := (h.recs y hy).auxSt x h1
      rw [(k.aux x h2).2] at this
      simp at this
    rcases backRec a ha with rfl | ha0 <;> rcases backRec b hb with hb1 | hb0
    · exact hb1.symm
    · rw [recOf_new] at hxa; exact absurd hxa (key b hb0 hxb)
    · rw [hb1, recOf_new] at hxb; exact absurd hxb (key a ha0 hxa)
    · rw [rec_of a ha0] at hxa; rw [rec_of b hb0] at hxb
      exact h.auxDisj a b x ha0 hb0 hxa hxb
  · intro x hx
    obtain ⟨h1, _⟩ := back x _ hx (by simp) (by simp)
    obtain ⟨c1, c2, g, d, rp, pa, c3, c4, c5, c6⟩ := h.data x h1
    refine ⟨st_of _ _ c1 (by simp), c2, g, d, rp, pa, st_of _ _ c3 (by simp), c4, ?_, c6⟩
    unfold tabOf getTab; rw [mem_of g _ c3 (by simp) (by simp)]; exact c5
  · intro a b ha hb
    obtain ⟨ha, _⟩ := back a _ ha (by simp) (by simp)
    obtain ⟨hb, _⟩ := back b _ hb (by simp) (by simp)
    rw [(rdSame a ha).2.1.vmid, (rdSame b hb).2.1.vmid]
    exact h.vmidInj a b ha hb
  · intro v hv
    rw [vmid_eq] at hv
    obtain ⟨a, ha, hav⟩ := h.vmidOwner v hv
    exact ⟨a, st_of _ _ ha (by simp), by rw [(rdSame a ha).2.1.vmid]; exact hav⟩

/-! ## REC_DESTROY -/

/-- State after a successful REC_DESTROY. -/
def recDestroySt (s : State) (recA : Nat) : State :=
  { s with
    st := upd (fun a => if a ∈ (recOf s recA).aux then .delegated else s.st a) recA .delegated
    mem := upd (fun a => if a ∈ (recOf s recA).aux then .page 0 else s.mem a) recA (.page 0)
    rc := upd s.rc (recOf s recA).rd (s.rc (recOf s recA).rd - 1) }

structure RecDestroyOk (s : State) (recA : Nat) (s' : State) (ret : Ret) : Prop where
  recd : s.st recA = .recd
  rc : s.rc recA = 0
  st : s' = recDestroySt s recA
  ret : ret = {}

theorem recDestroy_spec (h : InvG P s ti di rl) (recA : Nat) :
    ∃ s' ret, recDestroy P s recA = some (s', ret) ∧
      ((s' = s ∧ ret.status ≠ 0) ∨ RecDestroyOk s recA s' ret) := by
  unfold recDestroy
  by_cases h1 : lk P s recA .recd = true
  swap
  · rw [if_neg h1]; exact ⟨_, _, rfl, Or.inl ⟨rfl, by decide⟩⟩
  rw [if_pos h1]
  rw [lk_iff] at h1
  by_cases h2 : s.rc recA = 0
  swap
  · rw [if_neg h2]; exact ⟨_, _, rfl, Or.inl ⟨rfl, by decide⟩⟩
  rw [if_pos h2, getRec_eq h h1.2]
  dsimp only
  have hX := h.recs recA h1.2
  have h3 : 1 ≤ s.rc (recOf s recA).rd := by
    have hR := h.rds _ hX.rd
    rw [hR.rc]
    exact List.length_pos_of_mem ((hR.recs recA).mpr ⟨h1.2, rfl⟩)
  rw [if_pos]
  · exact ⟨_, _, rfl, Or.inr ⟨h1.2, h2, rfl, rfl⟩⟩
  · rw [Bool.and_eq_true, List.all_eq_true]
    exact ⟨fun x hx => decide_eq_true (hX.auxSt x hx), decide_eq_true h3⟩

theorem RecDestroyOk.inv (h : InvG P s ti di rl) {recA : Nat} {s' : State}
    {ret : Ret} (k : RecDestroyOk s recA s' ret) :
    InvG P s' ti di (upd rl (recOf s recA).rd ((rl (recOf s recA).rd).erase recA)) := by
  have hs' := k.st
  have hC := h.recs recA k.recd
  have hR := h.rds _ hC.rd
  have hin := (hR.recs recA).mpr ⟨k.recd, rfl⟩
  have hCrd := hC.rd
  generalize hrdA : (recOf s recA).rd = rdA at hR hin hCrd ⊢
  have cls : ∀ x, ((x = recA ∨ x ∈ (recOf s recA).aux) ∧ s'.st x = .delegated ∧ s'.mem x = .page 0) ∨
      (x ≠ recA ∧ x ∉ (recOf s recA).aux ∧ s'.st x = s.st x ∧ s'.mem x = s.mem x) := by
    intro x
    rw [hs']; unfold recDestroySt; dsimp only
    by_cases h1 : x = recA
    · subst h1; left; exact ⟨Or.inl rfl, upd_same _ _ _, upd_same _ _ _⟩
    · rw [upd_ne _ _ _ h1, upd_ne _ _ _ h1]
      by_cases h2 : x ∈ (recOf s recA).aux
      · left; rw [if_pos h2, if_pos h2]; exact ⟨Or.inr h2, rfl, rfl⟩
      · right; rw [if_neg h2, if_neg h2]; exact ⟨h1, h2, rfl, rfl⟩
  have pas_eq : s'.pas = s.pas := by rw [hs']; rfl
  have vmid_eq : s'.vmid = s.vmid := by rw [hs']; rfl
  have rc_ne : ∀ x, x ≠ rdA → s'.rc x = s.rc x := by
    intro x hx; rw [hs']; unfold recDestroySt; dsimp only; rw [hrdA]; exact upd_ne _ _ _ hx
  have rc_rd : s'.rc rdA = s.rc rdA - 1 := by
    rw [hs']; unfold recDestroySt; dsimp only; rw [hrdA]; exact upd_same _ _ _
  have keep : ∀ x y, s.st x = y → y ≠ .recd → y ≠ .recAux → s'.st x = y ∧ s'.mem x = s.mem x := by
    intro x y hx h1 h2
    rcases cls x with ⟨h3, _⟩ | ⟨_, _, h3, h4⟩
    · rcases h3 with rfl | h3
      · rw [k.recd] at hx; exact absurd hx.symm h1
      · rw [hC.auxSt x h3] at hx; exact absurd hx.symm h2
    · exact ⟨h3.trans hx, h4⟩
  have keepRec : ∀ x, s.st x = .recd → x ≠ recA → s'.st x = .recd ∧ s'.mem x = s.mem x := by
    intro x hx h1
    rcases cls x with ⟨h3, _⟩ | ⟨_, _, h3, h4⟩
    · rcases h3 with h3 | h3
      · exact absurd h3 h1
      · rw [hC.auxSt x h3] at hx; simp at hx
    · exact ⟨h3.trans hx, h4⟩
  have keepAux : ∀ x, s.st x = .recAux → x ∉ (recOf s recA).aux → s'.st x = .recAux ∧ s'.mem x = s.mem x := by
    intro x hx h1
    rcases cls x with ⟨h3, _⟩ | ⟨_, _, h3, h4⟩
    · rcases h3 with rfl | h3
      · rw [k.recd] at hx; simp at hx
      · exact absurd h3 h1
    · exact ⟨h3.trans hx, h4⟩
  have back : ∀ x y, s'.st x = y → y ≠ .delegated → s.st x = y ∧ x ≠ recA ∧ x ∉ (recOf s recA).aux := by
    intro x y hx h1
    rcases cls x with ⟨_, h3, _⟩ | ⟨a1, a2, h3, h4⟩
    · rw [h3] at hx; exact absurd hx.symm h1
    · exact ⟨by rw [← h3]; exact hx, a1, a2⟩
  have rd_of : ∀ x, s.st x = .rd → rdOf s' x = rdOf s x := by
    intro x hx; unfold rdOf getRd; rw [(keep x _ hx (by simp) (by simp)).2]
  have rec_of : ∀ x, s.st x = .recd → x ≠ recA → recOf s' x = recOf s x := by
    intro x hx h1; unfold recOf getRec; rw [(keepRec x hx h1).2]
  refine ⟨?_, ?_, ?_, ?_, ?_, ?_, ?_, ?_, ?_, ?_, ?_, ?_, ?_, ?_, ?_, ?_⟩
  · intro x hx
    rcases cls x with ⟨h3, _⟩ | ⟨_, _, h3, _⟩
    · rcases h3 with rfl | h3
      · exact h.trk x (by rw [k.recd]; simp)
      · exact h.trk x (by rw [hC.auxSt x h3]; simp)
    · rw [h3] at hx; exact h.trk x hx
  · intro x hx
    rw [pas_eq]
    have hh := h.gpt x hx
    rcases cls x with ⟨h3, h4, _⟩ | ⟨_, _, h3, _⟩
    · rw [h4]
      rcases h3 with rfl | h3
      · rw [k.recd] at hh; simpa using hh
      · rw [hC.auxSt x h3] at hh; simpa using hh
    · rw [h3]; exact hh
  · intro x hx
    obtain ⟨h1, _⟩ := back x _ hx (by simp)
    rw [(keep x _ h1 (by simp) (by simp)).2]; exact h.nsPage x h1
  · intro x hx
    rcases cls x with ⟨_, _, h3⟩ | ⟨_, _, h3, h4⟩
    · exact h3
    · rw [h3] at hx; rw [h4]; exact h.delPage x hx
  · intro x hx
    obtain ⟨h1, _⟩ := back x _ hx (by simp)
    rw [(keep x _ h1 (by simp) (by simp)).2]; exact h.dataPage x h1
  · intro x hx
    obtain ⟨h1, _, h2⟩ := back x _ hx (by simp)
    rw [(keepAux x h1 h2).2]; exact h.auxPage x h1
  · intro x hx
    have hne : x ≠ rdA := by
      rintro rfl
      rw [(keep _ _ hCrd (by simp) (by simp)).1] at hx
      simp at hx
    rw [rc_ne x hne]
    rcases cls x with ⟨h3, _⟩ | ⟨_, _, h3, _⟩
    · rcases h3 with rfl | h3
      · exact k.rc
      · exact h.rc0 x (by simp [hC.auxSt x h3])
    · rw [h3] at hx; exact h.rc0 x hx
  · intro g hg
    obtain ⟨h1, _⟩ := back g _ hg (by simp)
    have hT := h.tab g h1
    refine hT.frame (keep g _ h1 (by simp) (by simp)).2 rfl (rc_ne g (ne_of_st h1 hCrd (by simp)))
      (keep _ _ hT.rd (by simp) (by simp)).1 (by rw [rd_of _ hT.rd]; exact SameGeo.refl _) ?_ ?_ ?_
    · intro p hp he
      obtain ⟨b1, b2⟩ := keep p _ hp (by simp) (by simp)
      refine ⟨b1, rfl, ?_⟩
      unfold tabOf getTab; rw [b2]; exact he
    · intro _ _ c _ hc; exact ⟨(keep c _ hc (by simp) (by simp)).1, rfl⟩
    · intro _ _ _ _ _ _ _ hc; exact ⟨(keep _ _ hc (by simp) (by simp)).1, rfl⟩
  · intro x hx
    obtain ⟨h1, _⟩ := back x _ hx (by simp)
    have hX := h.rds x h1
    have e := rd_of x h1
    refine ⟨?_, ?_, ?_, ?_, ?_, ?_, ?_, ?_, ?_⟩
    · rw [e, (keep x _ h1 (by simp) (by simp)).2]; exact hX.mem
    · rw [e]; exact hX.geo
    · rw [e]; intro j hj
      exact ⟨(keep _ _ (hX.roots j hj).1 (by simp) (by simp)).1, (hX.roots j hj).2⟩
    · rw [e]; exact hX.aux
    · rw [e, vmid_eq]; exact hX.vmid
    · by_cases he : x = rdA
      · subst he; rw [upd_same]; exact hX.nodup.erase _
      · rw [upd_ne _ _ _ he]; exact hX.nodup
    · intro y
      by_cases he : x = rdA
      · subst he
        rw [upd_same, hX.nodup.mem_erase_iff, hX.recs y]
        constructor
        · rintro ⟨b0, b1, b2⟩
          exact ⟨(keepRec y b1 b0).1, by rw [rec_of y b1 b0]; exact b2⟩
        · rintro ⟨b1, b2⟩
          obtain ⟨b3, b4, _⟩ := back y _ b1 (by simp)
          rw [rec_of y b3 b4] at b2
          exact ⟨b4, b3, b2⟩
      · rw [upd_ne _ _ _ he, hX.recs y]
        constructor
        · rintro ⟨b1, b2⟩
          have b0 : y ≠ recA := by rintro rfl; rw [hrdA] at b2; exact he b2.symm
          exact ⟨(keepRec y b1 b0).1, by rw [rec_of y b1 b0]; exact b2⟩
        · rintro ⟨b1, b2⟩
          obtain ⟨b3, b4, _⟩ := back y _ b1 (by simp)
          rw [rec_of y b3 b4] at b2
          exact ⟨b3, b2⟩
    · by_cases he : x = rdA
      · subst he; rw [upd_same, rc_rd, hX.rc, List.length_erase_of_mem hin]
      · rw [upd_ne _ _ _ he, rc_ne x he]; exact hX.rc
    · by_cases he : x = rdA
      · subst he; rw [rc_rd]; have := hX.max; omega
      · rw [rc_ne x he]; exact hX.max
  · intro x hx
    obtain ⟨hx, hne, _⟩ := back x _ hx (by simp)
    have hX := h.recs x hx
    have e1 := rec_of x hx hne
    have e2 := rd_of _ hX.rd
    have e3 := rc_ne x (ne_of_st hx hCrd (by simp))
    refine ⟨?_, ?_, ?_, ?_, ?_, ?_, ?_, ?_, ?_⟩
    · rw [e1, (keepRec x hx hne).2]; exact hX.mem
    · rw [e1]; exact (keep _ _ hX.rd (by simp) (by simp)).1
    · rw [e3]; exact hX.rc
    · rw [e1, e2]; exact hX.idx
    · rw [e1]; intro y hy
      refine (keepAux y (hX.auxSt y hy) ?_).1
      intro hc
      exact hne (h.auxDisj x recA y hx k.recd hy hc)
    · rw [e1]; exact hX.auxNodup
    · rw [e1]; exact hX.auxLen
    · rw [e1, e2]; exact hX.sr
    · rw [e1, e2, e3]; exact hX.run
  · intro a b ha hb
    obtain ⟨ha, hna, _⟩ := back a _ ha (by simp)
    obtain ⟨hb, hnb, _⟩ := back b _ hb (by simp)
    rw [rec_of a ha hna, rec_of b hb hnb]; exact h.recIdx a b ha hb
  · intro x hx
    obtain ⟨h1, _, h2⟩ := back x _ hx (by simp)
    obtain ⟨a, ha, hxa⟩ := h.auxOwner x h1
    have hna : a ≠ recA := by rintro rfl; exact h2 hxa
    exact ⟨a, (keepRec a ha hna).1, by rw [rec_of a ha hna]; exact hxa⟩
  · intro a b x ha hb
    obtain ⟨ha, hna, _⟩ := back a _ ha (by simp)
    obtain ⟨hb, hnb, _⟩ := back b _ hb (by simp)
    rw [rec_of a ha hna, rec_of b hb hnb]; exact h.auxDisj a b x ha hb
  · intro x hx
    obtain ⟨h1, _⟩ := back x _ hx (by simp)
    obtain ⟨c1, c2, g, d, rp, pa, c3, c4, c5, c6⟩ := h.data x h1
    obtain ⟨b1, b2⟩ := keep g _ c3 (by simp) (by simp)
    refine ⟨(keep _ _ c1 (by simp) (by simp)).1, c2, g, d, rp, pa, b1, c4, ?_, c6⟩
    unfold tabOf getTab; rw [b2]; exact c5
  · intro a b ha hb
    obtain ⟨ha, _⟩ := back a _ ha (by simp)
    obtain ⟨hb, _⟩ := back b _ hb (by simp)
    rw [rd_of a ha, rd_of b hb]; exact h.vmidInj a b ha hb
  · intro v hv
    rw [vmid_eq] at hv
    obtain ⟨a, ha, hav⟩ := h.vmidOwner v hv
    exact ⟨a, (keep _ _ ha (by simp) (by simp)).1, by rw [rd_of a ha]; exact hav⟩

end

end Verif.Rmm
