import Verif.Rmm.Eff

/-!
# What each operation does to the address spaces of realms

For every operation with an effect, the leaves of every realm afterwards.
-/

namespace Verif.Rmm

section
variable {P : Plat} {s : State} {ti : Nat → TabInfo} {di : Nat → Nat × Nat} {rl : Nat → List Nat}

/-- Realm descriptors keep their state and geometry. -/
structure RdSame (s s' : State) : Prop where
  st : ∀ r, s'.st r = .rd ↔ s.st r = .rd
  geo : ∀ r, s.st r = .rd → SameGeo (rdOf s r) (rdOf s' r)

theorem tabOf_congr {s s' : State} {g : Nat} (h : s'.mem g = s.mem g) : tabOf s' g = tabOf s g := by
  unfold tabOf getTab; rw [h]

theorem rdOf_congr {s s' : State} {g : Nat} (h : s'.mem g = s.mem g) : rdOf s' g = rdOf s g := by
  unfold rdOf getRd; rw [h]

theorem recOf_congr {s s' : State} {g : Nat} (h : s'.mem g = s.mem g) : recOf s' g = recOf s g := by
  unfold recOf getRec; rw [h]

theorem RdSame.of_mem {s s' : State} (h1 : ∀ r, s'.st r = .rd ↔ s.st r = .rd)
    (h2 : ∀ r, s.st r = .rd → s'.mem r = s.mem r) : RdSame s s' :=
  ⟨h1, fun r hr => by rw [rdOf_congr (h2 r hr)]; exact SameGeo.refl _⟩

theorem RdSame.of_one {s s' : State} {r0 : Nat} {r' : Rd} (h1 : ∀ r, s'.st r = .rd ↔ s.st r = .rd)
    (h2 : ∀ r, s.st r = .rd → r ≠ r0 → s'.mem r = s.mem r) (h3 : s'.mem r0 = .rd r')
    (h4 : SameGeo (rdOf s r0) r') : RdSame s s' :=
  ⟨h1, fun r hr => by
    by_cases hrr : r = r0
    · subst hrr; rw [rdOf_of_mem h3]; exact h4
    · rw [rdOf_congr (h2 r hr hrr)]; exact SameGeo.refl _⟩

/-- One table changes, in entries that are not tables before or after. -/
theorem leaf_change {s' : State} {ti' di' rl'} (h : InvG P s ti di rl) (h' : InvG P s' ti' di' rl')
    (hrd : RdSame s s') (hti : ∀ x, s.st x = .rtt → ti' x = ti x)
    (hst : ∀ x, s.st x = .rtt → s'.st x = .rtt) {g : Nat} (hg : s.st g = .rtt)
    (hmem : ∀ x, s.st x = .rtt → x ≠ g → s'.mem x = s.mem x)
    (hch : ∀ i < 512, tabOf s' g i ≠ tabOf s g i → (∀ c, tabOf s' g i ≠ .table c) ∧ ∀ c, tabOf s g i ≠ .table c)
    (r a : Nat) :
    leaf s' r a =
      if r = (ti g).rd ∧ a < (rdOf s r).ipaSize ∧ al (ti g).d a = (ti g).base ∧
          tabOf s' g (idx (ti g).d a) ≠ tabOf s g (idx (ti g).d a)
      then some (tabOf s' g (idx (ti g).d a), (ti g).d) else leaf s r a := by
  by_cases hc : r = (ti g).rd ∧ a < (rdOf s r).ipaSize ∧ al (ti g).d a = (ti g).base ∧
      tabOf s' g (idx (ti g).d a) ≠ tabOf s g (idx (ti g).d a)
  · rw [if_pos hc]
    obtain ⟨rfl, ha, hb, hne⟩ := hc
    have hr := (h.tab g hg).rd
    refine leaf_at h' ⟨(hrd.st _).mpr hr, by rw [(hrd.geo _ hr).ipa]; exact ha, hst g hg, ?_⟩
      (hch _ (idx_lt _ _) hne).1
    rw [hti g hg, hb]
  · rw [if_neg hc]
    apply leaf_frame_at h h' (hrd.st r) (hrd.geo r)
    intro d x k
    refine ⟨hst x k.st, hti x k.st, ?_⟩
    by_cases hx : x = g
    · subst hx
      rw [k.ti] at hc
      dsimp only at hc
      by_contra hne
      exact hc ⟨rfl, k.lt, rfl, hne⟩
    · rw [tabOf_congr (hmem x k.st hx)]

/-- An address in the region of one entry. -/
theorem at_entry (h : InvG P s ti di rl) {rdA a d g x : Nat} (k : At s ti rdA a d g) (hx : x < 2 ^ 52)
    (i : Nat) (hi : i < 512) :
    (al d a + i * sz d ≤ x ∧ x < al d a + i * sz d + sz d) ↔ (al d x = al d a ∧ idx d x = i) :=
  in_entry d (al d a) i x (al_mod d a) hi hx

/-- One entry of one table changes. -/
theorem leaf_change1 {s' : State} {ti' di' rl'} (h : InvG P s ti di rl) (h' : InvG P s' ti' di' rl')
    (hrd : RdSame s s') (hti : ∀ x, s.st x = .rtt → ti' x = ti x)
    (hst : ∀ x, s.st x = .rtt → s'.st x = .rtt) {rdA a d g : Nat} (k : At s ti rdA a d g)
    (hal : a % sz d = 0) (hmem : ∀ x, s.st x = .rtt → x ≠ g → s'.mem x = s.mem x) {e : Entry}
    (hg : s'.mem g = .table (upd (tabOf s g) (idx d a) e)) (he : ∀ c, e ≠ .table c)
    (he' : ∀ c, tabOf s g (idx d a) ≠ .table c) (r x : Nat) :
    leaf s' r x = if r = rdA ∧ a ≤ x ∧ x < a + sz d then some (e, d) else leaf s r x := by
  have htab : tabOf s' g = upd (tabOf s g) (idx d a) e := tabOf_of_mem hg
  have hlt := k.lt52 h
  have hreg : al d a + idx d a * sz d = a := by rw [al_add d a hlt]; exact div_mul_of_mod hal
  have hin : ∀ x, a ≤ x → x < a + sz d → x < (rdOf s rdA).ipaSize := by
    intro x h1 h2
    exact region_below (d := d) (dvd_trans (sz_dvd (k.depth h)) (h.rds rdA k.rd).geo.ipa_dvd) hal k.lt h2
  have main := leaf_change h h' hrd hti hst k.st hmem (by
    intro i _ hne
    rw [htab] at hne ⊢
    by_cases hi : i = idx d a
    · subst hi; rw [upd_same]; exact ⟨he, he'⟩
    · rw [upd_ne _ _ _ hi] at hne; exact absurd rfl hne) r x
  rw [main, k.ti, htab]
  dsimp only
  by_cases hc : r = rdA ∧ a ≤ x ∧ x < a + sz d
  · obtain ⟨rfl, h1, h2⟩ := hc
    have hx52 : x < 2 ^ 52 := lt_of_lt_of_le (hin x h1 h2) (h.rds r k.rd).geo.ipa_lt
    have hio := (at_entry h k hx52 (idx d a) (idx_lt _ _)).mp (by rw [hreg]; exact ⟨h1, h2⟩)
    rw [if_pos (c := r = r ∧ a ≤ x ∧ x < a + sz d) ⟨rfl, h1, h2⟩, hio.2, upd_same]
    by_cases hee : e = tabOf s g (idx d a)
    · rw [if_neg (by intro hh; exact hh.2.2.2 hee)]
      have := leaf_at h ⟨k.rd, hin x h1 h2, k.st, by rw [k.ti, hio.1]⟩ (by rw [hio.2]; exact he')
      rw [this, hio.2, hee]
    · rw [if_pos ⟨rfl, hin x h1 h2, hio.1, hee⟩]
  · rw [if_neg (c := r = rdA ∧ a ≤ x ∧ x < a + sz d) hc, if_neg]
    rintro ⟨rfl, h1, h2, h3⟩
    apply hc
    have hx52 : x < 2 ^ 52 := lt_of_lt_of_le h1 (h.rds r k.rd).geo.ipa_lt
    by_cases hi : idx d x = idx d a
    · have := (at_entry h k hx52 (idx d a) (idx_lt _ _)).mpr ⟨h2, hi⟩
      rw [hreg] at this
      exact ⟨rfl, this⟩
    · rw [upd_ne _ _ _ hi] at h3; exact absurd rfl h3

/-- A run of entries of one table changes. -/
theorem leaf_changeN {s' : State} (h : InvG P s ti di rl) (h' : InvG P s' ti di rl)
    (hrd : RdSame s s') (hst : ∀ x, s.st x = .rtt → s'.st x = .rtt) {rdA a d g m : Nat}
    (k : At s ti rdA a d g) (hm : idx d a + m ≤ 512)
    (hal : a % sz d = 0) (hmem : ∀ x, s.st x = .rtt → x ≠ g → s'.mem x = s.mem x) {f : Entry → Entry}
    (hg : s'.mem g = .table (fun j => if idx d a ≤ j ∧ j < idx d a + m then f (tabOf s g j) else tabOf s g j))
    (he : ∀ j, idx d a ≤ j → j < idx d a + m → (∀ c, f (tabOf s g j) ≠ .table c) ∧ ∀ c, tabOf s g j ≠ .table c)
    (r x : Nat) :
    leaf s' r x = if r = rdA ∧ a ≤ x ∧ x < a + m * sz d ∧ x < (rdOf s rdA).ipaSize
      then (leaf s r x).map (fun p => (f p.1, p.2)) else leaf s r x := by
  have htab : tabOf s' g = fun j => if idx d a ≤ j ∧ j < idx d a + m then f (tabOf s g j) else tabOf s g j :=
    tabOf_of_mem hg
  have hlt := k.lt52 h
  have hp := sz_pos d
  have hreg : al d a + idx d a * sz d = a := by rw [al_add d a hlt]; exact div_mul_of_mod hal
  have main := leaf_change h h' hrd (fun _ _ => rfl) hst k.st hmem (by
    intro i _ hne
    rw [htab] at hne ⊢
    dsimp only at hne ⊢
    by_cases hi : idx d a ≤ i ∧ i < idx d a + m
    · rw [if_pos hi]; exact he i hi.1 hi.2
    · rw [if_neg hi] at hne; exact absurd rfl hne) r x
  rw [main, k.ti, htab]
  dsimp only
  have hconv : x < 2 ^ 52 → ((a ≤ x ∧ x < a + m * sz d) ↔
      (al d x = al d a ∧ idx d a ≤ idx d x ∧ idx d x < idx d a + m)) := by
    intro hx
    constructor
    · rintro ⟨h1, h2⟩
      obtain ⟨q, hq⟩ : ∃ q, q = (x - a) / sz d := ⟨_, rfl⟩
      have hdm := Nat.div_add_mod (x - a) (sz d)
      have hmm := Nat.mod_lt (x - a) hp
      rw [← hq] at hdm
      have hqm : q < m := by
        rw [hq, Nat.div_lt_iff_lt_mul hp]; omega
      have := (at_entry h k hx (idx d a + q) (by omega)).mp (by
        rw [Nat.add_mul, ← Nat.add_assoc, hreg, Nat.mul_comm q]
        constructor <;> omega)
      refine ⟨this.1, ?_, ?_⟩ <;> omega
    · rintro ⟨h1, h2, h3⟩
      obtain ⟨q, hq⟩ := Nat.exists_eq_add_of_le h2
      have := (at_entry h k hx (idx d a + q) (by omega)).mpr ⟨h1, hq⟩
      rw [Nat.add_mul, ← Nat.add_assoc, hreg] at this
      refine ⟨by omega, ?_⟩
      have h5 : (q + 1) * sz d ≤ m * sz d := Nat.mul_le_mul_right _ (by omega)
      rw [Nat.add_mul] at h5
      omega
  by_cases hc : r = rdA ∧ a ≤ x ∧ x < a + m * sz d ∧ x < (rdOf s rdA).ipaSize
  · obtain ⟨rfl, h1, h2, h3⟩ := hc
    have hx52 : x < 2 ^ 52 := lt_of_lt_of_le h3 (h.rds r k.rd).geo.ipa_lt
    obtain ⟨e1, e2, e3⟩ := (hconv hx52).mp ⟨h1, h2⟩
    have hee := he _ e2 e3
    have hl := leaf_at h ⟨k.rd, h3, k.st, by rw [k.ti, e1]⟩ hee.2
    rw [if_pos (c := r = r ∧ a ≤ x ∧ x < a + m * sz d ∧ x < (rdOf s r).ipaSize) ⟨rfl, h1, h2, h3⟩, hl]
    simp only [Option.map_some]
    rw [if_pos (c := idx d a ≤ idx d x ∧ idx d x < idx d a + m) ⟨e2, e3⟩]
    by_cases hff : f (tabOf s g (idx d x)) = tabOf s g (idx d x)
    · rw [if_neg (by intro hh; exact hh.2.2.2 hff), hff]
    · rw [if_pos ⟨trivial, h3, e1, hff⟩]
  · rw [if_neg (c := r = rdA ∧ a ≤ x ∧ x < a + m * sz d ∧ x < (rdOf s rdA).ipaSize) hc, if_neg]
    rintro ⟨rfl, h1, h2, h3⟩
    apply hc
    have hx52 : x < 2 ^ 52 := lt_of_lt_of_le h1 (h.rds r k.rd).geo.ipa_lt
    by_cases hi : idx d a ≤ idx d x ∧ idx d x < idx d a + m
    · have := (hconv hx52).mpr ⟨h2, hi⟩
      exact ⟨rfl, this.1, this.2, h1⟩
    · rw [if_neg hi] at h3; exact absurd rfl h3

/-! ## Commands that change entries of one table -/

theorem mem_ne_rd (h : InvG P s ti di rl) {g : Nat} (hg : s.st g = .rtt) (v : Content) :
    RdSame s { s with mem := upd s.mem g v } :=
  RdSame.of_mem (fun _ => Iff.rfl) (fun r hr => upd_ne _ _ _ (ne_of_st hr hg (by simp)))

theorem MapOk.leaf (h : InvG P s ti di rl) {rdA a d g hd s' ret} (k : MapOk s ti rdA a d g hd s' ret) (r x : Nat) :
    leaf s' r x = if r = rdA ∧ a ≤ x ∧ x < a + sz d
      then some (hostEntry (rdOf s rdA) hd (3 - (d : Int)), d) else leaf s r x := by
  have h' := k.inv h
  have e := k.st
  subst e
  refine leaf_change1 h h' (mem_ne_rd h k.at_.st _) (fun _ _ => rfl) (fun _ hx => hx) k.at_ k.al
    (fun x _ hx => upd_ne _ _ _ hx) (upd_same _ _ _) ?_ ?_ r x
  · intro c; simp [hostEntry]
  · rw [k.ent]; intro c; simp

theorem UnmapOk.leaf (h : InvG P s ti di rl) {rdA a d g s' ret} (k : UnmapOk s ti rdA a d g s' ret) (r x : Nat) :
    leaf s' r x = if r = rdA ∧ a ≤ x ∧ x < a + sz d then some (.unassignedNs, d) else leaf s r x := by
  have h' := k.inv h
  have e := k.st
  subst e
  obtain ⟨at_, pa, he⟩ := k.ent
  refine leaf_change1 h h' (mem_ne_rd h k.at_.st _) (fun _ _ => rfl) (fun _ hx => hx) k.at_ k.al
    (fun x _ hx => upd_ne _ _ _ hx) (upd_same _ _ _) ?_ ?_ r x
  · intro c; simp
  · rw [he]; intro c; simp

theorem leaf_dataCreateUnknown (hP : PlatOk P) (h : InvG P s ti di rl) {rdA data a g : Nat} {rp : Ripas}
    (k : DataOk s ti rdA data a g rp) (r x : Nat) :
    leaf (dataCreateSt s data g (idx 0 a) (tabOf s g) rp) r x =
      if r = rdA ∧ a ≤ x ∧ x < a + 4096 then some (.assigned rp data, 0) else leaf s r x := by
  have h' := inv_dataCreateUnknown hP h k
  have hst : ∀ x y, s.st x = y → y ≠ .delegated → upd s.st data .data x = y := by
    intro x y hx hy
    rw [upd_ne _ _ _ (ne_of_st hx k.del hy)]; exact hx
  have := leaf_change1 h h' (a := a) (d := 0) (g := g) (rdA := rdA) (e := .assigned rp data)
    (RdSame.of_mem (fun r => ⟨fun hr => by
        by_contra hn
        by_cases hd : r = data
        · subst hd; exact absurd hr (by simp [dataCreateSt, upd_same])
        · exact hn (by rw [← upd_ne s.st data .data hd]; exact hr), fun hr => hst r _ hr (by simp)⟩)
      (fun r hr => upd_ne _ _ _ (ne_of_st hr k.at_.st (by simp))))
    (fun _ _ => rfl) (fun x hx => hst x _ hx (by simp)) k.at_ (by rw [sz_zero]; exact k.al)
    (fun x _ hx => upd_ne _ _ _ hx) (upd_same _ _ _) (by intro c; simp) (by rw [k.ent]; intro c; simp) r x
  rw [sz_zero] at this
  exact this

theorem leaf_dataCreate (hP : PlatOk P) (h : InvG P s ti di rl) {rdA data a g p flags : Nat} {rp : Ripas}
    (k : DataOk s ti rdA data a g rp) (r x : Nat) :
    leaf (dataCreatedSt s rdA data a g p flags) r x =
      if r = rdA ∧ a ≤ x ∧ x < a + 4096 then some (.assigned .ram data, 0) else leaf s r x := by
  have h' := inv_dataCreate (p := p) (flags := flags) hP h k
  have hst : ∀ x y, s.st x = y → y ≠ .delegated → upd s.st data .data x = y := by
    intro x y hx hy
    rw [upd_ne _ _ _ (ne_of_st hx k.del hy)]; exact hx
  have hgr : rdA ≠ g := ne_of_st k.at_.rd k.at_.st (by simp)
  have := leaf_change1 h h' (a := a) (d := 0) (g := g) (rdA := rdA) (e := .assigned .ram data)
    ⟨fun r => ⟨fun hr => by
        by_contra hn
        by_cases hd : r = data
        · subst hd; exact absurd hr (by simp [dataCreatedSt, dataCreateSt, upd_same])
        · exact hn (by rw [← upd_ne s.st data .data hd]; exact hr), fun hr => hst r _ hr (by simp)⟩,
      by
        intro r hr
        by_cases hrr : r = rdA
        · subst hrr
          have : (dataCreatedSt s r data a g p flags).mem r = .rd { rdOf s r with
              rim := (rdOf s r).rim ++ [MeasEv.data a (if flags = 1 then some p else none)] } := by
            unfold dataCreatedSt dataCreateSt
            dsimp only
            rw [upd_ne _ _ _ hgr, upd_same]
          rw [rdOf_of_mem this]
          exact ⟨rfl, rfl, rfl, rfl, rfl, rfl, rfl⟩
        · have : (dataCreatedSt s rdA data a g p flags).mem r = s.mem r := by
            unfold dataCreatedSt dataCreateSt
            dsimp only
            rw [upd_ne _ _ _ (ne_of_st hr k.at_.st (by simp)), upd_ne _ _ _ hrr,
              upd_ne _ _ _ (ne_of_st hr k.del (by simp))]
          rw [rdOf_congr this]; exact SameGeo.refl _⟩
    (fun _ _ => rfl) (fun x hx => hst x _ hx (by simp)) k.at_ (by rw [sz_zero]; exact k.al)
    (by
      intro x hx hxg
      unfold dataCreatedSt dataCreateSt
      dsimp only
      rw [upd_ne _ _ _ hxg, upd_ne _ _ _ (ne_of_st hx k.at_.rd (by simp)),
        upd_ne _ _ _ (ne_of_st hx k.del (by simp))])
    (by unfold dataCreatedSt dataCreateSt; dsimp only; rw [upd_same])
    (by intro c; simp) (by rw [k.ent]; intro c; simp) r x
  rw [sz_zero] at this
  exact this

theorem DataDestroyOk.pa_data (h : InvG P s ti di rl) {rdA a g pa : Nat} {rp : Ripas} {s' : State} {ret : Ret}
    (k : DataDestroyOk s ti rdA a g pa rp s' ret) : s.st pa = .data ∧ di pa = (rdA, a) := by
  have := k.at_.ent h
  rw [k.ent] at this
  obtain ⟨_, _, _, _, h4⟩ := this
  have := h4 0 (by simp)
  rw [Nat.mul_zero, Nat.add_zero, Nat.add_zero, sz_zero, div_mul_of_mod k.al] at this
  exact this

theorem DataDestroyOk.leaf (h : InvG P s ti di rl) {rdA a g pa : Nat} {rp : Ripas} {s' : State} {ret : Ret}
    (k : DataDestroyOk s ti rdA a g pa rp s' ret) (r x : Nat) :
    leaf s' r x = if r = rdA ∧ a ≤ x ∧ x < a + 4096
      then some (.unassigned (if rp = .empty then .empty else .destroyed), 0) else leaf s r x := by
  have h' := k.inv h
  have hpa := (k.pa_data h).1
  have e := k.st
  subst e
  have hst : ∀ x y, s.st x = y → y ≠ .data → upd s.st pa .delegated x = y := by
    intro x y hx hy
    rw [upd_ne _ _ _ (ne_of_st hx hpa hy)]; exact hx
  have hgp : g ≠ pa := ne_of_st k.at_.st hpa (by simp)
  have := leaf_change1 h h' (a := a) (d := 0) (g := g) (rdA := rdA)
    (e := .unassigned (if rp = .empty then .empty else .destroyed))
    (RdSame.of_mem (fun r => ⟨fun hr => by
        by_contra hn
        by_cases hd : r = pa
        · subst hd; exact absurd hr (by simp [upd_same])
        · exact hn (by rw [← upd_ne s.st pa .delegated hd]; exact hr), fun hr => hst r _ hr (by simp)⟩)
      (fun r hr => by
        dsimp only
        rw [upd_ne _ _ _ (ne_of_st hr hpa (by simp)), upd_ne _ _ _ (ne_of_st hr k.at_.st (by simp))]))
    (fun _ _ => rfl) (fun x hx => hst x _ hx (by simp)) k.at_ (by rw [sz_zero]; exact k.al)
    (fun x hx hxg => by
      dsimp only
      rw [upd_ne _ _ _ (ne_of_st hx hpa (by simp)), upd_ne _ _ _ hxg])
    (by dsimp only; rw [upd_ne _ _ _ hgp, upd_same]) (by intro c; simp) (by rw [k.ent]; intro c; simp) r x
  rw [sz_zero] at this
  exact this


theorem leaf_init (h : InvG P s ti di rl) {rdA base top d g m : Nat} {s' : State} {ret : Ret}
    (k : InitOk s ti rdA base top d g m s' ret) (r x : Nat) :
    leaf s' r x = if r = rdA ∧ base ≤ x ∧ x < base + m * sz d
      then (leaf s r x).map (fun p => (.unassigned .ram, p.2)) else leaf s r x := by
  have h' := k.inv h
  have e := k.st
  subst e
  have hgr : g ≠ rdA := ne_of_st k.at_.st k.at_.rd (by simp)
  have hper : perTab d ≤ 512 := by unfold perTab; split <;> omega
  have hm2 := k.m2
  have hm1 := k.m1
  have := leaf_changeN h h' (m := m) (f := fun _ => .unassigned .ram)
    (RdSame.of_one (r0 := rdA) (fun _ => Iff.rfl) (fun r hr hrr => by
        dsimp only
        rw [upd_ne _ _ _ hrr, upd_ne _ _ _ (ne_of_st hr k.at_.st (by simp))])
      (upd_same _ _ _) ⟨rfl, rfl, rfl, rfl, rfl, rfl, rfl⟩)
    (fun _ hx => hx) k.at_ (by omega) k.al
    (fun x hx hxg => by
      dsimp only
      rw [upd_ne _ _ _ (ne_of_st hx k.at_.rd (by simp)), upd_ne _ _ _ hxg])
    (by dsimp only; rw [upd_ne _ _ _ hgr, upd_same])
    (fun j h1 h2 => ⟨by simp, by
      have := k.was j h1 h2
      intro c hc
      rw [hc] at this
      exact absurd this (by simp [Entry.initable])⟩) r x
  rw [this]
  have hp := k.par
  have hl := k.le
  have hpi := (h.rds rdA k.at_.rd).geo.par_le
  by_cases hc : r = rdA ∧ base ≤ x ∧ x < base + m * sz d
  · rw [if_pos hc, if_pos ⟨hc.1, hc.2.1, hc.2.2, by omega⟩]
  · rw [if_neg hc, if_neg (fun hh => hc ⟨hh.1, hh.2.1, hh.2.2.1⟩)]

theorem leaf_set (h : InvG P s ti di rl) {rdA recA base top d g m : Nat} {s' : State} {ret : Ret}
    (k : SetOk s ti rdA recA base top d g m s' ret) (r x : Nat) :
    leaf s' r x = if r = rdA ∧ base ≤ x ∧ x < base + m * sz d
      then (leaf s r x).map (fun p => (p.1.setRipas (recOf s recA).sr.ripas (recOf s recA).sr.chg, p.2))
      else leaf s r x := by
  have h' := k.inv h
  have e := k.st
  subst e
  have hgr : g ≠ recA := ne_of_st k.at_.st k.rst (by simp)
  have hm2 := k.m2
  have hm1 := k.m1
  have := leaf_changeN h h' (m := m)
    (f := fun e => e.setRipas (recOf s recA).sr.ripas (recOf s recA).sr.chg)
    (RdSame.of_mem (fun _ => Iff.rfl) (by
      intro r hr
      dsimp only
      rw [upd_ne _ _ _ (ne_of_st hr k.rst (by simp)), upd_ne _ _ _ (ne_of_st hr k.at_.st (by simp))]))
    (fun _ hx => hx) k.at_ (by omega) k.al
    (fun x hx hxg => by
      dsimp only
      rw [upd_ne _ _ _ (ne_of_st hx k.rst (by simp)), upd_ne _ _ _ hxg])
    (by dsimp only; rw [upd_ne _ _ _ hgr, upd_same])
    (fun j h1 h2 => by
      have := k.can j h1 h2
      revert this
      cases tabOf s g j <;> simp [updateRipas, Entry.setRipas]
      all_goals (try split <;> simp)
      all_goals (try split <;> simp)) r x
  rw [this]
  have hp := k.topLe
  have hl := k.le
  have ho := k.own
  have hsr := (h.recs recA k.rst).sr.par
  rw [ho] at hsr
  have hpi := (h.rds rdA k.at_.rd).geo.par_le
  by_cases hc : r = rdA ∧ base ≤ x ∧ x < base + m * sz d
  · rw [if_pos hc, if_pos ⟨hc.1, hc.2.1, hc.2.2, by omega⟩]
  · rw [if_neg hc, if_neg (fun hh => hc ⟨hh.1, hh.2.1, hh.2.2.1⟩)]


/-! ## Commands that create or remove a table -/

/-- The region of a table. -/
theorem al_iff (d a x : Nat) (ha : a % sz (d + 1) = 0) : al d x = a ↔ a ≤ x ∧ x < a + sz (d + 1) := by
  obtain ⟨q, rfl⟩ := Nat.dvd_of_mod_eq_zero ha
  unfold al
  have hp := sz_pos (d + 1)
  rw [Nat.mul_comm (sz (d + 1)) q]
  constructor
  · intro h
    have h1 := Nat.div_add_mod x (sz (d + 1))
    have h2 := Nat.mod_lt x hp
    rw [Nat.mul_comm, h] at h1
    omega
  · rintro ⟨h1, h2⟩
    congr 1
    apply Nat.div_eq_of_lt_le h1
    rw [Nat.add_mul, Nat.one_mul]; exact h2

/-- The region of an entry, as the region of a table one level further down. -/
theorem entry_iff (h : InvG P s ti di rl) {rdA a d g x : Nat} (k : At s ti rdA a (d + 1) g)
    (ha : a % sz (d + 1) = 0) (hx : x < 2 ^ 52) :
    al d x = a ↔ al (d + 1) x = al (d + 1) a ∧ idx (d + 1) x = idx (d + 1) a := by
  rw [al_iff d a x ha]
  have := at_entry h k hx (idx (d + 1) a) (idx_lt _ _)
  rw [al_add _ _ (k.lt52 h), div_mul_of_mod ha] at this
  exact this

theorem pageView_split (d x : Nat) (e : Entry) (hx : x < 2 ^ 52) :
    pageView d x (splitEntry e d (idx d x)) = pageView (d + 1) x e := by
  have h1 : x % sz (d + 1) / 4096 * 4096 = idx d x * sz d + x % sz d / 4096 * 4096 := by
    rw [mod_split d x hx]
    obtain ⟨q, hq⟩ := sz_dvd (Nat.zero_le d)
    rw [sz_zero] at hq
    have : idx d x * sz d = 4096 * (idx d x * q) := by rw [hq]; ring
    rw [this]
    omega
  cases e <;> simp only [splitEntry, pageView, h1, Nat.add_assoc]

theorem RttCreateOk.leaf_in (h : InvG P s ti di rl) {rdA rtt a d g : Nat} {e : Entry} {s' : State}
    {ret : Ret} (k : RttCreateOk P s ti rdA rtt a d g e s' ret) (x : Nat) (h1 : a ≤ x)
    (h2 : x < a + sz (d + 1)) :
    leaf s rdA x = some (e, d + 1) ∧ leaf s' rdA x = some (splitEntry e d (idx d x), d) := by
  have h' := k.inv h
  have hlt : x < (rdOf s rdA).ipaSize :=
    region_below (d := d + 1) (dvd_trans (sz_dvd (k.at_.depth h)) (h.rds rdA k.at_.rd).geo.ipa_dvd) k.al k.at_.lt h2
  have hx : x < 2 ^ 52 := lt_of_lt_of_le hlt (h.rds rdA k.at_.rd).geo.ipa_lt
  have hal : Rmm.al d x = a := (al_iff d a x k.al).mpr ⟨h1, h2⟩
  have hio := (entry_iff h k.at_ k.al hx).mp hal
  have hrg : rtt ≠ g := ne_of_st k.del k.at_.st (by simp)
  have hrr : rdA ≠ rtt := ne_of_st k.at_.rd k.del (by simp)
  have hrg' : rdA ≠ g := ne_of_st k.at_.rd k.at_.st (by simp)
  constructor
  · rw [leaf_at h (d := d + 1) (g := g) ⟨k.at_.rd, hlt, k.at_.st, by rw [k.at_.ti, hio.1]⟩
      (by rw [hio.2, k.ent]; exact k.notTab), hio.2, k.ent]
  · have hs' := k.st
    have hm : s'.mem rtt = .table (splitEntry e d) := by
      rw [hs']; unfold rttCreateSt; dsimp only; rw [upd_ne _ _ _ hrg, upd_same]
    have hst : s'.st rdA = .rd := by
      rw [hs']; unfold rttCreateSt; dsimp only; rw [upd_ne _ _ _ hrr]; exact k.at_.rd
    have hrd : s'.mem rdA = s.mem rdA := by
      rw [hs']; unfold rttCreateSt; dsimp only; rw [upd_ne _ _ _ hrg', upd_ne _ _ _ hrr]
    rw [leaf_at h' (d := d) (g := rtt) ⟨hst, by rw [rdOf_congr hrd]; exact hlt, by
        rw [hs']; unfold rttCreateSt; dsimp only; rw [upd_same], by rw [upd_same, hal]⟩
      (by
        rw [tabOf_of_mem hm]
        intro c hc
        cases e with
        | table pa => exact k.notTab _ rfl
        | _ => simp [splitEntry] at hc), tabOf_of_mem hm]

theorem RttCreateOk.leaf_out (h : InvG P s ti di rl) {rdA rtt a d g : Nat} {e : Entry} {s' : State}
    {ret : Ret} (k : RttCreateOk P s ti rdA rtt a d g e s' ret) (r x : Nat)
    (hn : ¬ (r = rdA ∧ a ≤ x ∧ x < a + sz (d + 1))) : leaf s' r x = leaf s r x := by
  have h' := k.inv h
  have hs' := k.st
  have hrg : rtt ≠ g := ne_of_st k.del k.at_.st (by simp)
  have st_ne : ∀ b, b ≠ rtt → s'.st b = s.st b := fun b hb => by
    rw [hs']; unfold rttCreateSt; dsimp only; rw [upd_ne _ _ _ hb]
  have st_eq : s'.st rtt = .rtt := by rw [hs']; unfold rttCreateSt; dsimp only; rw [upd_same]
  have mem_ne : ∀ b, b ≠ rtt → b ≠ g → s'.mem b = s.mem b := fun b hb hb' => by
    rw [hs']; unfold rttCreateSt; dsimp only; rw [upd_ne _ _ _ hb', upd_ne _ _ _ hb]
  have hmg : s'.mem g = .table (upd (tabOf s g) (idx (d + 1) a) (.table rtt)) := by
    rw [hs']; unfold rttCreateSt; dsimp only; rw [upd_same]
  apply leaf_frame_at h h'
  · constructor
    · intro hr
      by_cases hb : r = rtt
      · rw [hb, st_eq] at hr; simp at hr
      · rw [← st_ne r hb]; exact hr
    · intro hr
      rw [st_ne r (ne_of_st hr k.del (by simp))]; exact hr
  · intro hr
    rw [rdOf_congr (mem_ne r (ne_of_st hr k.del (by simp)) (ne_of_st hr k.at_.st (by simp)))]
    exact SameGeo.refl _
  · intro d' g' q
    have hg' : g' ≠ rtt := ne_of_st q.st k.del (by simp)
    refine ⟨by rw [st_ne _ hg']; exact q.st, upd_ne _ _ _ hg', ?_⟩
    by_cases hgg : g' = g
    · subst hgg
      have := q.ti
      rw [k.at_.ti] at this
      obtain ⟨rfl, rfl, e3⟩ : rdA = r ∧ d + 1 = d' ∧ Rmm.al (d + 1) a = Rmm.al d' x := by
        simpa using this
      rw [tabOf_of_mem hmg, upd_ne]
      intro hi
      exact hn ⟨rfl, (al_iff d a x k.al).mp ((entry_iff h k.at_ k.al (q.lt52 h)).mpr ⟨e3.symm, hi⟩)⟩
    · rw [tabOf_congr (mem_ne _ hg' hgg)]

theorem RttCreateOk.view_eq (h : InvG P s ti di rl) {rdA rtt a d g : Nat} {e : Entry} {s' : State}
    {ret : Ret} (k : RttCreateOk P s ti rdA rtt a d g e s' ret) (r x : Nat) : view s' r x = view s r x := by
  by_cases hn : r = rdA ∧ a ≤ x ∧ x < a + sz (d + 1)
  · obtain ⟨rfl, h1, h2⟩ := hn
    have hlt : x < (rdOf s r).ipaSize :=
      region_below (d := d + 1) (dvd_trans (sz_dvd (k.at_.depth h)) (h.rds r k.at_.rd).geo.ipa_dvd) k.al k.at_.lt h2
    have hx : x < 2 ^ 52 := lt_of_lt_of_le hlt (h.rds r k.at_.rd).geo.ipa_lt
    obtain ⟨e1, e2⟩ := k.leaf_in h x h1 h2
    rw [view_of_leaf e1, view_of_leaf e2, pageView_split d x e hx]
  · unfold view; rw [k.leaf_out h r x hn]

/-- A table is removed and one entry takes its place. -/
theorem leaf_drop (h : InvG P s ti di rl) {rdA a d g c : Nat} (k : Child s ti rdA a d g c) {e : Entry} {n m : Nat}
    (h' : InvG P (dropTableSt s c g (idx (d + 1) a) (tabOf s g) e n m) ti di rl) (he : ∀ x, e ≠ .table x)
    (r x : Nat) :
    leaf (dropTableSt s c g (idx (d + 1) a) (tabOf s g) e n m) r x =
      if r = rdA ∧ a ≤ x ∧ x < a + sz (d + 1) then some (e, d + 1) else leaf s r x := by
  generalize hs' : dropTableSt s c g (idx (d + 1) a) (tabOf s g) e n m = s' at h'
  have hgc : g ≠ c := by
    intro hh
    have := k.at_.ti
    rw [hh, k.cti] at this
    simp at this
  have st_ne : ∀ b, b ≠ c → s'.st b = s.st b := fun b hb => by
    rw [← hs']; unfold dropTableSt; dsimp only; rw [upd_ne _ _ _ hb]
  have st_eq : s'.st c = .delegated := by rw [← hs']; unfold dropTableSt; dsimp only; rw [upd_same]
  have mem_ne : ∀ b, b ≠ c → b ≠ g → s'.mem b = s.mem b := fun b hb hb' => by
    rw [← hs']; unfold dropTableSt; dsimp only; rw [upd_ne _ _ _ hb, upd_ne _ _ _ hb']
  have hmg : s'.mem g = .table (upd (tabOf s g) (idx (d + 1) a) e) := by
    rw [← hs']; unfold dropTableSt; dsimp only; rw [upd_ne _ _ _ hgc, upd_same]
  have hrdc : rdA ≠ c := ne_of_st k.at_.rd k.cst (by simp)
  have hrdg : rdA ≠ g := ne_of_st k.at_.rd k.at_.st (by simp)
  by_cases hn : r = rdA ∧ a ≤ x ∧ x < a + sz (d + 1)
  · rw [if_pos hn]
    obtain ⟨rfl, h1, h2⟩ := hn
    have hlt : x < (rdOf s r).ipaSize :=
      region_below (d := d + 1) (dvd_trans (sz_dvd (k.at_.depth h)) (h.rds r k.at_.rd).geo.ipa_dvd) k.al k.at_.lt h2
    have hx : x < 2 ^ 52 := lt_of_lt_of_le hlt (h.rds r k.at_.rd).geo.ipa_lt
    have hio := (entry_iff h k.at_ k.al hx).mp ((al_iff d a x k.al).mpr ⟨h1, h2⟩)
    rw [leaf_at h' (d := d + 1) (g := g) ⟨by rw [st_ne _ hrdc]; exact k.at_.rd,
        by rw [rdOf_congr (mem_ne _ hrdc hrdg)]; exact hlt, by rw [st_ne _ hgc]; exact k.at_.st,
        by rw [k.at_.ti, hio.1]⟩ (by rw [tabOf_of_mem hmg, hio.2, upd_same]; exact he),
      tabOf_of_mem hmg, hio.2, upd_same]
  · rw [if_neg hn]
    apply leaf_frame_at h h'
    · constructor
      · intro hr
        by_cases hb : r = c
        · rw [hb, st_eq] at hr; simp at hr
        · rw [← st_ne r hb]; exact hr
      · intro hr
        rw [st_ne r (ne_of_st hr k.cst (by simp))]; exact hr
    · intro hr
      rw [rdOf_congr (mem_ne r (ne_of_st hr k.cst (by simp)) (ne_of_st hr k.at_.st (by simp)))]
      exact SameGeo.refl _
    · intro d' g' q
      have hg' : g' ≠ c := by
        intro hh
        have := q.ti
        rw [hh, k.cti] at this
        obtain ⟨rfl, rfl, e3⟩ : rdA = r ∧ d = d' ∧ a = al d' x := by simpa using this
        exact hn ⟨rfl, (al_iff d a x k.al).mp e3.symm⟩
      refine ⟨by rw [st_ne _ hg']; exact q.st, rfl, ?_⟩
      by_cases hgg : g' = g
      · subst hgg
        have := q.ti
        rw [k.at_.ti] at this
        obtain ⟨rfl, rfl, e3⟩ : rdA = r ∧ d + 1 = d' ∧ al (d + 1) a = al d' x := by
          simpa using this
        rw [tabOf_of_mem hmg, upd_ne]
        intro hi
        exact hn ⟨rfl, (al_iff d a x k.al).mp ((entry_iff h k.at_ k.al (q.lt52 h)).mpr ⟨e3.symm, hi⟩)⟩
      · rw [tabOf_congr (mem_ne _ hg' hgg)]

/-- The addresses of a table, when none of its entries is a table. -/
theorem leaf_child (h : InvG P s ti di rl) {rdA a d g c : Nat} (k : Child s ti rdA a d g c) (x : Nat)
    (h1 : a ≤ x) (h2 : x < a + sz (d + 1)) (hn : ∀ p, tabOf s c (idx d x) ≠ .table p) :
    x < 2 ^ 52 ∧ leaf s rdA x = some (tabOf s c (idx d x), d) := by
  have hlt : x < (rdOf s rdA).ipaSize :=
    region_below (d := d + 1) (dvd_trans (sz_dvd (k.at_.depth h)) (h.rds rdA k.at_.rd).geo.ipa_dvd) k.al k.at_.lt h2
  refine ⟨lt_of_lt_of_le hlt (h.rds rdA k.at_.rd).geo.ipa_lt, ?_⟩
  exact leaf_at h ⟨k.at_.rd, hlt, k.cst, by rw [k.cti, (al_iff d a x k.al).mpr ⟨h1, h2⟩]⟩ hn

theorem RttFoldOk.leaf_eq (h : InvG P s ti di rl) {rdA a d g c : Nat} {e : Entry} {s' : State} {ret : Ret}
    (k : RttFoldOk s ti rdA a d g c e s' ret) (r x : Nat) :
    leaf s' r x = if r = rdA ∧ a ≤ x ∧ x < a + sz (d + 1) then some (e, d + 1) else leaf s r x := by
  have h' := k.inv h
  have hs' := k.st
  subst hs'
  exact leaf_drop h k.ch h' k.same.2.1 r x

theorem RttFoldOk.view_eq (h : InvG P s ti di rl) {rdA a d g c : Nat} {e : Entry} {s' : State} {ret : Ret}
    (k : RttFoldOk s ti rdA a d g c e s' ret) (r x : Nat) : view s' r x = view s r x := by
  have hl := k.leaf_eq h r x
  by_cases hn : r = rdA ∧ a ≤ x ∧ x < a + sz (d + 1)
  · rw [if_pos hn] at hl
    obtain ⟨rfl, h1, h2⟩ := hn
    have hsame := k.same.1 (idx d x) (idx_lt _ _)
    obtain ⟨hx, e1⟩ := leaf_child h k.ch x h1 h2 (by
      rw [hsame]
      intro p hp
      cases e with
      | table pa => exact k.same.2.1 _ rfl
      | _ => simp [splitEntry] at hp)
    rw [view_of_leaf hl, view_of_leaf e1, hsame, pageView_split d x e hx]
  · rw [if_neg hn] at hl
    unfold view; rw [hl]

theorem RttDestroyOk.leaf_eq (h : InvG P s ti di rl) {rdA a d g c : Nat} {s' : State} {ret : Ret}
    (k : RttDestroyOk s ti rdA a d g c s' ret) (r x : Nat) :
    leaf s' r x = if r = rdA ∧ a ≤ x ∧ x < a + sz (d + 1)
      then some (if a < (rdOf s rdA).parSize then .unassigned .destroyed else .unassignedNs, d + 1)
      else leaf s r x := by
  have h' := k.inv h
  have hs' := k.st
  subst hs'
  exact leaf_drop h k.ch h' (by intro p; split <;> simp) r x

/-- Before RTT_DESTROY, no page below the table is assigned to the realm. -/
theorem RttDestroyOk.leaf_was (h : InvG P s ti di rl) {rdA a d g c : Nat} {s' : State} {ret : Ret}
    (k : RttDestroyOk s ti rdA a d g c s' ret) (x : Nat) (h1 : a ≤ x) (h2 : x < a + sz (d + 1)) :
    leaf s rdA x = some (tabOf s c (idx d x), d) ∧ (tabOf s c (idx d x)).counted = false := by
  have hz : ∀ i < 512, (tabOf s c i).counted = false := by
    apply cnt_eq_zero
    rw [← (h.tab c k.ch.cst).rc]; exact k.rc
  have := hz (idx d x) (idx_lt _ _)
  refine ⟨(leaf_child h k.ch x h1 h2 ?_).2, this⟩
  intro p hp
  rw [hp] at this
  simp [Entry.counted] at this

/-! ## Realms that appear and disappear -/

theorem RealmCreateOk.leaf_other (h : InvG P s ti di rl) {rdA : Nat} {q : RealmParams} {s' : State}
    {ret : Ret} (k : RealmCreateOk P s rdA q s' ret) (r x : Nat) (hr : r ≠ rdA) : leaf s' r x = leaf s r x := by
  have h' := k.inv h
  obtain ⟨ts, hts, hs'⟩ := k.st
  have hroot : ∀ b, s.st b ≠ .delegated → inRange q.rttBase q.p.rttNumStart b = false := by
    intro b hb
    by_contra hc
    obtain ⟨j, hj, rfl⟩ := (inRange_iff _ _ _).mp (by simpa using hc)
    exact hb (k.roots j hj).2
  have hrd : ∀ b, s.st b ≠ .delegated → b ≠ rdA := fun b hb e => hb (e ▸ k.rd.2)
  apply leaf_frame h h'
  · rw [hs']; unfold realmCreateSt; dsimp only
    rw [upd_ne _ _ _ hr]
    by_cases hb : s.st r = .delegated
    · rw [hb]; split <;> simp
    · rw [hroot r hb]; simp
  · intro hb
    have hb' : s.st r ≠ .delegated := by rw [hb]; simp
    rw [rdOf_congr (s := s) (s' := s') (g := r) (by
      rw [hs']; unfold realmCreateSt; dsimp only
      rw [upd_ne _ _ _ hr, hroot r hb']; simp)]
    exact SameGeo.refl _
  · intro g hg _
    have hb' : s.st g ≠ .delegated := by rw [hg]; simp
    rw [hs']; unfold realmCreateSt realmTi; dsimp only
    rw [upd_ne _ _ _ (hrd g hb'), upd_ne _ _ _ (hrd g hb'), hroot g hb']
    exact ⟨hg, rfl, rfl⟩

theorem RealmCreateOk.view_new (h : InvG P s ti di rl) {rdA : Nat} {q : RealmParams} {s' : State}
    {ret : Ret} (k : RealmCreateOk P s rdA q s' ret) (x : Nat) :
    view s' rdA x = if x < 2 ^ (q.p.s2sz - 1) then some (.unassigned .empty)
      else if x < 2 ^ q.p.s2sz then some .unassignedNs else none := by
  have h' := k.inv h
  obtain ⟨ts, hts, hs'⟩ := k.st
  have hg := k.ok.geometry
  rw [← Features.lpa2Requested_eq] at hg
  obtain ⟨hgeo, ts', hts', hroot⟩ := legal_geo hg (r := newRd q) rfl rfl rfl rfl
  rw [hts] at hts'
  obtain rfl : ts = ts' := Option.some.inj hts'
  have hst : s'.st rdA = .rd := by rw [hs']; unfold realmCreateSt; dsimp only; rw [upd_same]
  have hm : s'.mem rdA = .rd (newRd q) := by rw [hs']; unfold realmCreateSt; dsimp only; rw [upd_same]; rfl
  have hrd : rdOf s' rdA = newRd q := rdOf_of_mem hm
  have hpar : (newRd q).parSize = 2 ^ (q.p.s2sz - 1) := by
    have hb := hgeo.bits1
    unfold Rd.parSize Rd.ipaSize
    show 2 ^ q.p.s2sz / 2 = _
    have : 32 ≤ q.p.s2sz := hb
    rw [show q.p.s2sz = (q.p.s2sz - 1) + 1 by omega, Nat.pow_succ]
    simp
  have hipa : (newRd q).ipaSize = 2 ^ q.p.s2sz := rfl
  rw [← hpar, ← hipa]
  have hple := hgeo.par_le
  by_cases hx : x < (newRd q).ipaSize
  swap
  · rw [if_neg (by omega), if_neg hx]
    unfold view
    rw [leaf_none h' hst (by rw [hrd]; omega)]
  have hx' : x < (rdOf s' rdA).ipaSize := by rw [hrd]; exact hx
  have hx52 : x < 2 ^ 52 := lt_of_lt_of_le hx hgeo.ipa_lt
  obtain ⟨d, g, a1, hn, hl⟩ := leaf_ex h' hst hx'
  -- the table is a root: only roots belong to the new realm
  have hin : inRange q.rttBase q.p.rttNumStart g = true := by
    by_contra hc
    have hc : inRange q.rttBase q.p.rttNumStart g = false := by simpa using hc
    have h1 := a1.st
    have h2 := a1.ti
    rw [hs'] at h1
    unfold realmCreateSt at h1
    dsimp only at h1
    unfold realmTi at h2
    rw [hc] at h2
    have hga : g ≠ rdA := by
      intro hh; rw [hh, upd_same] at h1; simp at h1
    rw [upd_ne _ _ _ hga, hc] at h1
    have h3 := (h.tab g (by simpa using h1)).rd
    simp only [Bool.false_eq_true, if_false] at h2
    rw [h2] at h3
    exact absurd k.rd.2 (by rw [h3]; simp)
  obtain ⟨j, hj, rfl⟩ := (inRange_iff _ _ _).mp hin
  have h2 := a1.ti
  unfold realmTi at h2
  rw [if_pos hin, rangeIdx_eq] at h2
  obtain ⟨-, rfl, hbase⟩ : True ∧ dOf q.p.rttLevelStart = d ∧
      j * sz (dOf q.p.rttLevelStart + 1) = al d x := by simpa using h2
  have hmg : s'.mem (q.rttBase + 4096 * j) = .table (fun i => rootEntry (ts j i)) := by
    rw [hs']; unfold realmCreateSt; dsimp only
    rw [upd_ne _ _ _ (Ne.symm (k.disj j hj)), if_pos hin, rangeIdx_eq]
  rw [view_of_leaf hl, tabOf_of_mem hmg]
  dsimp only
  rw [hroot j hj _ (idx_lt _ _), hbase, al_add _ _ hx52]
  have hdv := hgeo.par_dvd
  have hp := sz_pos (dOf q.p.rttLevelStart)
  have hle : x / sz (dOf q.p.rttLevelStart) * sz (dOf q.p.rttLevelStart) ≤ x := Nat.div_mul_le_self _ _
  unfold rootSpec
  by_cases hxp : x < (newRd q).parSize
  · rw [if_pos hxp, if_pos (by omega)]; rfl
  · rw [if_neg hxp, if_neg, if_pos hx, if_pos (by omega)]; · rfl
    intro hh
    apply hxp
    exact region_below (d := dOf q.p.rttLevelStart) hdv (Nat.mul_mod_left _ _) hh (by
      have := Nat.div_add_mod x (sz (dOf q.p.rttLevelStart))
      have h3 := Nat.mod_lt x hp
      rw [Nat.mul_comm] at this
      omega)

theorem RealmDestroyOk.leaf_eq (h : InvG P s ti di rl) {rdA : Nat} {s' : State} {ret : Ret}
    (k : RealmDestroyOk s rdA s' ret) (r x : Nat) :
    leaf s' r x = if r = rdA then none else leaf s r x := by
  have h' := k.inv h
  have hs' := k.st
  have hR := h.rds rdA k.rd
  by_cases hr : r = rdA
  · rw [if_pos hr, hr]
    apply leaf_not_rd h'
    rw [hs']; unfold realmDestroySt; dsimp only; rw [upd_same]; simp
  · rw [if_neg hr]
    have hin : ∀ b, s.st b = .rd ∨ (s.st b = .rtt ∧ (ti b).rd = r) →
        inRange (rdOf s rdA).root (rdOf s rdA).nroots b = false := by
      intro b hb
      by_contra hc
      obtain ⟨j, hj, rfl⟩ := (inRange_iff _ _ _).mp (by simpa using hc)
      obtain ⟨b1, b2⟩ := hR.roots j hj
      rcases hb with hb | ⟨_, hb⟩
      · rw [b1] at hb; simp at hb
      · rw [b2] at hb; exact hr hb.symm
    apply leaf_frame h h'
    · rw [hs']; unfold realmDestroySt; dsimp only
      rw [upd_ne _ _ _ hr]
      by_cases hb : s.st r = .rd
      · rw [hin r (Or.inl hb)]; simp
      · constructor
        · intro hh
          split at hh
          · simp at hh
          · exact hh
        · intro hh; exact absurd hh hb
    · intro hb
      rw [rdOf_congr (s := s) (s' := s') (g := r) (by
        rw [hs']; unfold realmDestroySt; dsimp only
        rw [upd_ne _ _ _ hr, hin r (Or.inl hb)]; simp)]
      exact SameGeo.refl _
    · intro g hg hgr
      have hga : g ≠ rdA := ne_of_st hg k.rd (by simp)
      rw [hs']; unfold realmDestroySt; dsimp only
      rw [upd_ne _ _ _ hga, upd_ne _ _ _ hga, hin g (Or.inr ⟨hg, hgr⟩)]
      exact ⟨hg, rfl, rfl⟩

end

end Verif.Rmm
