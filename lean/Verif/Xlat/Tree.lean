import Verif.Xlat.Model
import Mathlib.Tactic.Linarith
import Mathlib.Tactic.Ring

/-
The shape of the table array while regions are being mapped, and the fact that
mapping one region changes what is looked up for the addresses of that region
and for no others.
-/
namespace Verif.Xlat

/-! ### Arithmetic of table positions -/

theorem bsz_succ (d : Nat) : bsz (d + 1) = 512 * bsz d := by
  unfold bsz; rw [Nat.pow_succ]; ring

theorem bsz_pos (d : Nat) : 0 < bsz d := by
  unfold bsz; exact Nat.mul_pos (by decide) (Nat.pow_pos (by decide))

theorem page_dvd_bsz (d : Nat) : 4096 ∣ bsz d := ⟨512 ^ d, rfl⟩

theorem bsz_dvd {d e : Nat} (h : d ≤ e) : bsz d ∣ bsz e := by
  unfold bsz
  exact Nat.mul_dvd_mul_left _ (Nat.pow_dvd_pow _ h)

theorem bsz_le {d e : Nat} (h : d ≤ e) : bsz d ≤ bsz e :=
  Nat.le_of_dvd (bsz_pos e) (bsz_dvd h)

theorem dvd_step {b x y : Nat} (hx : b ∣ x) (hy : b ∣ y) (h : x < y) : x + b ≤ y := by
  obtain ⟨k, rfl⟩ := hx
  obtain ⟨m, rfl⟩ := hy
  have : k < m := Nat.lt_of_mul_lt_mul_left h
  calc b * k + b = b * (k + 1) := by ring
    _ ≤ b * m := Nat.mul_le_mul_left _ this

/-- The index of an address in the table that covers it. -/
theorem index_of {b B i va : Nat} (hB : 512 * b ∣ B) (hi : i < 512)
    (h1 : B + i * b ≤ va) (h2 : va < B + i * b + b) : va / b % 512 = i := by
  obtain ⟨k, rfl⟩ := hB
  have hb : 0 < b := by omega
  have : va / b = 512 * k + i := by
    apply Nat.div_eq_of_lt_le
    · calc (512 * k + i) * b = 512 * b * k + i * b := by ring
        _ ≤ va := h1
    · calc va < 512 * b * k + i * b + b := h2
        _ = (512 * k + i + 1) * b := by ring
  rw [this]; omega

theorem index_range {b B va : Nat} (hb : 0 < b) (hB : 512 * b ∣ B) (h1 : B ≤ va)
    (h2 : va < B + 512 * b) :
    B + va / b % 512 * b ≤ va ∧ va < B + va / b % 512 * b + b := by
  obtain ⟨k, rfl⟩ := hB
  obtain ⟨r, rfl⟩ := Nat.exists_eq_add_of_le h1
  have hr : r < 512 * b := by omega
  have hq : (512 * b * k + r) / b = 512 * k + r / b := by
    rw [show 512 * b * k = b * (512 * k) by ring, Nat.mul_add_div hb]
  have hlt : r / b < 512 := (Nat.div_lt_iff_lt_mul hb).mpr hr
  have : (512 * k + r / b) % 512 = r / b := by
    rw [Nat.mul_add_mod, Nat.mod_eq_of_lt hlt]
  rw [hq, this]
  have := Nat.div_add_mod r b
  have hm := Nat.mod_lt r hb
  have hc : r / b * b = b * (r / b) := Nat.mul_comm _ _
  omega

/-- Two entries at the same depth that start at the same address are the same
entry of tables at the same position. -/
theorem entry_unique {b B B' i i' : Nat} (hb : 0 < b) (hB : 512 * b ∣ B) (hB' : 512 * b ∣ B')
    (hi : i < 512) (hi' : i' < 512) (h : B + i * b = B' + i' * b) : B = B' ∧ i = i' := by
  have e1 := index_of (va := B + i * b) hB hi (Nat.le_refl _) (by omega)
  have e2 := index_of (va := B + i * b) hB' hi' (by omega) (by omega)
  have : i = i' := e1.symm.trans e2
  subst this
  exact ⟨by omega, rfl⟩

/-! ### Looking up an address -/

/-- A descriptor that leads to another table (above level 3). -/
def IsTable (e : BitVec 64) : Prop := e &&& 3#64 = 3#64

instance (e : BitVec 64) : Decidable (IsTable e) := by unfold IsTable; infer_instance

/-- The last descriptor met when an address is looked up, and its depth. -/
def look (c : Cpu) (s : Tabs) : Nat → Nat → Nat → BitVec 64 × Nat
  | 0, t, va => (s.mem t (va / bsz 0 % 512), 0)
  | d + 1, t, va =>
    if IsTable (s.mem t (va / bsz (d + 1) % 512)) then
      match s.sub c (s.mem t (va / bsz (d + 1) % 512)) with
      | some t' => look c s d t' va
      | none => (s.mem t (va / bsz (d + 1) % 512), d + 1)
    else (s.mem t (va / bsz (d + 1) % 512), d + 1)

/-- The tables in use form a tree: `loc t` is the depth of table `t` and the
address its first entry stands for. -/
structure WF (c : Cpu) (s : Tabs) (loc : Nat → Nat × Nat) : Prop where
  room : s.next ≤ s.num
  align : ∀ t, t < s.next → bsz ((loc t).1 + 1) ∣ (loc t).2
  child : ∀ t i d, t < s.next → i < 512 → (loc t).1 = d + 1 → IsTable (s.mem t i) →
    ∃ t', s.sub c (s.mem t i) = some t' ∧ t' < s.next ∧
      loc t' = (d, (loc t).2 + i * bsz (d + 1))
  parent : ∀ t', 0 < t' → t' < s.next → ∃ t i, t < s.next ∧ i < 512 ∧
    (loc t).1 = (loc t').1 + 1 ∧ (loc t').2 = (loc t).2 + i * bsz (loc t).1 ∧
    IsTable (s.mem t i)
  inj : ∀ t t', t < s.next → t' < s.next → loc t = loc t' → t = t'
  top : ∀ t, t < s.next → (loc t).1 ≤ (loc 0).1 ∧ (0 < t → (loc t).1 < (loc 0).1)
  fresh : ∀ t i, s.next ≤ t → t < s.num → i < 512 → s.mem t i = 0#64

/-- The table array lies where table descriptors can reach it. -/
structure Place (c : Cpu) (s : Tabs) : Prop where
  align : s.addr % 4096 = 0
  fits : s.addr + 4096 * s.num ≤ 2 ^ 48

/-- What a piece of mapping work may change: entries of table `t` (depth `d`)
that stand for addresses from `lo` up to `hi`, and tables below those. -/
structure Ext (s : Tabs) (loc : Nat → Nat × Nat) (s' : Tabs) (loc' : Nat → Nat × Nat)
    (lo hi d t : Nat) : Prop where
  addr : s'.addr = s.addr
  num : s'.num = s.num
  next : s.next ≤ s'.next
  locs : ∀ t', t' < s.next → loc' t' = loc t'
  mem : ∀ t' i, t' < s.next → i < 512 → s'.mem t' i = s.mem t' i ∨
    (t' = t ∧ lo ≤ (loc t).2 + i * bsz d ∧ (loc t).2 + i * bsz d < hi) ∨
    ((loc t').1 < d ∧ lo ≤ (loc t').2 ∧ (loc t').2 < hi)
  new : ∀ t', s.next ≤ t' → t' < s'.next →
    (loc' t').1 < d ∧ lo ≤ (loc' t').2 ∧ (loc' t').2 < hi

theorem Ext.refl (s : Tabs) (loc : Nat → Nat × Nat) (lo hi d t : Nat) :
    Ext s loc s loc lo hi d t :=
  ⟨rfl, rfl, Nat.le_refl _, fun _ _ => rfl, fun _ _ _ _ => Or.inl rfl,
    fun _ h1 h2 => absurd h2 (by omega)⟩

theorem Ext.trans {s s1 s2 : Tabs} {loc loc1 loc2 : Nat → Nat × Nat} {lo lo1 hi hi1 hi' d t : Nat}
    (ht : t < s.next) (A : Ext s loc s1 loc1 lo hi d t) (B : Ext s1 loc1 s2 loc2 lo1 hi1 d t)
    (h1 : lo ≤ lo1) (h2 : hi ≤ hi') (h3 : hi1 ≤ hi') : Ext s loc s2 loc2 lo hi' d t where
  addr := B.addr.trans A.addr
  num := B.num.trans A.num
  next := Nat.le_trans A.next B.next
  locs t' h := (B.locs t' (Nat.lt_of_lt_of_le h A.next)).trans (A.locs t' h)
  mem t' i ht' hi' := by
    have hb := B.mem t' i (Nat.lt_of_lt_of_le ht' A.next) hi'
    have ha := A.mem t' i ht' hi'
    rw [A.locs t ht, A.locs t' ht'] at hb
    rcases hb with hb | hb | hb
    · rw [hb]
      rcases ha with ha | ha | ha
      · exact Or.inl ha
      · exact Or.inr (Or.inl ⟨ha.1, ha.2.1, by omega⟩)
      · exact Or.inr (Or.inr ⟨ha.1, ha.2.1, by omega⟩)
    · exact Or.inr (Or.inl ⟨hb.1, by omega, by omega⟩)
    · exact Or.inr (Or.inr ⟨hb.1, by omega, by omega⟩)
  new t' h1' h2' := by
    by_cases h : t' < s1.next
    · rw [B.locs t' h]
      have := A.new t' h1' h
      exact ⟨this.1, this.2.1, by omega⟩
    · have := B.new t' (by omega) h2'
      exact ⟨this.1, by omega, by omega⟩

/-- Work below an entry is work on that entry. -/
theorem Ext.lift {s s' : Tabs} {loc loc' : Nat → Nat × Nat} {V hi d t ct : Nat}
    (hct : loc ct = (d, V)) (hV : V < hi) (E : Ext s loc s' loc' V hi d ct) :
    Ext s loc s' loc' V hi (d + 1) t where
  addr := E.addr
  num := E.num
  next := E.next
  locs := E.locs
  mem t' i h1 h2 := by
    rcases E.mem t' i h1 h2 with h | h | h
    · exact Or.inl h
    · refine Or.inr (Or.inr ?_)
      rw [h.1, hct]
      exact ⟨Nat.lt_succ_self _, Nat.le_refl _, hV⟩
    · exact Or.inr (Or.inr ⟨by omega, h.2⟩)
  new t' h1 h2 := by
    have := E.new t' h1 h2
    exact ⟨by omega, this.2⟩

theorem sub_congr {c : Cpu} {s s' : Tabs} (h1 : s'.addr = s.addr) (h2 : s'.num = s.num)
    (e : BitVec 64) : s'.sub c e = s.sub c e := by
  unfold Tabs.sub; rw [h1, h2]

/-- Addresses outside the window are looked up as before. -/
theorem look_frame {c : Cpu} {s s' : Tabs} {loc loc' : Nat → Nat × Nat} {lo hi D T : Nat}
    (wf : WF c s loc) (E : Ext s loc s' loc' lo hi D T)
    (hT : T < s.next) (hD : (loc T).1 = D) (hlo : bsz D ∣ lo) (hhi : bsz D ∣ hi) :
    ∀ d t va, t < s.next → (loc t).1 = d → (loc t).2 ≤ va → va < (loc t).2 + bsz (d + 1) →
      ¬(lo ≤ va ∧ va < hi) → look c s' d t va = look c s d t va := by
  intro d
  induction d with
  | zero =>
    intro t va ht hd h1 h2 hout
    have hal := wf.align t ht
    rw [hd, bsz_succ] at hal
    rw [bsz_succ] at h2
    have hr := index_range (bsz_pos 0) hal h1 h2
    have hi512 : va / bsz 0 % 512 < 512 := Nat.mod_lt _ (by decide)
    have key : s'.mem t (va / bsz 0 % 512) = s.mem t (va / bsz 0 % 512) := by
      rcases E.mem t _ ht hi512 with h | h | h
      · exact h
      · exfalso
        obtain ⟨rfl, h3, h4⟩ := h
        have hD0 : D = 0 := by omega
        subst hD0
        have hdv : bsz 0 ∣ (loc t).2 + va / bsz 0 % 512 * bsz 0 :=
          Nat.dvd_add (Nat.dvd_trans ⟨512, Nat.mul_comm _ _⟩ hal) ⟨_, Nat.mul_comm _ _⟩
        have := dvd_step hdv hhi h4
        exact hout ⟨by omega, by omega⟩
      · exfalso
        obtain ⟨h3, h4, h5⟩ := h
        rw [hd] at h3
        have hdv : bsz 1 ∣ hi := Nat.dvd_trans (bsz_dvd (by omega)) hhi
        rw [bsz_succ] at hdv
        have := dvd_step hal hdv h5
        exact hout ⟨by omega, by omega⟩
    simp only [look, key]
  | succ d ih =>
    intro t va ht hd h1 h2 hout
    have hal := wf.align t ht
    rw [hd, bsz_succ] at hal
    rw [bsz_succ] at h2
    have hr := index_range (bsz_pos (d + 1)) hal h1 h2
    have hi512 : va / bsz (d + 1) % 512 < 512 := Nat.mod_lt _ (by decide)
    have key : s'.mem t (va / bsz (d + 1) % 512) = s.mem t (va / bsz (d + 1) % 512) := by
      rcases E.mem t _ ht hi512 with h | h | h
      · exact h
      · exfalso
        obtain ⟨rfl, h3, h4⟩ := h
        have hD0 : D = d + 1 := by omega
        subst hD0
        have hdv : bsz (d + 1) ∣ (loc t).2 + va / bsz (d + 1) % 512 * bsz (d + 1) :=
          Nat.dvd_add (Nat.dvd_trans ⟨512, Nat.mul_comm _ _⟩ hal) ⟨_, Nat.mul_comm _ _⟩
        have := dvd_step hdv hhi h4
        exact hout ⟨by omega, by omega⟩
      · exfalso
        obtain ⟨h3, h4, h5⟩ := h
        rw [hd] at h3
        have hdv : bsz (d + 1 + 1) ∣ hi := Nat.dvd_trans (bsz_dvd (by omega)) hhi
        rw [bsz_succ] at hdv
        have := dvd_step hal hdv h5
        exact hout ⟨by omega, by omega⟩
    simp only [look, key]
    by_cases htab : IsTable (s.mem t (va / bsz (d + 1) % 512))
    · obtain ⟨t', h3, h4, h5⟩ := wf.child t _ d ht hi512 hd htab
      rw [if_pos htab, if_pos htab, sub_congr E.addr E.num, h3]
      exact ih t' va h4 (by rw [h5]) (by rw [h5]; exact hr.1) (by rw [h5]; exact hr.2) hout
    · rw [if_neg htab, if_neg htab]

end Verif.Xlat
