import Verif.Xlat.Spec

/-
What acceptance of a memory map means, and the state of the tables after all
of its regions have been mapped.
-/
namespace Verif.Xlat

/-- The fields of a region are 64-bit values. -/
structure Word (r : Region) : Prop where
  pa : r.basePa < 2 ^ 64
  va : r.baseVa < 2 ^ 64
  size : r.size < 2 ^ 64

/-- A region relative to the start of its address space. -/
def shift (base : Nat) (r : Region) : Region := { r with baseVa := r.baseVa - base }

theorem wsub_one {a : Nat} (ha : a < 2 ^ 64) :
    (a = 0 ∧ wsub a 1 = 2 ^ 64 - 1) ∨ (0 < a ∧ wsub a 1 = a - 1) := by
  rcases Nat.eq_zero_or_pos a with h | h
  · refine Or.inl ⟨h, ?_⟩; subst h; decide
  · exact Or.inr ⟨h, wsub_eq ha h⟩

theorem wadd_cases {a b : Nat} (ha : a < 2 ^ 64) (hb : b < 2 ^ 64) :
    (a + b < 2 ^ 64 ∧ wadd a b = a + b) ∨ (2 ^ 64 ≤ a + b ∧ wadd a b = a + b - 2 ^ 64) := by
  unfold wadd
  by_cases h : a + b < 2 ^ 64
  · exact Or.inl ⟨h, Nat.mod_eq_of_lt h⟩
  · refine Or.inr ⟨by omega, ?_⟩
    rw [Nat.mod_eq_sub_mod (by omega), Nat.mod_eq_of_lt (by omega)]

theorem wadd_lt (a b : Nat) : wadd a b < 2 ^ 64 := Nat.mod_lt _ (by decide)

/-- What passing the checks says about one region. -/
structure Checked (c : Cpu) (vaSize : Nat) (r : Region) : Prop where
  va : r.baseVa % 4096 = 0
  size : r.size % 4096 = 0
  pos : 0 < r.size
  pa : r.basePa % 4096 = 0
  vaEnd : r.baseVa + r.size ≤ vaSize
  paEnd : r.basePa + r.size ≤ 2 ^ c.paWidth

theorem validateOne_ok {c : Cpu} {high : Bool} {base vaSize : Nat} {done : List Region}
    {m m' : Region} (hw : Word m) (hc : c.paWidth ≤ 52) (hva : vaSize % 4096 = 0)
    (hvs : vaSize ≤ 2 ^ 52) (hbase : high = false → base = 0)
    (h : validateOne c high base vaSize done m = .ok m') :
    m' = shift base m ∧ base ≤ m.baseVa ∧ Checked c vaSize m' ∧
      ∀ p, done.head? = some p → wsub (wadd p.baseVa p.size) 1 < m'.baseVa := by
  have h52 : 2 ^ c.paWidth ≤ 2 ^ 52 := Nat.pow_le_pow_right (by decide) hc
  have hpp : 0 < 2 ^ c.paWidth := Nat.pow_pos (by decide)
  unfold validateOne at h
  simp only at h
  by_cases c1 : (!high) = true ∧ (m.baseVa ≥ 2 ^ 52 ∨ wadd m.baseVa m.size ≥ 2 ^ 52)
  · rw [if_pos c1] at h; cases h
  rw [if_neg c1] at h
  by_cases c2 : high = true ∧ m.baseVa < base
  · rw [if_pos c2] at h; cases h
  rw [if_neg c2] at h
  have hle : base ≤ m.baseVa := by
    cases high
    · rw [hbase rfl]; exact Nat.zero_le _
    · by_contra hne; exact c2 ⟨rfl, by omega⟩
  have hbva : (if high = true then wsub m.baseVa base else m.baseVa) = m.baseVa - base := by
    cases high
    · rw [hbase rfl]; rfl
    · exact wsub_eq hw.va hle
  rw [hbva] at h
  by_cases c3 : m.basePa % 4096 ≠ 0 ∨ (m.baseVa - base) % 4096 ≠ 0 ∨ m.size % 4096 ≠ 0
  · rw [if_pos c3] at h; cases h
  rw [if_neg c3] at h
  by_cases c4 : m.gran ≠ bsz 3 ∧ m.gran ≠ bsz 2 ∧ m.gran ≠ bsz 1 ∧ m.gran ≠ bsz 0
  · rw [if_pos c4] at h; cases h
  rw [if_neg c4] at h
  by_cases c5 : m.basePa > wsub (wadd m.basePa m.size) 1 ∨ m.baseVa - base >
      (if high = true then wadd (m.baseVa - base) m.size else wsub (wadd m.baseVa m.size) 1)
  · rw [if_pos c5] at h; cases h
  rw [if_neg c5] at h
  by_cases c6 : (if high = true then wadd (m.baseVa - base) m.size
      else wsub (wadd m.baseVa m.size) 1) > vaSize
  · rw [if_pos c6] at h; cases h
  rw [if_neg c6] at h
  by_cases c7 : wsub (wadd m.basePa m.size) 1 > maxPa c
  · rw [if_pos c7] at h; cases h
  rw [if_neg c7] at h
  have hchk : Checked c vaSize (shift base m) := by
    have e1 := wadd_cases hw.pa hw.size
    have e2 := wsub_one (wadd_lt m.basePa m.size)
    unfold maxPa at c7
    have hwv := hw.va
    have hws := hw.size
    refine ⟨?_, ?_, ?_, ?_, ?_, ?_⟩
    · show (m.baseVa - base) % 4096 = 0
      omega
    · show m.size % 4096 = 0
      omega
    · show 0 < m.size
      by_contra hz
      have hz' : m.size = 0 := by omega
      rw [hz'] at e1 e2 c5 c7
      omega
    · show m.basePa % 4096 = 0
      omega
    · show m.baseVa - base + m.size ≤ vaSize
      cases high
      · have hb0 := hbase rfl
        simp only [Bool.false_eq_true, if_false] at c5 c6
        have e3 := wadd_cases hw.va hw.size
        have e4 := wsub_one (wadd_lt m.baseVa m.size)
        omega
      · simp only [if_true] at c5 c6
        have e3 := wadd_cases (show m.baseVa - base < 2 ^ 64 by omega) hw.size
        omega
    · show m.basePa + m.size ≤ 2 ^ c.paWidth
      omega
  cases done with
  | nil =>
    simp only at h
    obtain rfl := Except.ok.inj h
    exact ⟨rfl, hle, hchk, fun p hp => by cases hp⟩
  | cons p rest =>
    simp only at h
    by_cases c8 : m.baseVa - base < p.baseVa
    · rw [if_pos c8] at h; cases h
    rw [if_neg c8] at h
    by_cases c9 : m.baseVa - base ≤ wsub (wadd p.baseVa p.size) 1
    · rw [if_pos c9] at h; cases h
    rw [if_neg c9] at h
    have key : m' = shift base m := by
      by_cases c10 : mtType m.attr = MT_TRANSIENT
      · rw [if_pos c10] at h; exact (Except.ok.inj h).symm
      · rw [if_neg c10] at h
        by_cases c11 : (p :: rest).any (paClash m.basePa (wsub (wadd m.basePa m.size) 1)) = true
        · rw [if_pos c11] at h; cases h
        · rw [if_neg c11] at h; exact (Except.ok.inj h).symm
    subst key
    refine ⟨rfl, hle, hchk, fun q hq => ?_⟩
    obtain rfl : p = q := by simpa using hq
    show wsub (wadd p.baseVa p.size) 1 < m.baseVa - base
    omega

/-- `a` ends before `b` starts. -/
def Before (a b : Region) : Prop := a.baseVa + a.size ≤ b.baseVa

theorem validateLoop_ok {c : Cpu} {high : Bool} {base vaSize : Nat} (hc : c.paWidth ≤ 52)
    (hva : vaSize % 4096 = 0) (hvs : vaSize ≤ 2 ^ 52) (hbase : high = false → base = 0) :
    ∀ todo done out, (∀ m, m ∈ todo → Word m) →
      (∀ m, m ∈ done → Checked c vaSize m) → done.Pairwise (fun a b => Before b a) →
      validateLoop c high base vaSize done todo = .ok out →
      out = done.reverse ++ todo.map (shift base) ∧ (∀ m, m ∈ todo → base ≤ m.baseVa) ∧
        (∀ m, m ∈ out → Checked c vaSize m) ∧ out.Pairwise Before := by
  intro todo
  induction todo with
  | nil =>
    intro done out _ hd hp h
    obtain rfl := Except.ok.inj h
    refine ⟨by simp, ?_, ?_, List.pairwise_reverse.mpr hp⟩
    · intro m hm; simp at hm
    · intro m hm; exact hd m (by simpa using hm)
  | cons m rest ih =>
    intro done out hw hd hp h
    unfold validateLoop at h
    cases hv : validateOne c high base vaSize done m with
    | error e => rw [hv] at h; cases h
    | ok m' =>
      rw [hv, except_bind_ok] at h
      obtain ⟨e1, e2, e3, e4⟩ := validateOne_ok (hw m (by simp)) hc hva hvs hbase hv
      have hd' : ∀ x, x ∈ m' :: done → Checked c vaSize x := by
        intro x hx
        rcases List.mem_cons.mp hx with rfl | hx
        · exact e3
        · exact hd x hx
      have hp' : (m' :: done).Pairwise (fun a b => Before b a) := by
        refine List.pairwise_cons.mpr ⟨?_, hp⟩
        intro x hx
        cases done with
        | nil => cases hx
        | cons p tl =>
          have hq := e4 p rfl
          have hpc := hd p (by simp)
          have hpp := hpc.pos
          have hpe := hpc.vaEnd
          rw [wadd_eq (by omega), wsub_eq (by omega) (by omega)] at hq
          rcases List.mem_cons.mp hx with rfl | hx
          · show x.baseVa + x.size ≤ m'.baseVa
            omega
          · have : Before x p := (List.pairwise_cons.mp hp).1 x hx
            unfold Before at this ⊢
            omega
      obtain ⟨f1, f2, f3, f4⟩ := ih (m' :: done) out (fun x hx => hw x (by simp [hx])) hd' hp' h
      refine ⟨?_, ?_, f3, f4⟩
      · rw [f1, e1]; simp
      · intro x hx
        rcases List.mem_cons.mp hx with rfl | hx
        · exact e2
        · exact f2 x hx

/-- What an accepted memory map looks like. -/
theorem cfgInit_ok {c : Cpu} {high : Bool} {mms out : List Region} {vaSize : Nat}
    (hc : c.paWidth ≤ 52) (hw : ∀ m, m ∈ mms → Word m)
    (h : cfgInit c high mms vaSize = .ok out) :
    out = mms.map (shift (ctxBaseVa high vaSize)) ∧
      (∀ m, m ∈ mms → ctxBaseVa high vaSize ≤ m.baseVa) ∧
      (∀ m, m ∈ out → Checked c vaSize m) ∧ out.Pairwise Before ∧
      vaSize % 4096 = 0 ∧ vaSize ≤ (if c.lpa2 then 2 ^ 52 else 2 ^ 48) ∧ 2 ^ 16 ≤ vaSize := by
  unfold cfgInit at h
  by_cases c1 : vaSize % 4096 ≠ 0
  · rw [if_pos c1] at h; cases h
  rw [if_neg c1] at h
  by_cases c2 : vaSize > (if c.lpa2 then 2 ^ 52 else 2 ^ 48) ∨ vaSize < 2 ^ 16
  · rw [if_pos c2] at h; cases h
  rw [if_neg c2] at h
  have hlim : vaSize ≤ (if c.lpa2 then 2 ^ 52 else 2 ^ 48) ∧ 2 ^ 16 ≤ vaSize := by
    constructor
    · by_contra hne; exact c2 (Or.inl (by omega))
    · by_contra hne; exact c2 (Or.inr (by omega))
  have hvs : vaSize ≤ 2 ^ 52 := by
    refine Nat.le_trans hlim.1 ?_
    split <;> decide
  unfold validate at h
  by_cases c3 : mms = []
  · rw [if_pos c3] at h; cases h
  rw [if_neg c3] at h
  obtain ⟨e1, e2, e3, e4⟩ := validateLoop_ok hc (by omega) hvs
    (by intro hh; unfold ctxBaseVa; rw [hh]; rfl) mms [] out hw (by simp) (by simp) h
  exact ⟨by simpa using e1, e2, e3, e4, by omega, hlim⟩

/-! ### All regions -/

theorem xlatDesc_ne_zero {c : Cpu} {attr : BitVec 64} {pa d : Nat} {v : BitVec 64}
    (h : xlatDesc c attr pa d = .ok v) : v ≠ 0#64 := by
  unfold xlatDesc at h
  by_cases h1 : mtType attr = MT_TRANSIENT
  · rw [if_pos h1] at h
    obtain rfl := Except.ok.inj h
    decide
  rw [if_neg h1] at h
  by_cases h2 : pa % bsz d ≠ 0
  · rw [if_pos h2] at h; cases h
  rw [if_neg h2] at h
  by_cases h3 : mtType attr ≠ MT_DEVICE ∧ mtType attr ≠ MT_MEMORY
  · rw [if_pos h3] at h; cases h
  rw [if_neg h3] at h
  obtain rfl := Except.ok.inj h
  intro hz
  have := congrArg (fun x => BitVec.getLsbD x 10) hz
  simp only [BitVec.getLsbD_or] at this
  simp at this

/-- The state of the tables once the regions `done` have been mapped. -/
def Built (c : Cpu) (D : Nat) (done : List Region) (s : Tabs) : Prop :=
  ∃ loc, WF c s loc ∧ 0 < s.next ∧ loc 0 = (D, 0) ∧
    ∀ va, va < bsz (D + 1) →
      (∀ m, m ∈ done → InR m va → Mapped c m va (look c s D 0 va)) ∧
      ((∀ m, m ∈ done → ¬ InR m va) → (look c s D 0 va).1 = 0#64)

theorem mapAll_ok {c : Cpu} {D : Nat} (hD : D ≤ 4) :
    ∀ todo done s, Place c s → Built c D done s →
      (∀ m, m ∈ todo → RegOk c m ∧ m.baseVa + m.size ≤ tableEntries D * bsz D) →
      todo.Pairwise Before → (∀ a, a ∈ done → ∀ b, b ∈ todo → Before a b) →
      mapAll c D todo s = .error .noTable ∨
      ∃ s', mapAll c D todo s = .ok s' ∧ Built c D (done ++ todo) s' ∧
        s'.addr = s.addr ∧ s'.num = s.num := by
  intro todo
  induction todo with
  | nil =>
    intro done s _ hB _ _ _
    exact Or.inr ⟨s, rfl, by simpa using hB, rfl, rfl⟩
  | cons m rest ih =>
    intro done s hp hB hm hord hbef
    obtain ⟨loc, wf, h0, hl0, hlook⟩ := hB
    obtain ⟨hr, hfit⟩ := hm m (by simp)
    have hte : tableEntries D ≤ 512 := by unfold tableEntries TABLE_ENTRIES; split <;> decide
    have hspan : tableEntries D * bsz D ≤ bsz (D + 1) := by
      rw [bsz_succ]; exact Nat.mul_le_mul_right _ hte
    have hpos := hr.pos
    have hfree : Free c m s D 0 0 (0 + bsz (D + 1)) := by
      intro va _ h2 h3
      refine (hlook va (by omega)).2 ?_
      intro a ha hin
      have := hbef a ha m (by simp)
      unfold Before at this
      have := hin.2; have := h3.1
      omega
    unfold mapAll
    rcases mapRegion_ok hr D hD (tableEntries D) s loc 0 0 wf hp h0 hl0 hte (by omega) (by omega)
        (by omega) hfree with hR | ⟨s1, hR, hG⟩
    · rw [hR]; exact Or.inl rfl
    · rw [hR, except_bind_ok]
      have hmin : min (m.baseVa + m.size) (0 + bsz (D + 1)) - 1 =
          wsub (wadd m.baseVa m.size) 1 := by
        rw [end_va hr]; omega
      simp only [hmin, ne_eq, not_true_eq_false, if_false]
      obtain ⟨loc1, wf1, E1, P1⟩ := hG
      have hp1 : Place c s1 :=
        ⟨by rw [E1.addr]; exact hp.align, by rw [E1.addr, E1.num]; exact hp.fits⟩
      have hB1 : Built c D (done ++ [m]) s1 := by
        refine ⟨loc1, wf1, Nat.lt_of_lt_of_le h0 E1.next, (E1.locs 0 h0).trans hl0, ?_⟩
        intro va hva
        have hP := P1 va (Nat.zero_le _) (by omega)
        constructor
        · intro a ha hin
          rcases List.mem_append.mp ha with ha | ha
          · have hnot : ¬ InR m va := by
              intro h3
              have := hbef a ha m (by simp)
              unfold Before at this
              have := hin.2; have := h3.1
              omega
            have hM := (hlook va hva).1 a ha hin
            rcases hP.2 hnot with hS | hS
            · rw [hS]; exact hM
            · exact absurd hS.1 (xlatDesc_ne_zero hM.2.2.2)
          · obtain rfl : a = m := by simpa using ha
            exact hP.1 hin
        · intro hno
          have hz := (hlook va hva).2 (fun a ha => hno a (by simp [ha]))
          rcases hP.2 (hno m (by simp)) with hS | hS
          · rw [hS]; exact hz
          · exact hS.2
      have hord' := List.pairwise_cons.mp hord
      rcases ih (done ++ [m]) s1 hp1 hB1 (fun x hx => hm x (by simp [hx])) hord'.2 (by
          intro a ha b hb
          rcases List.mem_append.mp ha with ha | ha
          · exact hbef a ha b (by simp [hb])
          · obtain rfl : a = m := by simpa using ha
            exact hord'.1 b hb) with hA | ⟨s', hA, hB', ea, en⟩
      · exact Or.inl hA
      · refine Or.inr ⟨s', hA, ?_, ea.trans E1.addr, en.trans E1.num⟩
        rw [List.append_assoc] at hB'
        exact hB'

/-- The root table on its own. -/
theorem built_nil {c : Cpu} {D addr num : Nat} (hnum : 0 < num) (old : Nat → Nat → BitVec 64) :
    Built c D []
      { addr := addr, num := num, next := 1
        mem := fun t i => if t < num ∧ i < TABLE_ENTRIES then INVALID_DESC else old t i } := by
  have hz : ∀ t i, t < num → i < 512 →
      (if t < num ∧ i < TABLE_ENTRIES then INVALID_DESC else old t i) = 0#64 := by
    intro t i h1 h2
    rw [if_pos ⟨h1, h2⟩]; rfl
  refine ⟨fun _ => (D, 0), ?_, Nat.one_pos, rfl, ?_⟩
  · refine ⟨hnum, fun _ _ => Nat.dvd_zero _, ?_, ?_, ?_, ?_, ?_⟩
    · intro t i d h1 h2 h3 h4
      have h1' : t < 1 := h1
      have : IsTable (0#64) := by
        have := hz t i (by omega) h2
        rw [← this]; exact h4
      exact absurd this not_isTable_zero
    · intro t' h1 h2
      have h2' : t' < 1 := h2
      omega
    · intro t t' h1 h2 _
      have h1' : t < 1 := h1
      have h2' : t' < 1 := h2
      omega
    · intro t h1
      have h1' : t < 1 := h1
      exact ⟨Nat.le_refl _, fun h => by omega⟩
    · intro t i _ h2 h3
      exact hz t i h2 h3
  · intro va hva
    refine ⟨fun m hm => by simp at hm, fun _ => ?_⟩
    rw [look_zero]
    intro i hi
    exact hz 0 i hnum hi

end Verif.Xlat
