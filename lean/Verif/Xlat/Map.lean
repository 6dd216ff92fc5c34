import Verif.Xlat.Desc

/-
Mapping one region, entry by entry and table by table.
-/
namespace Verif.Xlat

/-- What the checks of the memory map guarantee about each region. -/
structure RegOk (c : Cpu) (mm : Region) : Prop where
  va : mm.baseVa % 4096 = 0
  size : mm.size % 4096 = 0
  pos : 0 < mm.size
  pa : mm.basePa % 4096 = 0
  vaEnd : mm.baseVa + mm.size ≤ 2 ^ 52
  paEnd : mm.basePa + mm.size ≤ 2 ^ 52
  type : mtType mm.attr = MT_TRANSIENT ∨ mtType mm.attr = MT_DEVICE ∨ mtType mm.attr = MT_MEMORY

/-- The address belongs to the region. -/
def InR (mm : Region) (va : Nat) : Prop := mm.baseVa ≤ va ∧ va < mm.baseVa + mm.size

instance (mm : Region) (va : Nat) : Decidable (InR mm va) := by unfold InR; infer_instance

/-- The descriptor found maps the block of the address as the region says. -/
def Mapped (c : Cpu) (mm : Region) (va : Nat) (r : BitVec 64 × Nat) : Prop :=
  mm.baseVa ≤ va / bsz r.2 * bsz r.2 ∧
  va / bsz r.2 * bsz r.2 + bsz r.2 ≤ mm.baseVa + mm.size ∧
  r.2 ≤ maxBlockDepth c ∧
  xlatDesc c mm.attr (mm.basePa + (va / bsz r.2 * bsz r.2 - mm.baseVa)) r.2 = .ok r.1

/-- The same mapping, or still none. -/
def Same (r r' : BitVec 64 × Nat) : Prop := r' = r ∨ (r.1 = 0#64 ∧ r'.1 = 0#64)

theorem Same.trans {a b c : BitVec 64 × Nat} (h1 : Same a b) (h2 : Same b c) : Same a c := by
  rcases h1 with rfl | h1
  · exact h2
  · rcases h2 with rfl | h2
    · exact Or.inr h1
    · exact Or.inr ⟨h1.1, h2.2⟩

/-- The window from `lo` to `hi` of table `t` has been mapped. -/
def Good (c : Cpu) (mm : Region) (s : Tabs) (loc : Nat → Nat × Nat) (d t lo hi : Nat)
    (s' : Tabs) : Prop :=
  ∃ loc', WF c s' loc' ∧ Ext s loc s' loc' lo hi d t ∧
    ∀ va, lo ≤ va → va < hi →
      (InR mm va → Mapped c mm va (look c s' d t va)) ∧
      (¬ InR mm va → Same (look c s d t va) (look c s' d t va))

/-- Nothing is mapped yet where the region goes. -/
def Free (c : Cpu) (mm : Region) (s : Tabs) (d t lo hi : Nat) : Prop :=
  ∀ va, lo ≤ va → va < hi → InR mm va → (look c s d t va).1 = 0#64

/-- The contract of mapping a region into one whole table. -/
def SubOk (c : Cpu) (mm : Region) (d : Nat)
    (into : Nat → Nat → Tabs → Except Err (Tabs × Nat)) : Prop :=
  ∀ s loc t B, WF c s loc → Place c s → t < s.next → loc t = (d, B) →
    mm.baseVa < B + bsz (d + 1) → B < mm.baseVa + mm.size →
    Free c mm s d t B (B + bsz (d + 1)) →
    into B t s = .error .noTable ∨
    ∃ s', into B t s = .ok (s', min (mm.baseVa + mm.size) (B + bsz (d + 1)) - 1) ∧
      Good c mm s loc d t B (B + bsz (d + 1)) s'

theorem wadd_eq {a b : Nat} (h : a + b < 2 ^ 64) : wadd a b = a + b := Nat.mod_eq_of_lt h

theorem wsub_eq {a b : Nat} (ha : a < 2 ^ 64) (h : b ≤ a) : wsub a b = a - b := by
  unfold wsub
  rw [Nat.mod_eq_of_lt (show b < 2 ^ 64 by omega)]
  rw [show a + (2 ^ 64 - b) = (a - b) + 2 ^ 64 by omega, Nat.add_mod_right]
  exact Nat.mod_eq_of_lt (by omega)

theorem bsz_bound {d : Nat} (h : d ≤ 4) : bsz d ≤ 2 ^ 48 := by
  have := bsz_le h
  have e : bsz 4 = 2 ^ 48 := by decide
  omega

/-- Where an entry leads when it is not a table. -/
theorem look_leaf {c : Cpu} {s : Tabs} {d t va i : Nat} (hi : va / bsz d % 512 = i)
    (h : d ≠ 0 → ¬ IsTable (s.mem t i)) : look c s d t va = (s.mem t i, d) := by
  cases d with
  | zero => simp only [look, hi]
  | succ d => simp only [look, hi, if_neg (h (Nat.succ_ne_zero _))]

theorem look_table {c : Cpu} {s : Tabs} {d t va i t' : Nat} (hi : va / bsz (d + 1) % 512 = i)
    (h : IsTable (s.mem t i)) (hs : s.sub c (s.mem t i) = some t') :
    look c s (d + 1) t va = look c s d t' va := by
  simp only [look, hi, if_pos h, hs]

/-- An all-zero table maps nothing. -/
theorem look_zero {c : Cpu} {s : Tabs} {d t va : Nat} (h : ∀ i, i < 512 → s.mem t i = 0#64) :
    look c s d t va = (0#64, d) := by
  have hi : va / bsz d % 512 < 512 := Nat.mod_lt _ (by decide)
  rw [look_leaf rfl, h _ hi]
  intro _
  rw [h _ hi]
  exact not_isTable_zero

theorem write_mem (s : Tabs) (t i : Nat) (v : BitVec 64) (t' i' : Nat) :
    (s.write t i v).mem t' i' = if t' = t ∧ i' = i then v else s.mem t' i' := rfl

/-- Filling an empty entry with something that is not a table keeps the
shape. -/
theorem WF.write_leaf {c : Cpu} {s : Tabs} {loc : Nat → Nat × Nat} (wf : WF c s loc)
    {t i : Nat} {v : BitVec 64} (ht : t < s.next) (h0 : s.mem t i = 0#64)
    (hv : (loc t).1 ≠ 0 → ¬ IsTable v) : WF c (s.write t i v) loc where
  room := wf.room
  align := wf.align
  child t1 i1 d1 h1 h2 h3 h4 := by
    rw [write_mem] at h4 ⊢
    by_cases he : t1 = t ∧ i1 = i
    · rw [if_pos he] at h4
      obtain ⟨rfl, rfl⟩ := he
      exact absurd h4 (hv (by omega))
    · rw [if_neg he] at h4 ⊢
      exact wf.child t1 i1 d1 h1 h2 h3 h4
  parent t1 h1 h2 := by
    obtain ⟨p, j, h3, h4, h5, h6, h7⟩ := wf.parent t1 h1 h2
    refine ⟨p, j, h3, h4, h5, h6, ?_⟩
    rw [write_mem, if_neg]
    · exact h7
    · rintro ⟨rfl, rfl⟩
      rw [h0] at h7
      exact not_isTable_zero h7
  inj := wf.inj
  top := wf.top
  fresh t1 i1 h1 h2 h3 := by
    rw [write_mem, if_neg]
    · exact wf.fresh t1 i1 h1 h2 h3
    · have : s.next ≤ t1 := h1
      rintro ⟨rfl, _⟩
      omega

/-- Hooking a fresh table under an empty entry keeps the shape. -/
theorem WF.write_table {c : Cpu} {s : Tabs} {loc : Nat → Nat × Nat} (wf : WF c s loc)
    (hp : Place c s) {t i d B : Nat} (ht : t < s.next) (hloc : loc t = (d + 1, B)) (hi : i < 512)
    (h0 : s.mem t i = 0#64) (hn : s.next < s.num) :
    WF c (({ s with next := s.next + 1 } : Tabs).write t i
        (TABLE_DESC ||| BitVec.ofNat 64 (s.addrOf s.next)))
      (fun k => if k = s.next then (d, B + i * bsz (d + 1)) else loc k) := by
  have hal := wf.align t ht
  rw [hloc] at hal
  have hdvd : bsz (d + 1) ∣ B + i * bsz (d + 1) :=
    Nat.dvd_add (Nat.dvd_trans (bsz_dvd (Nat.le_succ _)) hal) ⟨i, Nat.mul_comm _ _⟩
  have nochild : ∀ t', t' < s.next → loc t' ≠ (d, B + i * bsz (d + 1)) := by
    intro t' h1 h2
    have hpos : 0 < t' := by
      rcases Nat.eq_zero_or_pos t' with h | h
      · subst h
        have := (wf.top t ht).1
        rw [h2, hloc] at this
        dsimp only at this
        omega
      · exact h
    obtain ⟨p, j, h3, h4, h5, h6, h7⟩ := wf.parent t' hpos h1
    rw [h2] at h5 h6
    dsimp only at h5 h6
    have halp := wf.align p h3
    rw [h5, bsz_succ] at halp
    rw [h5] at h6
    rw [bsz_succ] at hal
    obtain ⟨e1, e2⟩ := entry_unique (bsz_pos (d + 1)) hal halp hi h4 h6
    have : p = t := wf.inj p t h3 ht (by rw [hloc]; exact Prod.ext h5 e1.symm)
    rw [this, ← e2, h0] at h7
    exact not_isTable_zero h7
  refine ⟨?_, ?_, ?_, ?_, ?_, ?_, ?_⟩
  · exact hn
  · intro t1 h1
    have h1' : t1 < s.next + 1 := h1
    by_cases he : t1 = s.next
    · simp only [he, if_true]; exact hdvd
    · simp only [he, if_false]; exact wf.align t1 (by omega)
  · intro t1 i1 d1 h1 h2 h3 h4
    have h1' : t1 < s.next + 1 := h1
    rw [write_mem] at h4 ⊢
    by_cases he : t1 = t ∧ i1 = i
    · obtain ⟨rfl, rfl⟩ := he
      refine ⟨s.next, ?_, ?_, ?_⟩
      · rw [if_pos ⟨rfl, rfl⟩]
        exact (sub_congr (s := s) rfl rfl _).trans (sub_table hp hn)
      · show s.next < s.next + 1
        omega
      · rw [if_neg (by omega), hloc] at h3
        have : d1 = d := by simpa using h3.symm
        subst this
        simp only [if_true, if_neg (show ¬ t1 = s.next by omega), hloc]
    · rw [if_neg he] at h4 ⊢
      by_cases hne : t1 = s.next
      · exfalso
        subst hne
        have := wf.fresh s.next i1 (Nat.le_refl _) hn h2
        rw [show ({ s with next := s.next + 1 } : Tabs).mem s.next i1 = s.mem s.next i1 from rfl,
          this] at h4
        exact not_isTable_zero h4
      · rw [if_neg hne] at h3 ⊢
        obtain ⟨t', h5, h6, h7⟩ := wf.child t1 i1 d1 (by omega) h2 h3 h4
        refine ⟨t', (sub_congr (s := s) rfl rfl _).trans h5, ?_, ?_⟩
        · show t' < s.next + 1
          omega
        · rw [if_neg (by omega)]; exact h7
  · intro t1 h1 h2
    have h2' : t1 < s.next + 1 := h2
    by_cases he : t1 = s.next
    · subst he
      refine ⟨t, i, ?_, hi, ?_, ?_, ?_⟩
      · show t < s.next + 1
        omega
      · simp only [if_neg (show ¬ t = s.next by omega), if_true, hloc]
      · simp only [if_neg (show ¬ t = s.next by omega), if_true, hloc]
      · rw [write_mem, if_pos ⟨rfl, rfl⟩]
        exact isTable_desc _
    · obtain ⟨p, j, h3, h4, h5, h6, h7⟩ := wf.parent t1 h1 (by omega)
      refine ⟨p, j, ?_, h4, ?_, ?_, ?_⟩
      · show p < s.next + 1
        omega
      · simp only [if_neg (show ¬ p = s.next by omega), if_neg he]; exact h5
      · simp only [if_neg (show ¬ p = s.next by omega), if_neg he]; exact h6
      · rw [write_mem, if_neg]
        · exact h7
        · rintro ⟨rfl, rfl⟩
          rw [h0] at h7
          exact not_isTable_zero h7
  · intro t1 t2 h1 h2 h3
    have h1' : t1 < s.next + 1 := h1
    have h2' : t2 < s.next + 1 := h2
    by_cases e1 : t1 = s.next <;> by_cases e2 : t2 = s.next
    · omega
    · rw [if_pos e1, if_neg e2] at h3
      exact absurd h3.symm (nochild t2 (by omega))
    · rw [if_neg e1, if_pos e2] at h3
      exact absurd h3 (nochild t1 (by omega))
    · rw [if_neg e1, if_neg e2] at h3
      exact wf.inj t1 t2 (by omega) (by omega) h3
  · intro t1 h1
    have h1' : t1 < s.next + 1 := h1
    have h0n : ¬ (0 = s.next) := by omega
    rw [if_neg h0n]
    by_cases e1 : t1 = s.next
    · rw [if_pos e1]
      have := (wf.top t ht).1
      rw [hloc] at this
      dsimp only at this ⊢
      exact ⟨by omega, fun _ => by omega⟩
    · rw [if_neg e1]
      exact wf.top t1 (by omega)
  · intro t1 i1 h1 h2 h3
    have h1' : s.next + 1 ≤ t1 := h1
    have h2' : t1 < s.num := h2
    rw [write_mem, if_neg]
    · exact wf.fresh t1 i1 (by omega) h2' h3
    · rintro ⟨rfl, _⟩
      omega

/-! ### One entry -/

theorem end_va {c : Cpu} {mm : Region} (hr : RegOk c mm) :
    wsub (wadd mm.baseVa mm.size) 1 = mm.baseVa + mm.size - 1 := by
  have := hr.vaEnd; have := hr.pos
  rw [wadd_eq (by omega), wsub_eq (by omega) (by omega)]

theorem end_entry {V d : Nat} (hV : V < 2 ^ 52) (hd : d ≤ 4) :
    wsub (wadd V (bsz d)) 1 = V + bsz d - 1 := by
  have := bsz_bound hd; have := bsz_pos d
  rw [wadd_eq (by omega), wsub_eq (by omega) (by omega)]

/-- What is decided about an empty entry. -/
theorem action_zero {c : Cpu} {mm : Region} (hr : RegOk c mm) {d V pa : Nat} (hd : d ≤ 4)
    (hV : bsz d ∣ V) (h1 : mm.baseVa < V + bsz d) (h2 : V < mm.baseVa + mm.size) :
    (action c mm INVALID_DESC pa V d = .ok .write ∧ mm.baseVa ≤ V ∧
      V + bsz d ≤ mm.baseVa + mm.size ∧ (d ≠ 0 → pa % bsz d = 0 ∧ d ≤ maxBlockDepth c)) ∨
    (action c mm INVALID_DESC pa V d = .ok .create ∧ d ≠ 0) := by
  have hve := hr.vaEnd
  have hpos := hr.pos
  have hb := bsz_pos d
  have hV52 : V < 2 ^ 52 := by omega
  unfold action
  simp only [end_va hr, end_entry hV52 hd]
  by_cases hf : mm.baseVa ≤ V ∧ mm.baseVa + mm.size - 1 ≥ V + bsz d - 1
  · rw [if_pos hf]
    by_cases h0 : d = 0
    · rw [if_pos h0, if_neg (by decide), if_neg (by decide)]
      exact Or.inl ⟨rfl, hf.1, by omega, fun h => absurd h0 h⟩
    · rw [if_neg h0, if_neg (by decide), if_pos trivial]
      by_cases hc : pa % bsz d ≠ 0 ∨ d > maxBlockDepth c ∨ mm.gran < bsz d
      · rw [if_pos hc]
        exact Or.inr ⟨rfl, h0⟩
      · rw [if_neg hc]
        refine Or.inl ⟨rfl, hf.1, by omega, fun _ => ?_⟩
        constructor
        · by_contra hne
          exact hc (Or.inl hne)
        · by_contra hne
          exact hc (Or.inr (Or.inl (by omega)))
  · have h0 : d ≠ 0 := by
      rintro rfl
      have e : bsz 0 = 4096 := rfl
      have hv := hr.va
      have hs := hr.size
      rw [e] at hV h1 hf
      obtain ⟨k, rfl⟩ := hV
      omega
    rw [if_neg hf, if_pos (Or.inl (by omega)), if_neg h0, if_pos trivial]
    exact Or.inr ⟨rfl, h0⟩

/-- What is decided about an entry with a table below it. -/
theorem action_table {c : Cpu} {mm : Region} (hr : RegOk c mm) {d V pa : Nat} (hd : d ≤ 4)
    (h0 : d ≠ 0) (h1 : mm.baseVa < V + bsz d) (h2 : V < mm.baseVa + mm.size) :
    action c mm TABLE_DESC pa V d = .ok .recurse := by
  have hve := hr.vaEnd
  have hpos := hr.pos
  have hb := bsz_pos d
  have hV52 : V < 2 ^ 52 := by omega
  unfold action
  simp only [end_va hr, end_entry hV52 hd]
  by_cases hf : mm.baseVa ≤ V ∧ mm.baseVa + mm.size - 1 ≥ V + bsz d - 1
  · rw [if_pos hf, if_neg h0, if_pos trivial]
  · rw [if_neg hf, if_pos (Or.inl (by omega)), if_neg h0, if_neg (by decide), if_neg (by simp)]

/-- The address written into an entry the region covers. -/
theorem entry_pa {c : Cpu} {mm : Region} (hr : RegOk c mm) {V : Nat} (h1 : mm.baseVa ≤ V)
    (h2 : V < mm.baseVa + mm.size) :
    wsub (wadd mm.basePa V) mm.baseVa = mm.basePa + (V - mm.baseVa) := by
  have := hr.vaEnd; have := hr.paEnd
  rw [wadd_eq (by omega), wsub_eq (by omega) (by omega)]
  omega

/-- A covered entry of an empty page or block gets its descriptor. -/
theorem step_write {c : Cpu} {mm : Region} {s : Tabs} {loc : Nat → Nat × Nat}
    (wf : WF c s loc) {d t i B : Nat} {v : BitVec 64}
    (ht : t < s.next) (hloc : loc t = (d, B)) (hi : i < 512) (h0 : s.mem t i = 0#64)
    (h1 : mm.baseVa ≤ B + i * bsz d) (h2 : B + i * bsz d + bsz d ≤ mm.baseVa + mm.size)
    (h3 : d ≤ maxBlockDepth c)
    (hx : xlatDesc c mm.attr (mm.basePa + (B + i * bsz d - mm.baseVa)) d = .ok v) :
    Good c mm s loc d t (B + i * bsz d) (B + i * bsz d + bsz d) (s.write t i v) := by
  have hal := wf.align t ht
  rw [hloc, bsz_succ] at hal
  have hv : d ≠ 0 → ¬ IsTable v := fun hd => xlatDesc_not_table hd hx
  refine ⟨loc, wf.write_leaf ht h0 (by rw [hloc]; exact hv), ?_, ?_⟩
  · refine ⟨rfl, rfl, Nat.le_refl _, fun _ _ => rfl, ?_, ?_⟩
    · intro t' i' h4 h5
      rw [write_mem]
      by_cases he : t' = t ∧ i' = i
      · obtain ⟨rfl, rfl⟩ := he
        refine Or.inr (Or.inl ⟨rfl, ?_⟩)
        rw [hloc]
        have := bsz_pos d
        exact ⟨Nat.le_refl _, by dsimp only; omega⟩
      · rw [if_neg he]; exact Or.inl rfl
    · intro t' h4 h5
      have h5' : t' < s.next := h5
      omega
  · intro va h4 h5
    have hidx := index_of hal hi h4 h5
    have hlk : look c (s.write t i v) d t va = (v, d) := by
      rw [look_leaf hidx, write_mem, if_pos ⟨rfl, rfl⟩]
      intro hd
      rw [write_mem, if_pos ⟨rfl, rfl⟩]
      exact hv hd
    have hin : InR mm va := ⟨by omega, by omega⟩
    refine ⟨fun _ => ?_, fun h => absurd hin h⟩
    have hbase : va / bsz d * bsz d = B + i * bsz d := by
      have hdv : bsz d ∣ B + i * bsz d :=
        Nat.dvd_add (Nat.dvd_trans ⟨512, Nat.mul_comm _ _⟩ hal) ⟨i, Nat.mul_comm _ _⟩
      obtain ⟨k, hk⟩ := hdv
      have : va / bsz d = k := by
        apply Nat.div_eq_of_lt_le
        · rw [Nat.mul_comm, ← hk]; exact h4
        · calc va < B + i * bsz d + bsz d := h5
            _ = (k + 1) * bsz d := by rw [hk]; ring
      rw [this, Nat.mul_comm, ← hk]
    rw [hlk]
    unfold Mapped
    rw [hbase]
    exact ⟨h1, h2, h3, hx⟩

end Verif.Xlat
