import Verif.Xlat.PropMap

/-
C46: the property theorems about the RMM's own translation tables.
-/
namespace Verif.Xlat

/-- **C46.** After start-up, every virtual address of a region that is mapped
(not merely reserved) translates to the corresponding physical address of the
region, with the attributes the region asks for. -/
theorem C46_region_mapped {c : Cpu} {high : Bool} {mms : List Region} {k addr num : Nat}
    {old : Nat → Nat → BitVec 64} {s : Tabs} {m : Nat → BitVec 64}
    (hpa : c.paWidth ≤ (if c.lpa2 then 52 else 48)) (hw : ∀ r, r ∈ mms → Word r)
    (hty : ∀ r, r ∈ mms → Spec.Supported r) (hfit : addr + 4096 * num ≤ 2 ^ 48)
    (hs : setup c high mms (2 ^ k) addr num old = .ok s) (hm : Spec.Holds m s)
    (va : Nat) (hva : va < 2 ^ 64) (r : Region) (hr : r ∈ mms) (hc : Spec.Contains r va)
    (hnt : ¬ Spec.Transient r) :
    Spec.translate c.lpa2 high (txsz (2 ^ k)) addr m va =
      some (r.basePa + (va - r.baseVa), Spec.wanted r.attr) :=
  (translate_main hpa hw hty hfit hs hm hva).1 r hr hc hnt

/-- **C46.** An address in no mapped region faults. -/
theorem C46_nothing_else {c : Cpu} {high : Bool} {mms : List Region} {k addr num : Nat}
    {old : Nat → Nat → BitVec 64} {s : Tabs} {m : Nat → BitVec 64}
    (hpa : c.paWidth ≤ (if c.lpa2 then 52 else 48)) (hw : ∀ r, r ∈ mms → Word r)
    (hty : ∀ r, r ∈ mms → Spec.Supported r) (hfit : addr + 4096 * num ≤ 2 ^ 48)
    (hs : setup c high mms (2 ^ k) addr num old = .ok s) (hm : Spec.Holds m s)
    (va : Nat) (hva : va < 2 ^ 64)
    (hout : ∀ r, r ∈ mms → Spec.Contains r va → Spec.Transient r) :
    Spec.translate c.lpa2 high (txsz (2 ^ k)) addr m va = none :=
  (translate_main hpa hw hty hfit hs hm hva).2 hout

/-- **C46.** Two regions never claim the same virtual address: `C46_region_mapped`
cannot contradict itself. -/
theorem C46_regions_disjoint {c : Cpu} {high : Bool} {mms : List Region} {vaSize : Nat}
    {out : List Region} (hpa : c.paWidth ≤ 52) (hw : ∀ r, r ∈ mms → Word r)
    (h : cfgInit c high mms vaSize = .ok out) :
    mms.Pairwise (fun a b => ∀ va, Spec.Contains a va → ¬ Spec.Contains b va) := by
  obtain ⟨e1, e2, _, e4, _⟩ := cfgInit_ok hpa hw h
  subst e1
  rw [List.pairwise_map] at e4
  refine List.Pairwise.imp_of_mem ?_ e4
  intro a b ha hb hab va h1 h2
  unfold Before shift at hab
  simp only at hab
  have := e2 a ha
  have := e2 b hb
  have := h1.2
  have := h2.1
  omega

/-- Nothing the privileged RMM can write is executable by it. -/
theorem C46_writable_never_executable {c : Cpu} {high : Bool} {mms : List Region}
    {k addr num : Nat} {old : Nat → Nat → BitVec 64} {s : Tabs} {m : Nat → BitVec 64}
    (hpa : c.paWidth ≤ (if c.lpa2 then 52 else 48)) (hw : ∀ r, r ∈ mms → Word r)
    (hty : ∀ r, r ∈ mms → Spec.Supported r) (hfit : addr + 4096 * num ≤ 2 ^ 48)
    (hs : setup c high mms (2 ^ k) addr num old = .ok s) (hm : Spec.Holds m s)
    (va : Nat) (hva : va < 2 ^ 64) (pa : Nat) (a : Spec.Attrs)
    (ht : Spec.translate c.lpa2 high (txsz (2 ^ k)) addr m va = some (pa, a))
    (hwr : a.readOnly = false) : a.privNoExec = true := by
  have main := translate_main hpa hw hty hfit hs hm hva
  by_cases hex : ∃ r, r ∈ mms ∧ Spec.Contains r va ∧ ¬ Spec.Transient r
  · obtain ⟨r, hr, hc, hnt⟩ := hex
    have := main.1 r hr hc hnt
    rw [ht] at this
    have ha : a = Spec.wanted r.attr := (Prod.mk.inj (Option.some.inj this)).2
    rw [ha] at hwr ⊢
    unfold Spec.wanted at hwr ⊢
    simp only [Bool.not_eq_false'] at hwr
    simp [hwr]
  · have := main.2 (by
      intro r hr hc
      by_contra hnt
      exact hex ⟨r, hr, hc, hnt⟩)
    rw [ht] at this
    cases this

theorem err_ite {α : Type} {q : Prop} [Decidable q] {a e : Err} {x : Except Err α} {P : Err → Prop}
    (h : (if q then .error a else x) = .error e) (ha : P a) (hx : x = .error e → P e) : P e := by
  by_cases hq : q
  · rw [if_pos hq] at h
    rw [← Except.error.inj h]; exact ha
  · rw [if_neg hq] at h
    exact hx h

/-- The errors `validate_mmap_regions` documents. -/
def CfgErr (e : Err) : Prop := e = .einval ∨ e = .efault ∨ e = .erange ∨ e = .eperm

theorem validateOne_error {c : Cpu} {high : Bool} {base vaSize : Nat} {done : List Region}
    {m : Region} {e : Err} (h : validateOne c high base vaSize done m = .error e) : CfgErr e := by
  have i1 : CfgErr .einval := Or.inl rfl
  have i2 : CfgErr .efault := Or.inr (Or.inl rfl)
  have i3 : CfgErr .erange := Or.inr (Or.inr (Or.inl rfl))
  have i4 : CfgErr .eperm := Or.inr (Or.inr (Or.inr rfl))
  unfold validateOne at h
  refine err_ite h i1 fun h => err_ite h i1 fun h => err_ite h i2 fun h => err_ite h i1 fun h =>
    err_ite h i3 fun h => err_ite h i3 fun h => err_ite h i3 fun h => ?_
  cases done with
  | nil => cases h
  | cons p rest =>
    refine err_ite h i4 fun h => err_ite h i4 fun h => ?_
    by_cases ht : mtType m.attr = MT_TRANSIENT
    · rw [if_pos ht] at h; cases h
    · rw [if_neg ht] at h
      exact err_ite h i4 fun h => by cases h

theorem validateLoop_error {c : Cpu} {high : Bool} {base vaSize : Nat} {e : Err} :
    ∀ todo done, validateLoop c high base vaSize done todo = .error e → CfgErr e := by
  intro todo
  induction todo with
  | nil => intro done h; cases h
  | cons m rest ih =>
    intro done h
    unfold validateLoop at h
    cases hv : validateOne c high base vaSize done m with
    | error e' =>
      rw [hv, except_bind_error] at h
      obtain rfl := Except.error.inj h
      exact validateOne_error hv
    | ok m' =>
      rw [hv, except_bind_ok] at h
      exact ih _ h

/-- **C46.** Building the tables ends in one of the documented errors, in the
assertion that a table is left, or well.  No other assertion of the builder
can fail, it never panics, and no region is left half mapped. -/
theorem C46_outcomes (c : Cpu) (high : Bool) (mms : List Region) (vaSize addr num : Nat)
    (old : Nat → Nat → BitVec 64)
    (hpa : c.paWidth ≤ (if c.lpa2 then 52 else 48)) (hw : ∀ r, r ∈ mms → Word r)
    (hty : ∀ r, r ∈ mms → Spec.Supported r) (hfit : addr + 4096 * num ≤ 2 ^ 48) :
    (∃ s, setup c high mms vaSize addr num old = .ok s) ∨
    ∃ e, setup c high mms vaSize addr num old = .error e ∧
      (e = .einval ∨ e = .efault ∨ e = .erange ∨ e = .eperm ∨ e = .noTable) := by
  rcases setup_built (vaSize := vaSize) (high := high) (old := old) hpa hw hty hfit with
    ⟨e, he, h⟩ | ⟨s, hs, _⟩
  · refine Or.inr ⟨e, he, ?_⟩
    rcases h with h | h | h
    · have hc : CfgErr e := by
        unfold cfgInit at h
        refine err_ite h (Or.inl rfl) fun h => err_ite h (Or.inl rfl) fun h => ?_
        unfold validate at h
        exact err_ite h (Or.inl rfl) fun h => validateLoop_error _ _ h
      rcases hc with h | h | h | h <;> simp [h]
    · simp [h]
    · simp [h]
  · exact Or.inl ⟨s, hs⟩

/-- **C46, reserved pages.** Every page of a transient region that is covered
at page level holds the reservation marker, so a later single-page mapping
finds a reserved, invalid entry there. -/
theorem C46_transient_reserved {c : Cpu} {high : Bool} {mms : List Region} {vaSize addr num : Nat}
    {old : Nat → Nat → BitVec 64} {s : Tabs}
    (hpa : c.paWidth ≤ (if c.lpa2 then 52 else 48)) (hw : ∀ r, r ∈ mms → Word r)
    (hty : ∀ r, r ∈ mms → Spec.Supported r) (hfit : addr + 4096 * num ≤ 2 ^ 48)
    (hs : setup c high mms vaSize addr num old = .ok s)
    (va : Nat) (r : Region) (hr : r ∈ mms) (hc : Spec.Contains r va) (ht : Spec.Transient r) :
    (look c s (baseDepth vaSize) 0 (va - ctxBaseVa high vaSize)).1 = TRANSIENT_DESC := by
  rcases setup_built (vaSize := vaSize) (high := high) (old := old) hpa hw hty hfit with
    ⟨e, he, _⟩ | ⟨s', hs', hB, _, _, hbase, hchk, _, hmax, hmin⟩
  · rw [he] at hs; cases hs
  rw [hs] at hs'
  obtain rfl := Except.ok.inj hs'
  obtain ⟨loc, _, _, _, hlook⟩ := hB
  have hb := hbase r hr
  have hk := (hchk _ (List.mem_map_of_mem hr)).vaEnd
  have h1 := hc.1
  have h2 := hc.2
  simp only [shift] at hk
  have hin : InR (shift (ctxBaseVa high vaSize) r) (va - ctxBaseVa high vaSize) :=
    ⟨by show r.baseVa - ctxBaseVa high vaSize ≤ _; omega,
     by show _ < r.baseVa - ctxBaseVa high vaSize + r.size; omega⟩
  have hspan : vaSize ≤ bsz (baseDepth vaSize + 1) := by
    have hv : vaSize ≤ 2 ^ 52 := by
      refine Nat.le_trans hmax ?_
      split <;> decide
    have b5 : bsz 5 = 2 ^ 57 := by decide
    unfold baseDepth
    by_cases h4 : vaSize > bsz 4
    · rw [if_pos h4, b5]; omega
    rw [if_neg h4]
    by_cases h3 : vaSize > bsz 3
    · rw [if_pos h3]; show vaSize ≤ bsz 4; omega
    rw [if_neg h3]
    by_cases h2 : vaSize > bsz 2
    · rw [if_pos h2]; show vaSize ≤ bsz 3; omega
    rw [if_neg h2]
    by_cases h1 : vaSize > bsz 1
    · rw [if_pos h1]; show vaSize ≤ bsz 2; omega
    rw [if_neg h1]; show vaSize ≤ bsz 1; omega
  have hM := ((hlook _ (by omega)).1 _ (List.mem_map_of_mem hr) hin).2.2.2
  unfold xlatDesc at hM
  rw [if_pos (show mtType (shift (ctxBaseVa high vaSize) r).attr = MT_TRANSIENT from
    (mtType_eq r.attr 3 (by decide)).mpr ht)] at hM
  exact (Except.ok.inj hM).symm

/-! ### A concrete memory map -/

/-- A small low address space: code, data, a device and reserved pages. -/
def demoMap : List Region :=
  [ { basePa := 0x80000000, baseVa := 0x10000, size := 0x2000, attr := MT_CODE, gran := 4096 },
    { basePa := 0x80002000, baseVa := 0x12000, size := 0x1000, attr := MT_RW_DATA, gran := 4096 },
    { basePa := 0x90000000, baseVa := 0x200000, size := 0x200000, attr := MT_DEVICE,
      gran := bsz 1 },
    { basePa := 0, baseVa := 0x400000, size := 0x1000, attr := MT_TRANSIENT, gran := 4096 } ]

/-- A processor without FEAT_LPA2. -/
def demoCpu : Cpu := { lpa2 := false, paWidth := 48 }

/-- The tables for `demoMap`, in an array of three tables. -/
def demoTabs : Except Err Tabs :=
  setup demoCpu false demoMap (2 ^ 30) 0x1000000 3 (fun _ _ => 0xdead#64)

/-- The physical memory with those tables in it. -/
def demoMem (s : Tabs) (a : Nat) : BitVec 64 :=
  if 0x1000000 ≤ a ∧ a < 0x1003000 then s.mem ((a - 0x1000000) / 4096) (a % 4096 / 8) else 0#64

/-- The hypotheses of the C46 theorems hold for `demoMap`, and the walk finds
code, data and the device where they belong and nothing in between. -/
example : (∀ r, r ∈ demoMap → Word r) ∧ (∀ r, r ∈ demoMap → Spec.Supported r) ∧
    ∃ s, demoTabs = .ok s := by
  refine ⟨?_, ?_, ?_⟩
  · intro r hr
    have : ∀ r ∈ demoMap, r.basePa < 2 ^ 64 ∧ r.baseVa < 2 ^ 64 ∧ r.size < 2 ^ 64 := by decide
    exact ⟨(this r hr).1, (this r hr).2.1, (this r hr).2.2⟩
  · unfold Spec.Supported; decide
  · have : (match demoTabs with | .ok _ => true | .error _ => false) = true := by decide +kernel
    cases h : demoTabs with
    | ok s => exact ⟨s, rfl⟩
    | error e => rw [h] at this; cases this

example : (demoTabs.toOption.map fun s =>
    [0x11234, 0x12010, 0x234567, 0x13000, 0x400000, 0x40000000, 0xF000].map fun va =>
      (Spec.translate false false (txsz (2 ^ 30)) 0x1000000 (demoMem s) va).map fun p =>
        (p.1, p.2.readOnly, p.2.privNoExec, p.2.memIndex)) =
    some [some (0x80001234, true, false, 0), some (0x80002010, false, true, 0),
      some (0x90034567, true, true, 1), none, none, none, none] := by
  decide +kernel

/-! ### Where the checks fall short -/

/-- The comparison of physical ranges only asks whether an end of the new
region lies in an earlier one.  A region that contains an earlier one is
accepted, and one physical page is then mapped twice, here read-only and
executable as well as writable. -/
theorem C46_physical_overlap_accepted :
    ∃ (c : Cpu) (mms out : List Region) (a b : Region),
      cfgInit c false mms (2 ^ 30) = .ok out ∧ a ∈ out ∧ b ∈ out ∧
      Spec.wanted a.attr ≠ Spec.wanted b.attr ∧ ¬ Spec.Transient a ∧ ¬ Spec.Transient b ∧
      b.basePa ≤ a.basePa ∧ a.basePa + a.size ≤ b.basePa + b.size := by
  refine ⟨demoCpu,
    [ { basePa := 0x80001000, baseVa := 0x1000, size := 0x1000, attr := MT_CODE, gran := 4096 },
      { basePa := 0x80000000, baseVa := 0x4000, size := 0x3000, attr := MT_RW_DATA, gran := 4096 } ],
    _, { basePa := 0x80001000, baseVa := 0x1000, size := 0x1000, attr := MT_CODE, gran := 4096 },
    { basePa := 0x80000000, baseVa := 0x4000, size := 0x3000, attr := MT_RW_DATA, gran := 4096 },
    rfl, ?_⟩
  unfold Spec.Transient
  decide

/-- The size of the address space is not required to be a power of two, but
the `TxSZ` value is computed as if it were.  With a size of `0x30000` the
table is built for a region the processor then refuses to translate. -/
theorem C46_size_not_power_of_two :
    ∃ (c : Cpu) (mms : List Region) (s : Tabs) (m : Nat → BitVec 64) (r : Region),
      setup c false mms 0x30000 0x1000000 1 (fun _ _ => 0#64) = .ok s ∧ Spec.Holds m s ∧
      r ∈ mms ∧ ¬ Spec.Transient r ∧ Spec.Contains r 0x20000 ∧
      Spec.translate c.lpa2 false (txsz 0x30000) 0x1000000 m 0x20000 = none := by
  obtain ⟨mms, hmms⟩ : ∃ l : List Region, l =
      [ { basePa := 0x80000000, baseVa := 0x20000, size := 0x1000, attr := MT_CODE, gran := 4096 } ] :=
    ⟨_, rfl⟩
  have hok : (match setup demoCpu false mms 0x30000 0x1000000 1 (fun _ _ => 0#64) with
      | .ok s => decide (s.addr = 0x1000000 ∧ s.num = 1) | .error _ => false) = true := by
    subst hmms; decide +kernel
  cases h : setup demoCpu false mms 0x30000 0x1000000 1 (fun _ _ => 0#64) with
  | error e => rw [h] at hok; cases hok
  | ok s =>
    rw [h] at hok
    obtain ⟨ha, hn⟩ := of_decide_eq_true hok
    refine ⟨demoCpu, mms, s, fun a => s.mem ((a - 0x1000000) / 4096) (a % 4096 / 8),
      { basePa := 0x80000000, baseVa := 0x20000, size := 0x1000, attr := MT_CODE, gran := 4096 },
      h, ?_, by rw [hmms]; simp, ?_, ?_, ?_⟩
    · intro t i ht hi
      rw [hn] at ht
      rw [ha]
      simp only
      rw [show (0x1000000 + 4096 * t + 8 * i - 0x1000000) / 4096 = t by omega,
        show (0x1000000 + 4096 * t + 8 * i) % 4096 / 8 = i by omega]
    · unfold Spec.Transient; decide
    · unfold Spec.Contains; decide
    · unfold Spec.translate
      rw [if_neg]
      decide

end Verif.Xlat
