import Verif.Xlat.Check

/-
C46: translating any address through the tables the library builds gives the
physical address and the attributes of the region that contains it, and
addresses outside all regions fault.
-/
namespace Verif.Xlat

/-! ### The processor's walk and the tree -/

theorem bsz_pow (d : Nat) : bsz d = 2 ^ (12 + 9 * d) := by
  unfold bsz
  rw [Nat.pow_add, Nat.pow_mul]

theorem isTable_iff (e : BitVec 64) : IsTable e ↔ e.toNat % 4 = 3 := by
  unfold IsTable
  constructor
  · intro h
    have := congrArg BitVec.toNat h
    rw [BitVec.toNat_and] at this
    rw [← show e.toNat &&& 3 = e.toNat % 4 from Nat.and_two_pow_sub_one_eq_mod e.toNat 2]
    exact this
  · intro h
    apply BitVec.eq_of_toNat_eq
    rw [BitVec.toNat_and]
    exact (Nat.and_two_pow_sub_one_eq_mod e.toNat 2).trans h

/-- The words of the table array are in physical memory. -/
def Spec.Holds (m : Nat → BitVec 64) (s : Tabs) : Prop :=
  ∀ t i, t < s.num → i < 512 → m (s.addr + 4096 * t + 8 * i) = s.mem t i

/-- What the processor makes of the last descriptor of a walk. -/
def leaf (lpa2 : Bool) (r : BitVec 64 × Nat) (off : Nat) : Option (Nat × Spec.Attrs) :=
  if (r.2 = 0 ∧ r.1.toNat % 4 = 3) ∨
      (r.2 ≠ 0 ∧ r.1.toNat % 4 = 1 ∧ r.2 ≤ (if lpa2 then 3 else 2)) then
    some (Spec.outAddr lpa2 r.1 / bsz r.2 * bsz r.2 + off % bsz r.2, Spec.decode r.1)
  else none

theorem outAddr_page (l : Bool) (e : BitVec 64) : Spec.outAddr l e % 4096 = 0 := by
  unfold Spec.outAddr
  cases l <;> simp only [Bool.false_eq_true, if_false, if_true] <;> omega

theorem sub_addr {c : Cpu} {s : Tabs} {e : BitVec 64} {t : Nat} (h : s.sub c e = some t) :
    Spec.outAddr c.lpa2 e = s.addr + 4096 * t ∧ t < s.num := by
  unfold Tabs.sub at h
  rw [getOa_toNat] at h
  simp only at h
  split at h
  · rename_i hc
    obtain rfl := Option.some.inj h
    omega
  · cases h

theorem walk_look {c : Cpu} {s : Tabs} {loc : Nat → Nat × Nat} {m : Nat → BitVec 64}
    (wf : WF c s loc) (hm : Spec.Holds m s) (va off : Nat) :
    ∀ d t, t < s.next → (loc t).1 = d → va % bsz d = off % bsz d →
      Spec.walk c.lpa2 m va d (s.addr + 4096 * t) (off / bsz d % 512) =
        leaf c.lpa2 (look c s d t off) off := by
  intro d
  induction d with
  | zero =>
    intro t ht _ hv
    have hr := wf.room
    have hi : off / bsz 0 % 512 < 512 := Nat.mod_lt _ (by decide)
    unfold Spec.walk look
    rw [hm t _ (by omega) hi]
    unfold leaf
    simp only [true_and, ne_eq, not_true_eq_false, false_and, or_false]
    have hb : bsz 0 = 4096 := by decide
    rw [hb] at hv ⊢
    have hp := outAddr_page c.lpa2 (s.mem t (off / 4096 % 512))
    split
    · congr 2; omega
    · rfl
  | succ d ih =>
    intro t ht hl hv
    have hr := wf.room
    have hi : off / bsz (d + 1) % 512 < 512 := Nat.mod_lt _ (by decide)
    unfold Spec.walk look
    rw [hm t _ (by omega) hi]
    simp only
    by_cases hT : IsTable (s.mem t (off / bsz (d + 1) % 512))
    · rw [if_pos ((isTable_iff _).mp hT), if_pos hT]
      obtain ⟨t', e1, e2, e3⟩ := wf.child t _ d ht hi hl hT
      rw [e1]
      simp only
      rw [(sub_addr e1).1]
      have hmod : va % bsz d = off % bsz d := by
        have hd := bsz_dvd (show d ≤ d + 1 by omega)
        rw [← Nat.mod_mod_of_dvd va hd, hv, Nat.mod_mod_of_dvd off hd]
      have hidx : va / 2 ^ (12 + 9 * d) % 512 = off / bsz d % 512 := by
        rw [← bsz_pow]
        have h1 := Nat.mod_mul_right_div_self va (bsz d) 512
        have h2 := Nat.mod_mul_right_div_self off (bsz d) 512
        have h3 : bsz d * 512 = bsz (d + 1) := by rw [bsz_succ, Nat.mul_comm]
        rw [h3] at h1 h2
        rw [← h1, ← h2, hv]
      rw [hidx]
      exact ih t' e2 (by rw [e3]) hmod
    · rw [if_neg (fun h => hT ((isTable_iff _).mpr h)), if_neg hT]
      unfold leaf
      rw [← bsz_pow, hv]
      simp only [Nat.succ_ne_zero, false_and, false_or, ne_eq, not_false_eq_true, true_and]

/-! ### Address ranges -/

theorem ctz_go_pow : ∀ k n, k < n → ctz.go n (2 ^ k) = k := by
  intro k
  induction k with
  | zero =>
    intro n hn
    obtain ⟨n, rfl⟩ : ∃ q, n = q + 1 := ⟨n - 1, by omega⟩
    unfold ctz.go
    simp
  | succ k ih =>
    intro n hn
    obtain ⟨n, rfl⟩ : ∃ q, n = q + 1 := ⟨n - 1, by omega⟩
    unfold ctz.go
    have h1 : 2 ^ (k + 1) % 2 ≠ 1 := by rw [Nat.pow_succ]; omega
    have h2 : 2 ^ (k + 1) / 2 = 2 ^ k := by rw [Nat.pow_succ]; omega
    rw [if_neg h1, h2, ih n (by omega)]

theorem txsz_pow {k : Nat} (hk : k < 64) : 64 - txsz (2 ^ k) = k := by
  unfold txsz ctz
  rw [ctz_go_pow k 64 hk]
  omega

theorem pow_gt {a b : Nat} : 2 ^ a > 2 ^ b ↔ b < a :=
  ⟨fun h => by
    by_contra hn
    have := Nat.pow_le_pow_right (n := 2) (by decide) (show a ≤ b by omega)
    omega, fun h => Nat.pow_lt_pow_right (by decide) h⟩

theorem baseDepth_pow {k : Nat} (h1 : 16 ≤ k) (h2 : k ≤ 52) :
    baseDepth (2 ^ k) = (k - 13) / 9 := by
  unfold baseDepth
  rw [bsz_pow, bsz_pow, bsz_pow, bsz_pow]
  simp only [pow_gt]
  split
  · omega
  · split
    · omega
    · split
      · omega
      · split <;> omega

theorem ctxBase_eq {high : Bool} {vaSize : Nat} (h : 0 < vaSize) (hv : vaSize ≤ 2 ^ 52) :
    ctxBaseVa high vaSize = if high then 2 ^ 64 - vaSize else 0 := by
  unfold ctxBaseVa
  cases high
  · rfl
  · simp only [if_true]
    rw [wsub_eq (by decide) (by omega), wadd_eq (by omega)]
    omega

/-! ### The state after start-up -/

/-- Everything known about the tables after a successful start-up. -/
theorem setup_built {c : Cpu} {high : Bool} {mms : List Region} {vaSize addr num : Nat}
    {old : Nat → Nat → BitVec 64}
    (hpa : c.paWidth ≤ (if c.lpa2 then 52 else 48)) (hw : ∀ r, r ∈ mms → Word r)
    (hty : ∀ r, r ∈ mms → Spec.Supported r) (hfit : addr + 4096 * num ≤ 2 ^ 48) :
    (∃ e, setup c high mms vaSize addr num old = .error e ∧
      (cfgInit c high mms vaSize = .error e ∨ e = .einval ∨ e = .noTable)) ∨
    ∃ s, setup c high mms vaSize addr num old = .ok s ∧
      Built c (baseDepth vaSize) (mms.map (shift (ctxBaseVa high vaSize))) s ∧
      s.addr = addr ∧ s.num = num ∧
      (∀ r, r ∈ mms → ctxBaseVa high vaSize ≤ r.baseVa) ∧
      (∀ r, r ∈ mms.map (shift (ctxBaseVa high vaSize)) → Checked c vaSize r) ∧
      (mms.map (shift (ctxBaseVa high vaSize))).Pairwise Before ∧
      vaSize ≤ (if c.lpa2 then 2 ^ 52 else 2 ^ 48) ∧ 2 ^ 16 ≤ vaSize := by
  have hpa52 : c.paWidth ≤ 52 := by
    refine Nat.le_trans hpa ?_
    split <;> decide
  unfold setup
  cases hcfg : cfgInit c high mms vaSize with
  | error e => exact Or.inl ⟨e, rfl, Or.inl rfl⟩
  | ok out =>
    rw [except_bind_ok]
    obtain ⟨e1, e2, e3, e4, e5, e6, e7⟩ := cfgInit_ok hpa52 hw hcfg
    unfold ctxInit
    by_cases c1 : addr = 0 ∨ num = 0
    · rw [if_pos c1]; exact Or.inl ⟨_, rfl, Or.inr (Or.inl rfl)⟩
    rw [if_neg c1]
    by_cases c2 : addr % 4096 ≠ 0
    · rw [if_pos c2]; exact Or.inl ⟨_, rfl, Or.inr (Or.inl rfl)⟩
    rw [if_neg c2]
    unfold initTables
    have hvs : vaSize ≤ 2 ^ 52 := by
      refine Nat.le_trans e6 ?_
      split <;> decide
    have hD : baseDepth vaSize ≤ 4 := by
      unfold baseDepth
      repeat' split
      all_goals omega
    have hroot : vaSize ≤ tableEntries (baseDepth vaSize) * bsz (baseDepth vaSize) := by
      have b4 : bsz 4 = 2 ^ 48 := by decide
      have b3 : bsz 3 = 2 ^ 39 := by decide
      have b2 : bsz 2 = 2 ^ 30 := by decide
      have b1 : bsz 1 = 2 ^ 21 := by decide
      have b0 : bsz 0 = 2 ^ 12 := by decide
      unfold baseDepth
      rw [b4, b3, b2, b1]
      split
      · rw [show tableEntries 4 = 16 from rfl, b4]; omega
      · split
        · rw [show tableEntries 3 = 512 from rfl, b3]; omega
        · split
          · rw [show tableEntries 2 = 512 from rfl, b2]; omega
          · split
            · rw [show tableEntries 1 = 512 from rfl, b1]; omega
            · rw [show tableEntries 0 = 512 from rfl, b0]; omega
    have hreg : ∀ r, r ∈ out → RegOk c r ∧
        r.baseVa + r.size ≤ tableEntries (baseDepth vaSize) * bsz (baseDepth vaSize) := by
      intro r hr
      have hk := e3 r hr
      have hpe := hk.paEnd
      have hve := hk.vaEnd
      have h52 : 2 ^ c.paWidth ≤ 2 ^ 52 := Nat.pow_le_pow_right (by decide) hpa52
      refine ⟨⟨hk.va, hk.size, hk.pos, hk.pa, by omega, by omega, ?_⟩, by omega⟩
      rw [e1] at hr
      obtain ⟨r0, hr0, rfl⟩ := List.mem_map.mp hr
      show mtType r0.attr = _ ∨ mtType r0.attr = _ ∨ mtType r0.attr = _
      rcases hty r0 hr0 with h | h | h
      · exact Or.inr (Or.inl ((mtType_eq _ 0 (by decide)).mpr h))
      · exact Or.inr (Or.inr ((mtType_eq _ 2 (by decide)).mpr h))
      · exact Or.inl ((mtType_eq _ 3 (by decide)).mpr h)
    rcases mapAll_ok (c := c) hD out [] _ ⟨by show addr % 4096 = 0; omega, hfit⟩
        (built_nil (c := c) (D := baseDepth vaSize) (addr := addr) (num := num) (by omega) old)
        hreg e4 (by simp) with h | ⟨s, h, hB, ha, hn⟩
    · exact Or.inl ⟨_, h, Or.inr (Or.inr rfl)⟩
    · rw [List.nil_append] at hB
      subst e1
      exact Or.inr ⟨s, h, hB, ha, hn, e2, e3, e4, e6, e7⟩

/-! ### C46 -/

/-- The whole of C46 for one address. -/
theorem translate_main {c : Cpu} {high : Bool} {mms : List Region} {k addr num : Nat}
    {old : Nat → Nat → BitVec 64} {s : Tabs} {m : Nat → BitVec 64} {va : Nat}
    (hpa : c.paWidth ≤ (if c.lpa2 then 52 else 48)) (hw : ∀ r, r ∈ mms → Word r)
    (hty : ∀ r, r ∈ mms → Spec.Supported r) (hfit : addr + 4096 * num ≤ 2 ^ 48)
    (hs : setup c high mms (2 ^ k) addr num old = .ok s) (hm : Spec.Holds m s)
    (hva : va < 2 ^ 64) :
    (∀ r, r ∈ mms → Spec.Contains r va → ¬ Spec.Transient r →
      Spec.translate c.lpa2 high (txsz (2 ^ k)) addr m va =
        some (r.basePa + (va - r.baseVa), Spec.wanted r.attr)) ∧
    ((∀ r, r ∈ mms → Spec.Contains r va → Spec.Transient r) →
      Spec.translate c.lpa2 high (txsz (2 ^ k)) addr m va = none) := by
  rcases setup_built (vaSize := 2 ^ k) (high := high) (old := old) hpa hw hty hfit with
    ⟨e, he, _⟩ | ⟨s', hs', hB, ha, _, hbase, hchk, _, hmax, hmin⟩
  · rw [he] at hs; cases hs
  rw [hs] at hs'
  obtain rfl := Except.ok.inj hs'
  have hk1 : 16 ≤ k := by
    by_contra hn
    have := (pow_gt (a := 16) (b := k)).mpr (by omega)
    omega
  have hk2 : k ≤ 52 := by
    by_contra hn
    have h1 := (pow_gt (a := k) (b := 52)).mpr (by omega)
    have : 2 ^ k ≤ 2 ^ 52 := by
      refine Nat.le_trans hmax ?_
      split <;> decide
    omega
  have hkp : 0 < 2 ^ k := Nat.pow_pos (by decide)
  have hk52 : 2 ^ k ≤ 2 ^ 52 := Nat.pow_le_pow_right (by decide) hk2
  rw [ctxBase_eq hkp hk52] at hbase hchk hB
  rw [baseDepth_pow hk1 hk2] at hB
  unfold Spec.translate
  rw [txsz_pow (by omega)]
  simp only
  obtain ⟨base, hbd⟩ : ∃ b, (if high = true then 2 ^ 64 - 2 ^ k else 0) = b := ⟨_, rfl⟩
  rw [hbd] at hbase hchk hB
  have hrange : (if high = true then 2 ^ 64 - 2 ^ k ≤ va else va < 2 ^ k) ↔
      base ≤ va ∧ va - base < 2 ^ k := by
    subst hbd
    cases high
    · simp
    · simp only [if_true]; omega
  have hend : ∀ r, r ∈ mms → r.baseVa + r.size ≤ base + 2 ^ k := by
    intro r hr
    have h1 := (hchk _ (List.mem_map_of_mem hr)).vaEnd
    have h2 := hbase r hr
    simp only [shift] at h1
    omega
  by_cases hin : base ≤ va ∧ va - base < 2 ^ k
  swap
  · rw [if_neg (fun h => hin (hrange.mp h))]
    refine ⟨?_, fun _ => rfl⟩
    intro r hr hc
    exfalso
    have h1 := hbase r hr
    have h2 := hend r hr
    have := hc.1
    have := hc.2
    omega
  rw [if_pos (hrange.mpr hin)]
  obtain ⟨D, hD⟩ : ∃ D, (k - 13) / 9 = D := ⟨_, rfl⟩
  rw [hD] at hB ⊢
  obtain ⟨off, hoff⟩ : ∃ o, va - base = o := ⟨_, rfl⟩
  have hmodk : va % 2 ^ k = off := by
    have hdvd : 2 ^ k ∣ base := by
      subst hbd
      cases high
      · exact Nat.dvd_zero _
      · simp only [if_true]
        exact Nat.dvd_sub (Nat.pow_dvd_pow 2 (by omega)) (Nat.dvd_refl _)
    obtain ⟨q, hq⟩ := hdvd
    rw [show va = off + 2 ^ k * q by omega, Nat.add_mul_mod_self_left]
    exact Nat.mod_eq_of_lt (by omega)
  have hspan : 2 ^ k ≤ bsz (D + 1) := by
    rw [bsz_pow]; exact Nat.pow_le_pow_right (by decide) (by omega)
  have hmodD : va % bsz D = off % bsz D := by
    have hdv : bsz D ∣ 2 ^ k := by
      rw [bsz_pow]; exact Nat.pow_dvd_pow 2 (by omega)
    rw [← hmodk, Nat.mod_mod_of_dvd va hdv]
  obtain ⟨loc, wf, h0, hl0, hlook⟩ := hB
  have hidx : va % 2 ^ k / 2 ^ (12 + 9 * D) = off / bsz D % 512 := by
    rw [hmodk, ← bsz_pow]
    refine (Nat.mod_eq_of_lt ?_).symm
    apply Nat.div_lt_of_lt_mul
    rw [Nat.mul_comm, ← bsz_succ]
    omega
  have hwalk := walk_look wf hm va off D 0 h0 (by rw [hl0]) hmodD
  rw [Nat.mul_zero, Nat.add_zero, ha] at hwalk
  rw [hidx, hwalk]
  have hL := hlook off (by omega)
  have hshift : ∀ r, r ∈ mms → Spec.Contains r va → InR (shift base r) off := by
    intro r hr hc
    have := hbase r hr
    have := hc.1
    have := hc.2
    refine ⟨?_, ?_⟩
    · show r.baseVa - base ≤ off
      omega
    · show off < r.baseVa - base + r.size
      omega
  constructor
  · intro r hr hc hnt
    have hM := hL.1 _ (List.mem_map_of_mem hr) (hshift r hr hc)
    obtain ⟨m1, m2, m3, m4⟩ := hM
    have hK := hchk _ (List.mem_map_of_mem hr)
    have hb2 := hK.paEnd
    generalize look c s D 0 off = x at m1 m2 m3 m4 ⊢
    obtain ⟨v, d⟩ := x
    simp only [shift] at m1 m2 m3 m4 hb2
    have hbp := bsz_pos d
    have hdm := Nat.div_add_mod off (bsz d)
    have hmc := Nat.mul_comm (bsz d) (off / bsz d)
    have hml := Nat.mod_lt off hbp
    have hbr := hbase r hr
    have hc1 := hc.1
    have hb : r.basePa + (off / bsz d * bsz d - (r.baseVa - base)) <
        2 ^ (if c.lpa2 then 52 else 48) := by
      refine Nat.lt_of_lt_of_le ?_ (Nat.le_trans hb2 (Nat.pow_le_pow_right (by decide) hpa))
      omega
    obtain ⟨d1, d2, d3, d4⟩ := xlatDesc_decode m4 hnt hb
    unfold leaf
    simp only
    rw [d1, d4, Nat.div_mul_cancel (Nat.dvd_of_mod_eq_zero d2), if_pos]
    · congr 2
      omega
    · by_cases hd : d = 0
      · rw [if_pos hd] at d3
        exact Or.inl ⟨hd, d3⟩
      · rw [if_neg hd] at d3
        exact Or.inr ⟨hd, d3, m3⟩
  · intro hall
    have key : (look c s D 0 off).1.toNat % 4 = 0 := by
      by_cases hex : ∃ r, r ∈ mms ∧ Spec.Contains r va
      · obtain ⟨r, hr, hc⟩ := hex
        have ht := hall r hr hc
        have hM := (hL.1 _ (List.mem_map_of_mem hr) (hshift r hr hc)).2.2.2
        unfold xlatDesc at hM
        rw [if_pos (show mtType (shift base r).attr = MT_TRANSIENT from
          (mtType_eq r.attr 3 (by decide)).mpr ht)] at hM
        rw [← Except.ok.inj hM]
        decide
      · have hz := hL.2 (by
          intro a ha' hI
          obtain ⟨r, hr, rfl⟩ := List.mem_map.mp ha'
          refine hex ⟨r, hr, ?_⟩
          have := hbase r hr
          have h1 : r.baseVa - base ≤ off := hI.1
          have h2 : off < r.baseVa - base + r.size := hI.2
          exact ⟨by omega, by omega⟩)
        rw [hz]; rfl
    unfold leaf
    rw [if_neg]
    rintro (⟨_, h⟩ | ⟨_, h, _⟩) <;> omega

end Verif.Xlat
