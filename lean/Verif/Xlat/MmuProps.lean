import Verif.Xlat.MmuProof
import Verif.Xlat.PropTable

/-
C72: once the MMU is on, every virtual address means what the memory map of
the RMM says, on every processing element.
-/
namespace Verif.Xlat

open Spec (bits)

/-- A processing element has come up: the common address space was built from
the memory map `rs` at cold boot, and this processing element, starting with
arbitrary registers `r`, went through its own start-up and has the MMU on with
the registers `r'`.  `prev` is the table left by an earlier start of the same
processing element, if there was one. -/
structure Started (mmfr0 : BitVec 64) (c : Cpu) (g : Image) (sharedPa extra : Nat)
    (plat rs : List Region) (k lowAddr num : Nat) (lowT : Tabs) (bc : Boot.Cfg)
    (stackPa ehPa hiAddr : Nat) (hiT : Tabs) (r' : Regs) : Prop where
  cpu : cpuOf mmfr0 = .ok c
  cmn : ∃ old, platCmnSetup c g sharedPa extra plat (2 ^ k) lowAddr num old = .ok (rs, lowT)
  pe : ∃ a prev old r, startPe mmfr0 c bc a (2 ^ k) lowAddr stackPa ehPa hiAddr prev old r = .ok (r', hiT) ∧
    ∀ s, prev = some s → ∃ old', setup c true (highRegions bc stackPa ehPa) HIGH_VA_SIZE hiAddr 1 old' = .ok s

/-- What is assumed of the surroundings: addresses and sizes are 64-bit
numbers, the platform asks for supported memory types, and the tables lie in
physical memory. -/
structure Sane (c : Cpu) (g : Image) (sharedPa : Nat) (plat : List Region) (lowAddr num : Nat)
    (bc : Boot.Cfg) (hiAddr : Nat) : Prop where
  image : g.codeS < 2 ^ 64 ∧ g.roS < 2 ^ 64 ∧ g.rwS < 2 ^ 64 ∧ sharedPa < 2 ^ 64
  pages : bc.pages * 4096 < 2 ^ 64
  word : ∀ q, q ∈ plat → Word q
  types : ∀ q, q ∈ plat → Spec.Supported q
  low : lowAddr + 4096 * num ≤ 2 ^ c.paWidth ∧ lowAddr + 4096 * num ≤ 2 ^ 48
  high : hiAddr + 4096 ≤ 2 ^ c.paWidth ∧ hiAddr + 4096 ≤ 2 ^ 48

theorem merge_mem {c : Cpu} {g : Image} {sharedPa extra : Nat} {plat rs : List Region}
    (h : merge c g sharedPa extra plat = .ok rs) (q : Region) :
    q ∈ rs ↔ q ∈ plat ∨ q ∈ common c g sharedPa := by
  unfold merge at h
  split at h
  · cases h
  · split at h
    · rw [← Except.ok.inj h]; simp
    · split at h
      · rw [← Except.ok.inj h, List.mem_append]
      · rw [← Except.ok.inj h]
        rw [List.mem_append]
        exact Or.comm

theorem wsub_lt (a b : Nat) : wsub a b < 2 ^ 64 := Nat.mod_lt _ (by decide)

theorem common_word {c : Cpu} {g : Image} {sharedPa : Nat}
    (h : g.codeS < 2 ^ 64 ∧ g.roS < 2 ^ 64 ∧ g.rwS < 2 ^ 64 ∧ sharedPa < 2 ^ 64) (q : Region)
    (hq : q ∈ common c g sharedPa) : Word q ∧ Spec.Supported q := by
  unfold common flat at hq
  have e : ∀ v : BitVec 64, v = MT_CODE ∨ v = MT_RO_DATA ∨ v = MT_RW_DATA → v.toNat % 16 = 2 := by
    rintro v (rfl | rfl | rfl) <;> decide
  simp only [List.mem_cons, List.not_mem_nil, or_false] at hq
  rcases hq with rfl | rfl | rfl | rfl
  · exact ⟨⟨h.1, h.1, wsub_lt _ _⟩, Or.inr (Or.inl (e _ (by simp)))⟩
  · exact ⟨⟨h.2.1, h.2.1, wsub_lt _ _⟩, Or.inr (Or.inl (e _ (by simp)))⟩
  · exact ⟨⟨h.2.2.1, h.2.2.1, wsub_lt _ _⟩, Or.inr (Or.inl (e _ (by simp)))⟩
  · exact ⟨⟨h.2.2.2, Nat.mod_lt _ (by decide), show 4096 < 2 ^ 64 by decide⟩,
      Or.inr (Or.inl (e _ (by simp)))⟩

theorem high_word {bc : Boot.Cfg} {stackPa ehPa : Nat} (hp : bc.pages * 4096 < 2 ^ 64) (q : Region)
    (hq : q ∈ highRegions bc stackPa ehPa) : Word q ∧ Spec.Supported q := by
  unfold highRegions at hq
  simp only [List.mem_cons, List.not_mem_nil, or_false] at hq
  rcases hq with rfl | rfl | rfl
  · exact ⟨⟨wsub_lt _ _, BitVec.isLt _, show 4096 < 2 ^ 64 by decide⟩,
      Or.inr (Or.inl (show NG_DATA_ATTR.toNat % 16 = 2 by decide))⟩
  · exact ⟨⟨wsub_lt _ _, BitVec.isLt _, hp⟩,
      Or.inr (Or.inl (show NG_DATA_ATTR.toNat % 16 = 2 by decide))⟩
  · exact ⟨⟨by decide, BitVec.isLt _, by decide⟩, Or.inr (Or.inr (by decide))⟩

/-- Memory cut off at the configured size still holds the tables. -/
theorem holds_cut {m : Nat → BitVec 64} {s : Tabs} {p : Nat} (h : Spec.Holds m s)
    (hb : s.addr + 4096 * s.num ≤ 2 ^ p) :
    Spec.Holds (fun a => if a < 2 ^ p then m a else 0#64) s := by
  intro t i ht hi
  simp only
  rw [if_pos, h t i ht hi]
  omega

theorem setup_addr {c : Cpu} {high : Bool} {mms : List Region} {vaSize addr num : Nat}
    {old : Nat → Nat → BitVec 64} {s : Tabs}
    (hpa : c.paWidth ≤ (if c.lpa2 then 52 else 48)) (hw : ∀ r, r ∈ mms → Word r)
    (hty : ∀ r, r ∈ mms → Spec.Supported r) (hfit : addr + 4096 * num ≤ 2 ^ 48)
    (h : setup c high mms vaSize addr num old = .ok s) :
    s.addr = addr ∧ s.num = num ∧ addr % 4096 = 0 ∧
      vaSize ≤ (if c.lpa2 then 2 ^ 52 else 2 ^ 48) ∧ 2 ^ 16 ≤ vaSize := by
  rcases setup_built (vaSize := vaSize) (high := high) (old := old) hpa hw hty hfit with
    ⟨e, he, _⟩ | ⟨s', hs', _, ha, hn, _, _, _, h6, h7⟩
  · rw [he] at h; cases h
  have hss := h
  rw [hs'] at hss
  obtain rfl := Except.ok.inj hss
  refine ⟨ha, hn, ?_, h6, h7⟩
  unfold setup at h
  cases hc : cfgInit c high mms vaSize with
  | error e => rw [hc, except_bind_error] at h; cases h
  | ok out =>
    rw [hc, except_bind_ok] at h
    unfold ctxInit at h
    split at h
    · cases h
    · split at h
      · cases h
      · rename_i hz
        omega

theorem setup_size {c : Cpu} {high : Bool} {mms : List Region} {vaSize addr num : Nat}
    {old : Nat → Nat → BitVec 64} {s : Tabs} (h : setup c high mms vaSize addr num old = .ok s) :
    2 ^ 16 ≤ vaSize ∧ vaSize ≤ (if c.lpa2 then 2 ^ 52 else 2 ^ 48) := by
  unfold setup at h
  cases hc : cfgInit c high mms vaSize with
  | error e => rw [hc, except_bind_error] at h; cases h
  | ok out =>
    unfold cfgInit at hc
    by_cases h1 : vaSize % 4096 ≠ 0
    · rw [if_pos h1] at hc; cases hc
    rw [if_neg h1] at hc
    by_cases h2 : vaSize > (if c.lpa2 then 2 ^ 52 else 2 ^ 48) ∨ vaSize < 2 ^ 16
    · rw [if_pos h2] at hc; cases hc
    omega

/-- What `Started` says, unfolded. -/
theorem started_ok {mmfr0 : BitVec 64} {c : Cpu} {g : Image} {sharedPa extra : Nat}
    {plat rs : List Region} {k lowAddr num : Nat} {lowT : Tabs} {bc : Boot.Cfg}
    {stackPa ehPa hiAddr : Nat} {hiT : Tabs} {r' : Regs}
    (h : Started mmfr0 c g sharedPa extra plat rs k lowAddr num lowT bc stackPa ehPa hiAddr hiT r') :
    merge c g sharedPa extra plat = .ok rs ∧
    (∃ old, setup c false rs (2 ^ k) lowAddr num old = .ok lowT) ∧
    (∃ old, setup c true (highRegions bc stackPa ehPa) (2 ^ 21) hiAddr 1 old = .ok hiT) ∧
    16 ≤ k ∧ k ≤ (if c.lpa2 then 52 else 48) ∧ c.paWidth ≤ (if c.lpa2 then 52 else 48) ∧
    granule4k mmfr0 = true ∧
    ∃ n a, (n < 7 ∧ psBits c.lpa2 ((1#64 <<< c.paWidth) - 1#64) = some (BitVec.ofNat 64 n <<< 32)) ∧
      Spec.psWidth c.lpa2 n = c.paWidth ∧
      r' = finalRegs c.lpa2 n (64 - k) lowAddr hiAddr a bc := by
  obtain ⟨hcpu, ⟨oldL, hcmn⟩, ⟨a, prev, old, r, hpe, hprev⟩⟩ := h
  have hmerge : merge c g sharedPa extra plat = .ok rs ∧
      setup c false rs (2 ^ k) lowAddr num oldL = .ok lowT := by
    unfold platCmnSetup at hcmn
    cases h1 : merge c g sharedPa extra plat with
    | error e => rw [h1] at hcmn; cases hcmn
    | ok rs' =>
      rw [h1] at hcmn
      cases h2 : setup c false rs' (2 ^ k) lowAddr num oldL with
      | error e => simp [h2, bind, Except.bind] at hcmn
      | ok s =>
        simp only [h2, bind, Except.bind, pure, Except.pure] at hcmn
        obtain ⟨e1, e2⟩ := Prod.mk.inj (Except.ok.inj hcmn)
        subst e1 e2
        exact ⟨rfl, h2⟩
  have hc : c.lpa2 = lpa2Present mmfr0 ∧ paWidthOf mmfr0 = .ok c.paWidth := by
    unfold cpuOf at hcpu
    cases hw : paWidthOf mmfr0 with
    | error e => rw [hw] at hcpu; cases hcpu
    | ok w =>
      rw [hw] at hcpu
      have := Except.ok.inj hcpu
      rw [← this]
      exact ⟨rfl, rfl⟩
  obtain ⟨z1, z2⟩ := setup_size hmerge.2
  have hk1 : 16 ≤ k := by
    by_contra hn
    have := (pow_gt (a := 16) (b := k)).mpr (by omega)
    omega
  have hk2 : k ≤ (if c.lpa2 then 52 else 48) := by
    by_contra hn
    cases hl : c.lpa2 with
    | false =>
      rw [hl] at z2 hn
      simp only [Bool.false_eq_true, if_false] at z2 hn
      have := (pow_gt (a := k) (b := 48)).mpr (by omega)
      omega
    | true =>
      rw [hl] at z2 hn
      simp only [if_true] at z2 hn
      have := (pow_gt (a := k) (b := 52)).mpr (by omega)
      omega
  have hk3 : k ≤ 52 := Nat.le_trans hk2 (by split <;> decide)
  have ht : txsz (2 ^ k) = 64 - k := by
    have := txsz_pow (k := k) (by omega)
    unfold txsz at this ⊢
    rw [show ctz (2 ^ k) = k from ctz_go_pow k 64 (by omega)]
  obtain ⟨g1, w, n, g2, g3, g4, g5, g6, g7⟩ := startPe_ok (by omega) hpe
  have hww : w = c.paWidth := by
    rw [hc.2] at g2; exact (Except.ok.inj g2).symm
  subst hww
  rw [ht] at g7
  rw [← hc.1] at g3 g4 g5 g7
  refine ⟨hmerge.1, ⟨oldL, hmerge.2⟩, ?_, hk1, hk2, g5, g1, n, a, g3, g4, g7⟩
  cases prev with
  | none => exact ⟨old, g6⟩
  | some s =>
    simp only at g6
    obtain ⟨old', ho⟩ := hprev s rfl
    exact ⟨old', by rw [← g6]; exact ho⟩

theorem mair_bits (attr : BitVec 64) :
    bits mairVal (8 * (Spec.wanted attr).memIndex) 8 = Spec.wantedMair attr := by
  unfold Spec.wanted Spec.wantedMair
  by_cases h : attr.toNat % 16 = 0
  · simp only [h, decide_true, if_true]; decide
  · simp only [h, decide_false, if_false, Bool.false_eq_true]; decide

/-- **C72.** With the MMU on, every address of the memory map translates to the
physical address, permissions, memory type and shareability its region asks
for, and every other address faults. -/
theorem C72_map {mmfr0 : BitVec 64} {c : Cpu} {g : Image} {sharedPa extra : Nat}
    {plat rs : List Region} {k lowAddr num : Nat} {lowT : Tabs} {bc : Boot.Cfg}
    {stackPa ehPa hiAddr : Nat} {hiT : Tabs} {r' : Regs} {m : Nat → BitVec 64} {va : Nat}
    (h : Started mmfr0 c g sharedPa extra plat rs k lowAddr num lowT bc stackPa ehPa hiAddr hiT r')
    (hs : Sane c g sharedPa plat lowAddr num bc hiAddr)
    (hml : Spec.Holds m lowT) (hmh : Spec.Holds m hiT) (hva : va < 2 ^ 64) :
    (∀ q, q ∈ rs ++ highRegions bc stackPa ehPa → Spec.Contains q va → ¬ Spec.Transient q →
      Spec.stage1 c.paWidth r' m va =
        .ok (q.basePa + (va - q.baseVa)) (Spec.wanted q.attr) (Spec.wantedMair q.attr)
          (Spec.wantedShare q.attr)) ∧
    ((∀ q, q ∈ rs ++ highRegions bc stackPa ehPa → Spec.Contains q va → Spec.Transient q) →
      Spec.stage1 c.paWidth r' m va = .fault) := by
  obtain ⟨hmg, ⟨oldL, hlow⟩, ⟨oldH, hhigh⟩, hk1, hk2, hpa, _, n, a, ⟨hn, _⟩, hps, rfl⟩ := started_ok h
  have hk3 : k ≤ 52 := Nat.le_trans hk2 (by split <;> decide)
  have hwl : ∀ q, q ∈ rs → Word q ∧ Spec.Supported q := by
    intro q hq
    rcases (merge_mem hmg q).mp hq with h | h
    · exact ⟨hs.word q h, hs.types q h⟩
    · exact common_word hs.image q h
  have hwh : ∀ q, q ∈ highRegions bc stackPa ehPa → Word q ∧ Spec.Supported q := high_word hs.pages
  obtain ⟨l1, l2, l3, _⟩ := setup_addr hpa (fun q hq => (hwl q hq).1) (fun q hq => (hwl q hq).2) hs.low.2 hlow
  obtain ⟨u1, u2, u3, _⟩ := setup_addr hpa (fun q hq => (hwh q hq).1) (fun q hq => (hwh q hq).2)
    (by have := hs.high.2; omega) hhigh
  have ml := holds_cut hml (p := c.paWidth) (by rw [l1, l2]; exact hs.low.1)
  have mh := holds_cut hmh (p := c.paWidth) (by rw [u1, u2]; have := hs.high.1; omega)
  have wl := word_main hpa (fun q hq => (hwl q hq).1) (fun q hq => (hwl q hq).2) hs.low.2 hlow ml hva
  have wh := word_main hpa (fun q hq => (hwh q hq).1) (fun q hq => (hwh q hq).2)
    (by have := hs.high.2; omega) hhigh mh hva
  simp only [Bool.false_eq_true, if_false] at wl
  simp only [if_true] at wh
  have hlb : lowAddr < 2 ^ 48 := by
    have := hs.low.2
    have hnum : num ≠ 0 := by
      intro h0
      subst h0
      unfold setup at hlow
      cases hc : cfgInit c false rs (2 ^ k) with
      | error e => rw [hc, except_bind_error] at hlow; cases hlow
      | ok out =>
        rw [hc, except_bind_ok] at hlow
        unfold ctxInit at hlow
        rw [if_pos (Or.inr rfl)] at hlow
        cases hlow
    omega
  have e0 := fun hi hhi k' hk' => stage1_eq (w := c.paWidth) (va := va) (m := m) (a := a) (bc := bc) hn hps
    (t := 64 - k) ⟨by split at hk2 <;> rename_i hl <;> simp only [hl] <;> simp <;> omega, by omega⟩
    ⟨l3, hlb⟩ ⟨u3, by have := hs.high.2; omega⟩ hi hhi k' hk'
  have hfold : ∀ (q : Region) n' e,
      Spec.outAddr c.lpa2 e / 2 ^ (12 + 9 * n') * 2 ^ (12 + 9 * n') + va % 2 ^ (12 + 9 * n') =
          q.basePa + (va - q.baseVa) → Spec.decode e = Spec.wanted q.attr →
      (c.lpa2 = false → q.attr.toNat % 16 ≠ 0 → bits e 8 2 = 3) →
      q.basePa + (va - q.baseVa) < 2 ^ c.paWidth →
      (if Spec.outAddr c.lpa2 e / 2 ^ (12 + 9 * n') * 2 ^ (12 + 9 * n') + va % 2 ^ (12 + 9 * n') < 2 ^ c.paWidth then
            Spec.S1.ok (Spec.outAddr c.lpa2 e / 2 ^ (12 + 9 * n') * 2 ^ (12 + 9 * n') + va % 2 ^ (12 + 9 * n'))
              (Spec.decode e) (bits mairVal (8 * (Spec.decode e).memIndex) 8)
              (if bits mairVal (8 * (Spec.decode e).memIndex) 8 < 16 then 2
                else if c.lpa2 then 3 else bits e 8 2)
          else .fault) = .ok (q.basePa + (va - q.baseVa)) (Spec.wanted q.attr) (Spec.wantedMair q.attr)
          (Spec.wantedShare q.attr) := by
    intro q n' e e1 e2 e3 e4
    rw [e1, if_pos e4, e2, mair_bits]
    congr 1
    unfold Spec.wantedMair Spec.wantedShare
    by_cases hd : q.attr.toNat % 16 = 0
    · rw [if_pos hd, if_pos hd]; rfl
    · rw [if_neg hd, if_neg hd, if_neg (by decide)]
      cases hl : c.lpa2 with
      | true => rfl
      | false => rw [if_neg (by decide)]; exact e3 hl hd
  have k64 : 64 - (64 - k) = k := by omega
  have pk : 2 ^ k ≤ 2 ^ 52 := Nat.pow_le_pow_right (by decide) hk3
  constructor
  · intro q hq hcq hnt
    rcases List.mem_append.mp hq with hq | hq
    · obtain ⟨r1, n', e, r2, r3, r4, r5, r6⟩ := wl.1 q hq hcq hnt
      rw [e0 false (by rw [decide_eq_false]; omega) k (by simp only [Bool.false_eq_true, if_false]; omega)]
      simp only [Bool.false_eq_true, if_false]
      rw [if_pos r1, r2]
      exact hfold q n' e r3 r4 r5 r6
    · obtain ⟨r1, n', e, r2, r3, r4, r5, r6⟩ := wh.1 q hq hcq hnt
      rw [e0 true (by rw [decide_eq_true]; omega) 21 (by simp)]
      simp only [if_true]
      rw [if_pos r1, r2]
      exact hfold q n' e r3 r4 r5 r6
  · intro hout
    by_cases hb : va / 2 ^ 55 % 2 = 1
    · rw [e0 true (decide_eq_true hb) 21 (by simp)]
      simp only [if_true]
      split
      · rename_i hr
        rw [wh.2 hr (fun q hq => hout q (List.mem_append_right _ hq))]
      · rfl
    · rw [e0 false (decide_eq_false hb) k (by simp only [Bool.false_eq_true, if_false]; omega)]
      simp only [Bool.false_eq_true, if_false]
      split
      · rename_i hr
        rw [wl.2 hr (fun q hq => hout q (List.mem_append_left _ hq))]
      · rfl

/-- A translation that succeeds comes from a region of the map. -/
theorem region_of {mmfr0 : BitVec 64} {c : Cpu} {g : Image} {sharedPa extra : Nat}
    {plat rs : List Region} {k lowAddr num : Nat} {lowT : Tabs} {bc : Boot.Cfg}
    {stackPa ehPa hiAddr : Nat} {hiT : Tabs} {r' : Regs} {m : Nat → BitVec 64} {va : Nat}
    (h : Started mmfr0 c g sharedPa extra plat rs k lowAddr num lowT bc stackPa ehPa hiAddr hiT r')
    (hs : Sane c g sharedPa plat lowAddr num bc hiAddr)
    (hml : Spec.Holds m lowT) (hmh : Spec.Holds m hiT) (hva : va < 2 ^ 64)
    {pa : Nat} {at' : Spec.Attrs} {mr sh : Nat}
    (ht : Spec.stage1 c.paWidth r' m va = .ok pa at' mr sh) :
    ∃ q, (q ∈ plat ∨ q ∈ common c g sharedPa ∨ q ∈ highRegions bc stackPa ehPa) ∧
      Spec.Contains q va ∧ ¬ Spec.Transient q ∧ pa = q.basePa + (va - q.baseVa) ∧
      at' = Spec.wanted q.attr := by
  have main := C72_map h hs hml hmh hva
  obtain ⟨hmg, _⟩ := started_ok h
  by_cases hex : ∃ q, q ∈ rs ++ highRegions bc stackPa ehPa ∧ Spec.Contains q va ∧ ¬ Spec.Transient q
  · obtain ⟨q, hq, hc, hnt⟩ := hex
    have := main.1 q hq hc hnt
    rw [ht] at this
    injection this with p1 p2
    refine ⟨q, ?_, hc, hnt, p1, p2⟩
    rcases List.mem_append.mp hq with hq | hq
    · rcases (merge_mem hmg q).mp hq with h | h
      · exact Or.inl h
      · exact Or.inr (Or.inl h)
    · exact Or.inr (Or.inr hq)
  · have := main.2 (by
      intro q hq hc
      by_contra hnt
      exact hex ⟨q, hq, hc, hnt⟩)
    rw [ht] at this
    cases this

/-- **C72.** Nothing writable is executable, by the descriptors and, should a
descriptor ever say otherwise, by SCTLR_EL2.WXN (bit 19); and nothing the
platform did not ask for is open to EL0. -/
theorem C72_write_xor_execute {mmfr0 : BitVec 64} {c : Cpu} {g : Image} {sharedPa extra : Nat}
    {plat rs : List Region} {k lowAddr num : Nat} {lowT : Tabs} {bc : Boot.Cfg}
    {stackPa ehPa hiAddr : Nat} {hiT : Tabs} {r' : Regs} {m : Nat → BitVec 64} {va : Nat}
    (h : Started mmfr0 c g sharedPa extra plat rs k lowAddr num lowT bc stackPa ehPa hiAddr hiT r')
    (hs : Sane c g sharedPa plat lowAddr num bc hiAddr)
    (hml : Spec.Holds m lowT) (hmh : Spec.Holds m hiT) (hva : va < 2 ^ 64)
    {pa : Nat} {at' : Spec.Attrs} {mr sh : Nat}
    (ht : Spec.stage1 c.paWidth r' m va = .ok pa at' mr sh) :
    (at'.readOnly = false → at'.privNoExec = true) ∧ bits r'.sctlr 19 1 = 1 ∧
    ((∀ q, q ∈ plat → q.attr.getLsbD 9 = false ∧ q.attr.getLsbD 10 = false) →
      at'.unprivAccess = false ∧ at'.unprivNoExec = true) := by
  obtain ⟨q, hq, _, _, _, rfl⟩ := region_of h hs hml hmh hva ht
  obtain ⟨_, _, _, _, _, _, _, n, a, _, _, rfl⟩ := started_ok h
  refine ⟨?_, ?_, ?_⟩
  · unfold Spec.wanted
    simp only [Bool.not_eq_false']
    intro hw
    simp [hw]
  · have : ∀ a, bits (SCTLR_EL2_INIT a ||| ((1#64 <<< 19) ||| 1#64)) 19 1 = 1 := by decide
    exact this a
  · intro hp
    have hz : q.attr.getLsbD 9 = false ∧ q.attr.getLsbD 10 = false := by
      rcases hq with hq | hq | hq
      · exact hp q hq
      · unfold common flat at hq
        simp only [List.mem_cons, List.not_mem_nil, or_false] at hq
        rcases hq with rfl | rfl | rfl | rfl
        · exact (by decide : MT_CODE.getLsbD 9 = false ∧ MT_CODE.getLsbD 10 = false)
        · exact (by decide : MT_RO_DATA.getLsbD 9 = false ∧ MT_RO_DATA.getLsbD 10 = false)
        · exact (by decide : MT_RW_DATA.getLsbD 9 = false ∧ MT_RW_DATA.getLsbD 10 = false)
        · exact (by decide : MT_RW_DATA.getLsbD 9 = false ∧ MT_RW_DATA.getLsbD 10 = false)
      · unfold highRegions at hq
        simp only [List.mem_cons, List.not_mem_nil, or_false] at hq
        rcases hq with rfl | rfl | rfl
        · exact (by decide : NG_DATA_ATTR.getLsbD 9 = false ∧ NG_DATA_ATTR.getLsbD 10 = false)
        · exact (by decide : NG_DATA_ATTR.getLsbD 9 = false ∧ NG_DATA_ATTR.getLsbD 10 = false)
        · exact (by decide : MT_TRANSIENT.getLsbD 9 = false ∧ MT_TRANSIENT.getLsbD 10 = false)
    unfold Spec.wanted
    simp only [hz.1, hz.2, Bool.not_false, and_self]

/-- **C72.** If the platform asks for no executable memory, the processor
executes only the code of the RMM, and that where it was loaded. -/
theorem C72_code_only {mmfr0 : BitVec 64} {c : Cpu} {g : Image} {sharedPa extra : Nat}
    {plat rs : List Region} {k lowAddr num : Nat} {lowT : Tabs} {bc : Boot.Cfg}
    {stackPa ehPa hiAddr : Nat} {hiT : Tabs} {r' : Regs} {m : Nat → BitVec 64} {va : Nat}
    (h : Started mmfr0 c g sharedPa extra plat rs k lowAddr num lowT bc stackPa ehPa hiAddr hiT r')
    (hs : Sane c g sharedPa plat lowAddr num bc hiAddr) (hg : g.codeS ≤ g.codeE)
    (hplat : ∀ q, q ∈ plat → (Spec.wanted q.attr).privNoExec = true)
    (hml : Spec.Holds m lowT) (hmh : Spec.Holds m hiT) (hva : va < 2 ^ 64)
    {pa : Nat} {at' : Spec.Attrs} {mr sh : Nat}
    (ht : Spec.stage1 c.paWidth r' m va = .ok pa at' mr sh) (hx : at'.privNoExec = false) :
    g.codeS ≤ va ∧ va < g.codeE ∧ pa = va := by
  obtain ⟨q, hq, hc, _, hpa, rfl⟩ := region_of h hs hml hmh hva ht
  rcases hq with hq | hq | hq
  · rw [hplat q hq] at hx; cases hx
  · unfold common flat at hq
    simp only [List.mem_cons, List.not_mem_nil, or_false] at hq
    rcases hq with rfl | rfl | rfl | rfl
    · have h1 : g.codeS ≤ va := hc.1
      have h2 : va < g.codeS + wsub g.codeE g.codeS := hc.2
      have h3 : pa = g.codeS + (va - g.codeS) := hpa
      have := hs.image.1
      unfold wsub at h2
      refine ⟨h1, ?_, by omega⟩
      by_cases hE : g.codeE < 2 ^ 64 <;> omega
    · exact absurd hx (show ¬ (Spec.wanted MT_RO_DATA).privNoExec = false by decide)
    · exact absurd hx (show ¬ (Spec.wanted MT_RW_DATA).privNoExec = false by decide)
    · exact absurd hx (show ¬ (Spec.wanted MT_RW_DATA).privNoExec = false by decide)
  · unfold highRegions at hq
    simp only [List.mem_cons, List.not_mem_nil, or_false] at hq
    rcases hq with rfl | rfl | rfl
    · exact absurd hx (show ¬ (Spec.wanted NG_DATA_ATTR).privNoExec = false by decide)
    · exact absurd hx (show ¬ (Spec.wanted NG_DATA_ATTR).privNoExec = false by decide)
    · rename_i hnt
      exact absurd (show MT_TRANSIENT.toNat % 16 = 3 by decide) hnt

/-- **C72.** No address gives write access to the code, the constants or the
static translation tables (which the linker puts with the constants), if the
platform's regions are mapped where they are and neither the shared buffer nor
a stack lies over them. -/
theorem C72_ro_protected {mmfr0 : BitVec 64} {c : Cpu} {g : Image} {sharedPa extra : Nat}
    {plat rs : List Region} {k lowAddr num : Nat} {lowT : Tabs} {bc : Boot.Cfg}
    {stackPa ehPa hiAddr : Nat} {hiT : Tabs} {r' : Regs} {m : Nat → BitVec 64} {va : Nat}
    (h : Started mmfr0 c g sharedPa extra plat rs k lowAddr num lowT bc stackPa ehPa hiAddr hiT r')
    (hs : Sane c g sharedPa plat lowAddr num bc hiAddr)
    (hg : g.codeS ≤ g.codeE ∧ g.codeE < 2 ^ 64 ∧ g.roS ≤ g.roE ∧ g.roE < 2 ^ 64)
    (hplat : ∀ q, q ∈ plat → q.basePa = q.baseVa)
    (hst : bc.pages * 4096 ≤ stackPa ∧ stackPa < 2 ^ 64) (heh : 4096 ≤ ehPa ∧ ehPa < 2 ^ 64)
    (hml : Spec.Holds m lowT) (hmh : Spec.Holds m hiT) (hva : va < 2 ^ 64)
    {pa : Nat} {at' : Spec.Attrs} {mr sh : Nat}
    (ht : Spec.stage1 c.paWidth r' m va = .ok pa at' mr sh) (hw : at'.readOnly = false)
    (out : ∀ x, sharedPa ≤ x ∧ x < sharedPa + 4096 ∨ stackPa - bc.pages * 4096 ≤ x ∧ x < stackPa ∨
      ehPa - 4096 ≤ x ∧ x < ehPa → (x < g.codeS ∨ g.codeE ≤ x) ∧ (x < g.roS ∨ g.roE ≤ x)) :
    (pa < g.codeS ∨ g.codeE ≤ pa) ∧ (pa < g.roS ∨ g.roE ≤ pa) := by
  have main := C72_map h hs hml hmh hva
  have hmem := fun q => (merge_mem (started_ok h).1 q).mpr
  have c1 : wsub g.codeE g.codeS = g.codeE - g.codeS := by have := hs.image.1; unfold wsub; omega
  have c2 : wsub g.roE g.roS = g.roE - g.roS := by have := hs.image.2.1; unfold wsub; omega
  have hflat : pa = va → (pa < g.codeS ∨ g.codeE ≤ pa) ∧ (pa < g.roS ∨ g.roE ≤ pa) := by
    intro e
    constructor
    · by_contra hn
      have := main.1 (flat c g.codeS (wsub g.codeE g.codeS) MT_CODE)
        (List.mem_append_left _ (hmem _ (Or.inr (by unfold common; simp))))
        ⟨by show g.codeS ≤ va; omega, by show va < g.codeS + wsub g.codeE g.codeS; omega⟩
        (by show ¬ MT_CODE.toNat % 16 = 3; decide)
      rw [ht] at this
      injection this with _ e2
      rw [e2] at hw
      exact absurd hw (show ¬ (Spec.wanted MT_CODE).readOnly = false by decide)
    · by_contra hn
      have := main.1 (flat c g.roS (wsub g.roE g.roS) MT_RO_DATA)
        (List.mem_append_left _ (hmem _ (Or.inr (by unfold common; simp))))
        ⟨by show g.roS ≤ va; omega, by show va < g.roS + wsub g.roE g.roS; omega⟩
        (by show ¬ MT_RO_DATA.toNat % 16 = 3; decide)
      rw [ht] at this
      injection this with _ e2
      rw [e2] at hw
      exact absurd hw (show ¬ (Spec.wanted MT_RO_DATA).readOnly = false by decide)
  obtain ⟨q, hq, hc, hnt, hpa, hat⟩ := region_of h hs hml hmh hva ht
  have hfl : q.basePa = q.baseVa → pa = va := by
    intro e
    have := hc.1
    omega
  rcases hq with hq | hq | hq
  · exact hflat (hfl (hplat q hq))
  · unfold common flat at hq
    simp only [List.mem_cons, List.not_mem_nil, or_false] at hq
    rcases hq with rfl | rfl | rfl | rfl
    · exact hflat (hfl rfl)
    · exact hflat (hfl rfl)
    · exact hflat (hfl rfl)
    · have h1 : wadd g.rwE 4096 ≤ va := hc.1
      have h2 : va < wadd g.rwE 4096 + 4096 := hc.2
      have h3 : pa = sharedPa + (va - wadd g.rwE 4096) := hpa
      exact out pa (Or.inl (by omega))
  · unfold highRegions at hq
    simp only [List.mem_cons, List.not_mem_nil, or_false] at hq
    rcases hq with rfl | rfl | rfl
    · have h1 : (Boot.ehVirt bc).toNat ≤ va := hc.1
      have h2 : va < (Boot.ehVirt bc).toNat + 4096 := hc.2
      have h3 : pa = wsub ehPa 4096 + (va - (Boot.ehVirt bc).toNat) := hpa
      have w1 : wsub ehPa 4096 = ehPa - 4096 := by unfold wsub; omega
      exact out pa (Or.inr (Or.inr (by omega)))
    · have h1 : (Boot.stackVirt bc).toNat ≤ va := hc.1
      have h2 : va < (Boot.stackVirt bc).toNat + bc.pages * 4096 := hc.2
      have h3 : pa = wsub stackPa (bc.pages * 4096) + (va - (Boot.stackVirt bc).toNat) := hpa
      have w2 : wsub stackPa (bc.pages * 4096) = stackPa - bc.pages * 4096 := by unfold wsub; omega
      exact out pa (Or.inr (Or.inl (by omega)))
    · exact absurd (show MT_TRANSIENT.toNat % 16 = 3 by decide) hnt

/-! ### The layout of the stacks -/

theorem slotVirt_nat : Boot.slotVirt.toNat = 2 ^ 64 - 108 * 4096 := by decide

theorem stackEnd_nat : Boot.stackEndVa.toNat = 2 ^ 64 - 109 * 4096 := by decide

theorem stackVirt_nat {bc : Boot.Cfg} (h : bc.pages + 111 ≤ 512) :
    (Boot.stackVirt bc).toNat = 2 ^ 64 - (109 + bc.pages) * 4096 := by
  unfold Boot.stackVirt
  rw [BitVec.toNat_sub, stackEnd_nat, BitVec.toNat_ofNat]
  omega

theorem ehEnd_nat {bc : Boot.Cfg} (h : bc.pages + 111 ≤ 512) :
    (Boot.ehEndVa bc).toNat = 2 ^ 64 - (110 + bc.pages) * 4096 := by
  unfold Boot.ehEndVa
  rw [BitVec.toNat_sub, stackVirt_nat h, show (4096 : BitVec 64).toNat = 4096 from rfl]
  omega

theorem ehVirt_nat {bc : Boot.Cfg} (h : bc.pages + 111 ≤ 512) :
    (Boot.ehVirt bc).toNat = 2 ^ 64 - (111 + bc.pages) * 4096 := by
  unfold Boot.ehVirt
  rw [BitVec.toNat_sub, ehEnd_nat h, show (4096 : BitVec 64).toNat = 4096 from rfl]
  omega

/-- The regions common to all processing elements lie in the lower half. -/
theorem low_below {mmfr0 : BitVec 64} {c : Cpu} {g : Image} {sharedPa extra : Nat}
    {plat rs : List Region} {k lowAddr num : Nat} {lowT : Tabs} {bc : Boot.Cfg}
    {stackPa ehPa hiAddr : Nat} {hiT : Tabs} {r' : Regs}
    (h : Started mmfr0 c g sharedPa extra plat rs k lowAddr num lowT bc stackPa ehPa hiAddr hiT r')
    (hs : Sane c g sharedPa plat lowAddr num bc hiAddr) (q : Region) (hq : q ∈ rs) :
    q.baseVa + q.size ≤ 2 ^ 52 := by
  obtain ⟨hmg, ⟨oldL, hlow⟩, _, hk1, hk2, hpa, _⟩ := started_ok h
  have hk3 : k ≤ 52 := Nat.le_trans hk2 (by split <;> decide)
  have hwl : ∀ q, q ∈ rs → Word q ∧ Spec.Supported q := by
    intro q hq
    rcases (merge_mem hmg q).mp hq with h | h
    · exact ⟨hs.word q h, hs.types q h⟩
    · exact common_word hs.image q h
  rcases setup_built (vaSize := 2 ^ k) (high := false) (old := oldL) hpa (fun q hq => (hwl q hq).1)
      (fun q hq => (hwl q hq).2) hs.low.2 with ⟨e, he, _⟩ | ⟨s', _, _, _, _, _, hchk, _⟩
  · rw [hlow] at he; cases he
  have h1 := (hchk _ (List.mem_map_of_mem hq)).vaEnd
  simp only [shift, ctxBaseVa, Bool.false_eq_true, if_false, Nat.sub_zero] at h1
  exact Nat.le_trans h1 (Nat.pow_le_pow_right (by decide) hk3)

/-- **C72.** The stack pointers point to the ends of this processing element's
own stacks, mapped read-write and not global, with an unmapped page on either
side of each; the slot buffers are not mapped yet. -/
theorem C72_stacks {mmfr0 : BitVec 64} {c : Cpu} {g : Image} {sharedPa extra : Nat}
    {plat rs : List Region} {k lowAddr num : Nat} {lowT : Tabs} {bc : Boot.Cfg}
    {stackPa ehPa hiAddr : Nat} {hiT : Tabs} {r' : Regs} {m : Nat → BitVec 64} {va : Nat}
    (h : Started mmfr0 c g sharedPa extra plat rs k lowAddr num lowT bc stackPa ehPa hiAddr hiT r')
    (hs : Sane c g sharedPa plat lowAddr num bc hiAddr) (hp : bc.pages + 111 ≤ 512)
    (hst : bc.pages * 4096 ≤ stackPa ∧ stackPa < 2 ^ 64) (heh : 4096 ≤ ehPa ∧ ehPa < 2 ^ 64)
    (hml : Spec.Holds m lowT) (hmh : Spec.Holds m hiT) (hva : va < 2 ^ 64) :
    (va < r'.sp.toNat → r'.sp.toNat ≤ va + bc.pages * 4096 →
      Spec.stage1 c.paWidth r' m va =
        .ok (stackPa - (r'.sp.toNat - va)) (Spec.wanted NG_DATA_ATTR) 0xff 3) ∧
    (va < r'.spEl0.toNat → r'.spEl0.toNat ≤ va + 4096 →
      Spec.stage1 c.paWidth r' m va =
        .ok (ehPa - (r'.spEl0.toNat - va)) (Spec.wanted NG_DATA_ATTR) 0xff 3) ∧
    (r'.sp.toNat ≤ va → Spec.stage1 c.paWidth r' m va = .fault) ∧
    (r'.spEl0.toNat ≤ va → va + bc.pages * 4096 < r'.sp.toNat → Spec.stage1 c.paWidth r' m va = .fault) ∧
    (2 ^ 52 ≤ va → va + 4096 < r'.spEl0.toNat → Spec.stage1 c.paWidth r' m va = .fault) ∧
    r'.spEl0.toNat + 4096 + bc.pages * 4096 = r'.sp.toNat ∧ r'.sp.toNat + 109 * 4096 = 2 ^ 64 := by
  have main := C72_map h hs hml hmh hva
  have hlo := low_below h hs
  obtain ⟨_, _, _, _, _, _, _, n, a, _, _, rfl⟩ := started_ok h
  have hsp : (finalRegs c.lpa2 n (64 - k) lowAddr hiAddr a bc).sp.toNat = 2 ^ 64 - 109 * 4096 := stackEnd_nat
  have hsp0 : (finalRegs c.lpa2 n (64 - k) lowAddr hiAddr a bc).spEl0.toNat =
    2 ^ 64 - (110 + bc.pages) * 4096 := ehEnd_nat hp
  rw [hsp, hsp0]
  have v1 := slotVirt_nat
  have v2 := stackVirt_nat hp
  have v3 := ehVirt_nat hp
  have w1 : wsub ehPa 4096 = ehPa - 4096 := by unfold wsub; omega
  have w2 : wsub stackPa (bc.pages * 4096) = stackPa - bc.pages * 4096 := by unfold wsub; omega
  have mt : Spec.wantedMair NG_DATA_ATTR = 0xff ∧ Spec.wantedShare NG_DATA_ATTR = 3 := by decide
  have hnt : NG_DATA_ATTR.toNat % 16 ≠ 3 := by decide
  have htr : MT_TRANSIENT.toNat % 16 = 3 := by decide
  have out : 2 ^ 52 ≤ va →
      (∀ q, q ∈ highRegions bc stackPa ehPa → Spec.Contains q va → Spec.Transient q) →
      Spec.stage1 c.paWidth (finalRegs c.lpa2 n (64 - k) lowAddr hiAddr a bc) m va = .fault := by
    intro hv hh
    apply main.2
    intro q hq hc
    rcases List.mem_append.mp hq with hq | hq
    · have := hlo q hq
      have := hc.2
      omega
    · exact hh q hq hc
  have cases3 : ∀ q, q ∈ highRegions bc stackPa ehPa → Spec.Contains q va →
      (2 ^ 64 - (111 + bc.pages) * 4096 ≤ va ∧ va < 2 ^ 64 - (110 + bc.pages) * 4096) ∨
      (2 ^ 64 - (109 + bc.pages) * 4096 ≤ va ∧ va < 2 ^ 64 - 109 * 4096) ∨ Spec.Transient q := by
    intro q hq hc
    unfold highRegions at hq
    simp only [List.mem_cons, List.not_mem_nil, or_false] at hq
    rcases hq with rfl | rfl | rfl
    · have h1 : (Boot.ehVirt bc).toNat ≤ va := hc.1
      have h2 : va < (Boot.ehVirt bc).toNat + 4096 := hc.2
      rw [v3] at h1 h2
      omega
    · have h1 : (Boot.stackVirt bc).toNat ≤ va := hc.1
      have h2 : va < (Boot.stackVirt bc).toNat + bc.pages * 4096 := hc.2
      rw [v2] at h1 h2
      omega
    · exact Or.inr (Or.inr htr)
  refine ⟨?_, ?_, ?_, ?_, ?_, by omega, by omega⟩
  · intro h1 h2
    have := main.1 ⟨wsub stackPa (bc.pages * 4096), (Boot.stackVirt bc).toNat, bc.pages * 4096,
      NG_DATA_ATTR, 4096⟩
      (List.mem_append_right _ (by unfold highRegions; simp))
      ⟨by show (Boot.stackVirt bc).toNat ≤ va; omega,
       by show va < (Boot.stackVirt bc).toNat + bc.pages * 4096; omega⟩ hnt
    rw [this]
    have e : wsub stackPa (bc.pages * 4096) + (va - (Boot.stackVirt bc).toNat) =
        stackPa - (2 ^ 64 - 109 * 4096 - va) := by omega
    show Spec.S1.ok (wsub stackPa (bc.pages * 4096) + (va - (Boot.stackVirt bc).toNat)) _ _ _ = _
    rw [e, mt.1, mt.2]
  · intro h1 h2
    have := main.1 ⟨wsub ehPa 4096, (Boot.ehVirt bc).toNat, 4096, NG_DATA_ATTR, 4096⟩
      (List.mem_append_right _ (by unfold highRegions; simp))
      ⟨by show (Boot.ehVirt bc).toNat ≤ va; omega,
       by show va < (Boot.ehVirt bc).toNat + 4096; omega⟩ hnt
    rw [this]
    have e : wsub ehPa 4096 + (va - (Boot.ehVirt bc).toNat) =
        ehPa - (2 ^ 64 - (110 + bc.pages) * 4096 - va) := by omega
    show Spec.S1.ok (wsub ehPa 4096 + (va - (Boot.ehVirt bc).toNat)) _ _ _ = _
    rw [e, mt.1, mt.2]
  · intro h1
    refine out (by omega) (fun q hq hc => ?_)
    rcases cases3 q hq hc with h | h | h
    · omega
    · omega
    · exact h
  · intro h1 h2
    refine out (by omega) (fun q hq hc => ?_)
    rcases cases3 q hq hc with h | h | h
    · omega
    · omega
    · exact h
  · intro h1 h2
    refine out (by omega) (fun q hq hc => ?_)
    rcases cases3 q hq hc with h | h | h
    · omega
    · omega
    · exact h

theorem bit0_set (x : BitVec 64) : bits (x ||| 1#64) 0 1 = 1 := by
  unfold Spec.bits
  rw [BitVec.toNat_or, Nat.pow_zero, Nat.div_one, show (1#64).toNat = 1 from rfl, Nat.pow_one,
    Nat.or_mod_two_eq_one]
  exact Or.inr rfl

theorem bit0_clear (x : BitVec 64) : bits (x &&& ~~~ 1#64) 0 1 = 0 := by
  unfold Spec.bits
  rw [BitVec.toNat_and, Nat.pow_zero, Nat.div_one, Nat.pow_one, Nat.mod_two_eq_zero_iff_testBit_zero,
    Nat.testBit_and, show (~~~ 1#64 : BitVec 64).toNat.testBit 0 = false by decide, Bool.and_false]

theorem masked_high (x y : BitVec 64) (h : y.toNat < 2 ^ 48) : bits (x &&& y) 48 16 = 0 := by
  unfold Spec.bits
  rw [BitVec.toNat_and]
  have := @Nat.and_le_right x.toNat y.toNat
  rw [Nat.div_eq_of_lt (by omega), Nat.zero_mod]

/-- **C72.** All processing elements run with the same MAIR_EL2, TCR_EL2 and
TTBR0_EL2, whatever their registers held before; only TTBR0_EL2, which they
share, says so to the TLB (CnP, bit 0), and both use address space identifier
zero (bits 63:48). -/
theorem C72_same_everywhere {mmfr0 : BitVec 64} {c : Cpu} {g : Image} {sharedPa extra : Nat}
    {plat rs : List Region} {k lowAddr num : Nat} {lowT : Tabs} {bc : Boot.Cfg}
    {stackPa ehPa hiAddr stackPa' ehPa' hiAddr' : Nat} {hiT hiT' : Tabs} {r₁ r₂ : Regs}
    (h₁ : Started mmfr0 c g sharedPa extra plat rs k lowAddr num lowT bc stackPa ehPa hiAddr hiT r₁)
    (h₂ : Started mmfr0 c g sharedPa extra plat rs k lowAddr num lowT bc stackPa' ehPa' hiAddr' hiT' r₂) :
    r₁.mair = r₂.mair ∧ r₁.tcr = r₂.tcr ∧ r₁.ttbr0 = r₂.ttbr0 ∧ r₁.hcr = r₂.hcr ∧
    bits r₁.ttbr0 0 1 = 1 ∧ bits r₁.ttbr1 0 1 = 0 ∧ bits r₁.ttbr0 48 16 = 0 ∧ bits r₁.ttbr1 48 16 = 0 := by
  obtain ⟨_, _, _, _, _, _, _, n, a, ⟨hn, hp⟩, _, rfl⟩ := started_ok h₁
  obtain ⟨_, _, _, _, _, _, _, n', a', ⟨hn', hp'⟩, _, rfl⟩ := started_ok h₂
  have hnn : n' = n := by
    rw [hp] at hp'
    have : ∀ a < 7, ∀ b < 7, BitVec.ofNat 64 a <<< 32 = BitVec.ofNat 64 b <<< 32 → b = a := by decide
    exact this n hn n' hn' (Option.some.inj hp')
  subst hnn
  refine ⟨rfl, rfl, rfl, rfl, ?_, ?_, ?_, ?_⟩
  · exact bit0_set _
  · exact bit0_clear _
  · rw [show (finalRegs c.lpa2 n' (64 - k) lowAddr hiAddr a bc).ttbr0 =
      (BitVec.ofNat 64 lowAddr &&& 0x0000FFFFFFFFFFFE#64) ||| 1#64 from rfl,
      bits_or _ _ _ _ (bits_one _ _ (by decide))]
    exact masked_high _ _ (by decide)
  · rw [show (finalRegs c.lpa2 n' (64 - k) lowAddr hiAddr a bc).ttbr1 =
      (BitVec.ofNat 64 hiAddr &&& 0x0000FFFFFFFFFFFE#64) &&& ~~~ 1#64 from rfl, BitVec.and_assoc]
    exact masked_high _ _ (by decide)

/-- **C72.** Which processors are refused: with a reserved physical address
range the RMM stops at an assertion, and without support for 4 KB granules, or
with 52-bit addresses but no 52-bit addresses for 4 KB granules, it reports an
error; on any other the registers are computed.  TGran4 is bits 31:28 of
ID_AA64MMFR0_EL1 and PARange bits 3:0. -/
theorem C72_refuse (x : BitVec 64) (high : Bool) (vaSize addr : Nat) :
    (8 ≤ bits x 28 4 → setupMmuCfg x true high vaSize addr = .error .eperm) ∧
    (bits x 28 4 < 8 → 6 < bits x 0 4 → setupMmuCfg x true high vaSize addr = .error .assertion) ∧
    (bits x 28 4 < 8 → bits x 28 4 ≠ 1 → bits x 0 4 = 6 →
      setupMmuCfg x true high vaSize addr = .error .eperm) ∧
    (bits x 28 4 < 8 → bits x 0 4 < 6 ∨ bits x 0 4 = 6 ∧ bits x 28 4 = 1 →
      ∃ cfg, setupMmuCfg x true high vaSize addr = .ok cfg) := by
  have hg : granule4k x = decide (bits x 28 4 < 8) := by
    unfold granule4k
    rw [← extract_toNat _ _ _ (by decide)]
    rfl
  have hl : lpa2Present x = decide (bits x 28 4 = 1) := by
    unfold lpa2Present
    rw [← extract_toNat _ _ _ (by decide), Bool.eq_iff_iff, beq_iff_eq, decide_eq_true_iff,
      ← BitVec.toNat_inj]
    rfl
  have hw : ∀ n, bits x 0 4 = n → paWidthOf x =
      (match [32, 36, 40, 42, 44, 48, 52][n]? with | some w => .ok w | none => .error .assertion) := by
    intro n hn
    unfold paWidthOf
    rw [extract_toNat _ _ _ (by decide), hn]
    rfl
  unfold setupMmuCfg
  refine ⟨?_, ?_, ?_, ?_⟩
  · intro h
    rw [hg, if_pos (by simp; omega)]
  · intro h1 h2
    rw [hg, if_neg (by simp; omega), if_neg (by decide), hw _ rfl,
      show [32, 36, 40, 42, 44, 48, 52][bits x 0 4]? = none from List.getElem?_eq_none (by simp; omega)]
  · intro h1 h2 h3
    rw [hg, if_neg (by simp; omega), if_neg (by decide), hw _ h3, hl, decide_eq_false h2]
    rfl
  · intro h1 h2
    rw [hg, if_neg (by simp; omega), if_neg (by decide)]
    have h16 := bits_lt x 0 4
    have : ∃ n, n < 7 ∧ bits x 0 4 = n ∧ (n = 6 → lpa2Present x = true) :=
      ⟨_, by omega, rfl, fun h => by rw [hl]; simp; omega⟩
    obtain ⟨n, hn, he, h6⟩ := this
    rw [hw n he]
    generalize lpa2Present x = l at h6
    have : n = 0 ∨ n = 1 ∨ n = 2 ∨ n = 3 ∨ n = 4 ∨ n = 5 ∨ n = 6 := by omega
    rcases this with rfl | rfl | rfl | rfl | rfl | rfl | rfl
    · cases l <;> exact ⟨_, rfl⟩
    · cases l <;> exact ⟨_, rfl⟩
    · cases l <;> exact ⟨_, rfl⟩
    · cases l <;> exact ⟨_, rfl⟩
    · cases l <;> exact ⟨_, rfl⟩
    · cases l <;> exact ⟨_, rfl⟩
    · rw [h6 rfl]; exact ⟨_, rfl⟩

/-- **C72 (finding 36).** On an Arm platform whose boot manifest names no
console, the page at address zero is mapped read-write as device memory: the
access through a null pointer does not fault. -/
theorem C72_null_mapped {mmfr0 : BitVec 64} {c : Cpu} {g : Image} {sharedPa extra : Nat}
    {rs : List Region} {k lowAddr num : Nat} {lowT : Tabs} {bc : Boot.Cfg}
    {stackPa ehPa hiAddr : Nat} {hiT : Tabs} {r' : Regs} {m : Nat → BitVec 64} {va : Nat}
    (h : Started mmfr0 c g sharedPa extra (armRegions c none) rs k lowAddr num lowT bc stackPa ehPa
      hiAddr hiT r')
    (hs : Sane c g sharedPa (armRegions c none) lowAddr num bc hiAddr)
    (hml : Spec.Holds m lowT) (hmh : Spec.Holds m hiT) (hva : va < 4096) :
    ∃ at', Spec.stage1 c.paWidth r' m va = .ok va at' 0x04 2 ∧ at'.readOnly = false := by
  have main := C72_map h hs hml hmh (va := va) (by omega)
  have hin : flat c 0 4096 (MT_DEVICE ||| MT_RW) ∈ rs :=
    (merge_mem (started_ok h).1 _).mpr (Or.inl (by unfold armRegions; simp))
  have := main.1 _ (List.mem_append_left _ hin) ⟨Nat.zero_le _, by show va < 0 + 4096; omega⟩
    (by show ¬ (MT_DEVICE ||| MT_RW).toNat % 16 = 3; decide)
  refine ⟨Spec.wanted (MT_DEVICE ||| MT_RW), ?_, ?_⟩
  · rw [this]
    show Spec.S1.ok (0 + (va - 0)) _ _ _ = _
    rw [Nat.zero_add, Nat.sub_zero]
    have mt : Spec.wantedMair (MT_DEVICE ||| MT_RW) = 0x04 ∧ Spec.wantedShare (MT_DEVICE ||| MT_RW) = 2 := by
      decide
    show Spec.S1.ok va _ (Spec.wantedMair (MT_DEVICE ||| MT_RW)) (Spec.wantedShare (MT_DEVICE ||| MT_RW)) = _
    rw [mt.1, mt.2]
    rfl
  · decide

/-- With a console, and nothing else at the bottom of the address space, it
does. -/
theorem C72_null_faults {mmfr0 : BitVec 64} {c : Cpu} {g : Image} {sharedPa extra uart : Nat}
    {rs : List Region} {k lowAddr num : Nat} {lowT : Tabs} {bc : Boot.Cfg}
    {stackPa ehPa hiAddr : Nat} {hiT : Tabs} {r' : Regs} {m : Nat → BitVec 64} {va : Nat}
    (h : Started mmfr0 c g sharedPa extra (armRegions c (some uart)) rs k lowAddr num lowT bc stackPa ehPa
      hiAddr hiT r')
    (hs : Sane c g sharedPa (armRegions c (some uart)) lowAddr num bc hiAddr)
    (hp : bc.pages + 111 ≤ 512)
    (hml : Spec.Holds m lowT) (hmh : Spec.Holds m hiT) (hva : va < 4096) (hu : 4096 ≤ uart)
    (hi : 4096 ≤ g.codeS ∧ 4096 ≤ g.roS ∧ 4096 ≤ g.rwS ∧ g.rwE + 4096 < 2 ^ 64) :
    Spec.stage1 c.paWidth r' m va = .fault := by
  apply (C72_map h hs hml hmh (va := va) (by omega)).2
  intro q hq hc
  have h1 := hc.1
  rcases List.mem_append.mp hq with hq | hq
  · rcases (merge_mem (started_ok h).1 _).mp hq with hq | hq
    · unfold armRegions at hq
      rw [List.mem_singleton] at hq
      rw [hq] at h1
      have : uart ≤ va := h1
      omega
    · unfold common flat at hq
      simp only [List.mem_cons, List.not_mem_nil, or_false] at hq
      rcases hq with rfl | rfl | rfl | rfl <;> simp only at h1
      · omega
      · omega
      · omega
      · unfold wadd at h1
        omega
  · exfalso
    have v1 := slotVirt_nat
    have v2 := stackVirt_nat hp
    have v3 := ehVirt_nat hp
    unfold highRegions at hq
    simp only [List.mem_cons, List.not_mem_nil, or_false] at hq
    rcases hq with rfl | rfl | rfl <;> simp only at h1
    · omega
    · omega
    · omega

/-- **C72 (finding 37).** The page after the guard page that follows the
writable data is, as a virtual address, the buffer shared with EL3: there the
physical address of a stack does not fault, unlike head.S:55-62 says. -/
theorem C72_stack_alias {mmfr0 : BitVec 64} {c : Cpu} {g : Image} {sharedPa extra : Nat}
    {plat rs : List Region} {k lowAddr num : Nat} {lowT : Tabs} {bc : Boot.Cfg}
    {stackPa ehPa hiAddr : Nat} {hiT : Tabs} {r' : Regs} {m : Nat → BitVec 64} {va : Nat}
    (h : Started mmfr0 c g sharedPa extra plat rs k lowAddr num lowT bc stackPa ehPa hiAddr hiT r')
    (hs : Sane c g sharedPa plat lowAddr num bc hiAddr)
    (hml : Spec.Holds m lowT) (hmh : Spec.Holds m hiT) (hw : g.rwE + 8192 ≤ 2 ^ 64)
    (h1 : g.rwE + 4096 ≤ va) (h2 : va < g.rwE + 8192) :
    ∃ at', Spec.stage1 c.paWidth r' m va = .ok (sharedPa + (va - (g.rwE + 4096))) at' 0xff 3 ∧
      at'.readOnly = false := by
  have main := C72_map h hs hml hmh (va := va) (by omega)
  have hwa : wadd g.rwE 4096 = g.rwE + 4096 := by unfold wadd; omega
  have hin : (⟨sharedPa, wadd g.rwE 4096, 4096, MT_RW_DATA, defGran c⟩ : Region) ∈ rs :=
    (merge_mem (started_ok h).1 _).mpr (Or.inr (by unfold common; simp))
  have := main.1 _ (List.mem_append_left _ hin)
    ⟨by show wadd g.rwE 4096 ≤ va; omega, by show va < wadd g.rwE 4096 + 4096; omega⟩
    (by show ¬ MT_RW_DATA.toNat % 16 = 3; decide)
  refine ⟨Spec.wanted MT_RW_DATA, ?_, ?_⟩
  · rw [this]
    simp only [hwa]
    rfl
  · decide

/-- **C72.** The page behind the writable data is not mapped, unless the
platform asks for it. -/
theorem C72_rw_guard {mmfr0 : BitVec 64} {c : Cpu} {g : Image} {sharedPa extra : Nat}
    {plat rs : List Region} {k lowAddr num : Nat} {lowT : Tabs} {bc : Boot.Cfg}
    {stackPa ehPa hiAddr : Nat} {hiT : Tabs} {r' : Regs} {m : Nat → BitVec 64} {va : Nat}
    (h : Started mmfr0 c g sharedPa extra plat rs k lowAddr num lowT bc stackPa ehPa hiAddr hiT r')
    (hs : Sane c g sharedPa plat lowAddr num bc hiAddr) (hp : bc.pages + 111 ≤ 512)
    (hg : g.codeS ≤ g.codeE ∧ g.codeE ≤ g.roS ∧ g.roS ≤ g.roE ∧ g.roE ≤ g.rwS ∧ g.rwS ≤ g.rwE ∧
      g.rwE + 4096 ≤ 2 ^ 63)
    (hplat : ∀ q, q ∈ plat → ¬ Spec.Contains q va)
    (hml : Spec.Holds m lowT) (hmh : Spec.Holds m hiT)
    (h1 : g.rwE ≤ va) (h2 : va < g.rwE + 4096) : Spec.stage1 c.paWidth r' m va = .fault := by
  apply (C72_map h hs hml hmh (va := va) (by omega)).2
  intro q hq hc
  have b1 := hc.1
  have b2 := hc.2
  rcases List.mem_append.mp hq with hq | hq
  · rcases (merge_mem (started_ok h).1 _).mp hq with hq | hq
    · exact absurd hc (hplat q hq)
    · exfalso
      unfold common flat at hq
      simp only [List.mem_cons, List.not_mem_nil, or_false] at hq
      rcases hq with rfl | rfl | rfl | rfl <;> simp only at b1 b2
      · unfold wsub at b2; omega
      · unfold wsub at b2; omega
      · unfold wsub at b2; omega
      · unfold wadd at b1; omega
  · exfalso
    have v1 := slotVirt_nat
    have v2 := stackVirt_nat hp
    have v3 := ehVirt_nat hp
    unfold highRegions at hq
    simp only [List.mem_cons, List.not_mem_nil, or_false] at hq
    rcases hq with rfl | rfl | rfl <;> simp only at b1
    · omega
    · omega
    · omega

/-! ### A start that succeeds -/

/-- 48-bit physical addresses, 4 KB granules. -/
def demoMmfr0 : BitVec 64 := 5#64

def demoImage : Image :=
  { codeS := 0x60000000, codeE := 0x60003000, roS := 0x60003000, roE := 0x60008000,
    rwS := 0x60008000, rwE := 0x6000b000 }

def demoBc : Boot.Cfg := { cpus := 1, pages := 5 }

def demoC : Cpu := { lpa2 := false, paWidth := 48 }

def demoRegs : Regs := { mair := 7#64, tcr := ~~~ 0#64, ttbr0 := 1#64, ttbr1 := 2#64, hcr := 3#64,
                         sctlr := ~~~ 0#64, sp := 0#64, spEl0 := 0#64 }

/-- The hypotheses of the theorems above are met: a start on a processor with
48-bit addresses, with a console at 0x1c090000. -/
theorem mmu_demo : ∃ rs lowT hiT r' m,
    Started demoMmfr0 demoC demoImage 0x70000000 1 (armRegions demoC (some 0x1c090000)) rs 32
      0x60003000 5 lowT demoBc 0x60011000 0x60012000 0x60009000 hiT r' ∧
    Sane demoC demoImage 0x70000000 (armRegions demoC (some 0x1c090000)) 0x60003000 5 demoBc 0x60009000 ∧
    Spec.Holds m lowT ∧ Spec.Holds m hiT := by
  have hlow : (match platCmnSetup demoC demoImage 0x70000000 1 (armRegions demoC (some 0x1c090000)) (2 ^ 32)
      0x60003000 5 (fun _ _ => 0#64) with
      | .ok (_, s) => decide (s.addr = 0x60003000 ∧ s.num = 5) | .error _ => false) = true := by
    decide +kernel
  have hhi : (match startPe demoMmfr0 demoC demoBc true (2 ^ 32) 0x60003000 0x60011000 0x60012000 0x60009000
      none (fun _ _ => 0#64) demoRegs with
      | .ok (_, s) => decide (s.addr = 0x60009000 ∧ s.num = 1) | .error _ => false) = true := by
    decide +kernel
  cases h1 : platCmnSetup demoC demoImage 0x70000000 1 (armRegions demoC (some 0x1c090000)) (2 ^ 32)
      0x60003000 5 (fun _ _ => 0#64) with
  | error e => rw [h1] at hlow; cases hlow
  | ok z =>
  obtain ⟨rs, lowT⟩ := z
  cases h2 : startPe demoMmfr0 demoC demoBc true (2 ^ 32) 0x60003000 0x60011000 0x60012000 0x60009000
      none (fun _ _ => 0#64) demoRegs with
  | error e => rw [h2] at hhi; cases hhi
  | ok z =>
  obtain ⟨r', hiT⟩ := z
  rw [h1] at hlow
  rw [h2] at hhi
  obtain ⟨a1, n1⟩ := of_decide_eq_true hlow
  obtain ⟨a2, n2⟩ := of_decide_eq_true hhi
  refine ⟨rs, lowT, hiT, r', fun a => if a < 0x60008000 then
      lowT.mem ((a - 0x60003000) / 4096) (a % 4096 / 8) else hiT.mem 0 (a % 4096 / 8),
    ⟨by decide +kernel, ⟨_, h1⟩, ⟨true, none, _, demoRegs, h2, fun s h => by cases h⟩⟩, ?_, ?_, ?_⟩
  · refine ⟨by decide, by decide, ?_, ?_, by decide, by decide⟩
    · intro q hq
      unfold armRegions at hq
      rw [List.mem_singleton] at hq
      subst hq
      exact ⟨by decide, by decide, by decide⟩
    · intro q hq
      unfold armRegions at hq
      rw [List.mem_singleton] at hq
      subst hq
      exact Or.inl (show (MT_DEVICE ||| MT_RW).toNat % 16 = 0 by decide)
  · intro t i ht hi
    rw [n1] at ht
    rw [a1]
    simp only
    rw [if_pos (by omega), show (0x60003000 + 4096 * t + 8 * i - 0x60003000) / 4096 = t by omega,
      show (0x60003000 + 4096 * t + 8 * i) % 4096 / 8 = i by omega]
  · intro t i ht hi
    rw [n2] at ht
    rw [a2]
    simp only
    obtain rfl : t = 0 := by omega
    rw [if_neg (by omega), show (0x60009000 + 4096 * 0 + 8 * i) % 4096 / 8 = i by omega]

end Verif.Xlat
