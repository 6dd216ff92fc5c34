import Verif.Dram.Model
import Verif.Tac

/-!
# C43, C44: DRAM layout

## Specification
-/

namespace Verif.Dram

/-- A well-formed bank: aligned, not empty, inside the physical address space. -/
structure BankOk (paWidth : Nat) (b : Bank) : Prop where
  pos : 0 < b.base ∧ 0 < b.size
  aligned : b.base % 4096 = 0 ∧ b.size % 4096 = 0
  inPa : b.base + b.size ≤ 2 ^ paWidth

/-- Ascending and disjoint banks. -/
def Ascending (bs : List Bank) : Prop :=
  bs.Pairwise (fun a b => a.base + a.size ≤ b.base)

/-- Number of granules in the banks. -/
def total (bs : List Bank) : Nat := (bs.map (fun b => b.size / 4096)).sum

/-- Sum of all words of the structure, including the pointer and the checksum. -/
def wordSum (m : Manifest) : Nat :=
  m.banks.length + m.banksPtr + m.checksum + (m.banks.map (fun b => b.base + b.size)).sum

/-- What RMM may rely on after validation. -/
structure LayoutOk (maxBanks maxGranules paWidth : Nat) (m : Manifest) : Prop where
  version : 2 ≤ m.version
  ptr : m.banksPtr ≠ 0
  count : 0 < m.banks.length ∧ m.banks.length ≤ maxBanks
  banks : ∀ b ∈ m.banks, BankOk paWidth b
  ascending : Ascending m.banks
  granules : total m.banks ≤ maxGranules
  checksum : wordSum m % 2 ^ 64 = 0

/-- No bank wraps around the end of the 64-bit address space. -/
def NoWrap (m : Manifest) : Prop := ∀ b ∈ m.banks, b.base + b.size ≤ 2 ^ 64

/-! ## C44 -/

theorem and_or_4095 (a b : Nat) : (a ||| b) &&& 4095 = 0 ↔ a % 4096 = 0 ∧ b % 4096 = 0 := by
  rw [Nat.and_or_distrib_right, show (4095 : Nat) = 2 ^ 12 - 1 from rfl,
    Nat.and_two_pow_sub_one_eq_mod, Nat.and_two_pow_sub_one_eq_mod, Nat.or_eq_zero_iff]

theorem checksumCalc_eq (bs : List Bank) : ∀ s, checksumCalc bs s % two64 =
    (s + (bs.map (fun b => b.base + b.size)).sum) % two64 := by
  induction bs with
  | nil => intro s; simp [checksumCalc]
  | cons b bs ih =>
    intro s
    rw [checksumCalc, ih]
    simp only [List.map_cons, List.sum_cons]
    unfold two64; omega

/-- The loop accepts exactly the ascending lists of good banks above `e`. -/
theorem bankLoop_iff (paWidth : Nat) (hpa : paWidth ≤ 64) (bs : List Bank) :
    ∀ (e g n : Nat), (∀ b ∈ bs, b.base + b.size ≤ 2 ^ 64) → g < two64 →
      (e = 0 ∨ (e + 1) % 4096 = 0) →
      (bankLoop paWidth bs e g = some n ↔
        (∀ b ∈ bs, BankOk paWidth b) ∧ Ascending bs ∧ (∀ b ∈ bs, e < b.base) ∧
        n = (g + total bs) % two64) := by
  induction bs with
  | nil =>
    intro e g n _ hg _
    simp [bankLoop, Ascending, total, Nat.mod_eq_of_lt hg, eq_comm]
  | cons b bs ih =>
    intro e g n hw hg he
    have hwb := hw b (by simp)
    rw [bankLoop]
    by_cases h1 : b.base = 0 ∨ b.size = 0 ∨ (b.base ||| b.size) &&& 4095 ≠ 0
    · rw [if_pos h1]
      simp only [reduceCtorEq, false_iff]
      rintro ⟨hok, -⟩
      have := hok b (by simp)
      rw [ne_eq, and_or_4095] at h1
      have := this.pos; have := this.1; have := (hok b (by simp)).aligned
      omega
    · rw [if_neg h1]
      simp only [not_or, ne_eq, not_not, and_or_4095] at h1
      by_cases h2 : b.base < e
      · rw [if_pos h2]
        simp only [reduceCtorEq, false_iff]
        rintro ⟨-, -, hb, -⟩
        have := hb b (by simp); omega
      · rw [if_neg h2]
        have he' : (b.base + b.size - 1) % two64 = b.base + b.size - 1 :=
          Nat.mod_eq_of_lt (by unfold two64; omega)
        simp only [he']
        by_cases h3 : 2 ^ paWidth ≤ b.base + b.size - 1
        · rw [if_pos h3]
          simp only [reduceCtorEq, false_iff]
          rintro ⟨hok, -⟩
          have := (hok b (by simp)).inPa; omega
        · rw [if_neg h3]
          rw [ih _ _ n (fun c hc => hw c (by simp [hc])) (Nat.mod_lt _ (by decide)) (by omega)]
          constructor
          · rintro ⟨hok, hasc, habove, hn⟩
            refine ⟨?_, ?_, ?_, ?_⟩
            · intro c hc
              rcases List.mem_cons.1 hc with rfl | hc
              · exact ⟨⟨by omega, by omega⟩, h1.2.2, by omega⟩
              · exact hok c hc
            · refine List.pairwise_cons.2 ⟨fun c hc => ?_, hasc⟩
              have := habove c hc; omega
            · intro c hc
              rcases List.mem_cons.1 hc with rfl | hc
              · omega
              · have := habove c hc; omega
            · rw [hn]; simp only [total, List.map_cons, List.sum_cons]; unfold two64; omega
          · rintro ⟨hok, hasc, habove, hn⟩
            obtain ⟨h4, h5⟩ := List.pairwise_cons.1 hasc
            refine ⟨fun c hc => hok c (by simp [hc]), h5, fun c hc => ?_, ?_⟩
            · have := h4 c hc; omega
            · rw [hn]; simp only [total, List.map_cons, List.sum_cons]; unfold two64; omega

/-- Ascending banks within `2^64` have at most `2^52` granules, so the 64-bit sum is exact. -/
theorem total_lt (bs : List Bank) (lo : Nat) (h : Ascending bs) (hl : ∀ b ∈ bs, lo ≤ b.base)
    (hw : ∀ b ∈ bs, b.base + b.size ≤ 2 ^ 64) (hlo : lo ≤ 2 ^ 64) :
    lo + total bs * 4096 ≤ 2 ^ 64 := by
  induction bs generalizing lo with
  | nil => simpa [total] using hlo
  | cons b bs ih =>
    obtain ⟨h4, h5⟩ := List.pairwise_cons.1 h
    have hb := hw b (by simp)
    have h6 := ih (b.base + b.size) h5 h4 (fun c hc => hw c (by simp [hc])) hb
    have h7 := hl b (by simp)
    have h8 : total (b :: bs) = b.size / 4096 + total bs := by
      simp only [total, List.map_cons, List.sum_cons]
    have h9 : b.size / 4096 * 4096 ≤ b.size := Nat.div_mul_le_self _ _
    rw [h8, Nat.add_mul]
    clear hw ih hl h h4 h5
    omega

/-- C44 (partial): for manifests in which no bank wraps around 2^64, validation
accepts exactly the well-formed layouts.  Missing from the full claim: manifests
with a wrapping bank, for which it is false, see `C44_wrapping_bank_accepted`. -/
theorem C44_validate_iff_partial (maxBanks maxGranules paWidth : Nat) (m : Manifest)
    (hpa : paWidth ≤ 64) (hw : NoWrap m) :
    validate maxBanks maxGranules paWidth m = true ↔ LayoutOk maxBanks maxGranules paWidth m := by
  have hloop := fun n => bankLoop_iff paWidth hpa m.banks 0 0 n hw (by decide) (Or.inl rfl)
  have hsum : (((m.banks.length + m.banksPtr) % two64 + m.checksum) % two64
      + checksumCalc m.banks 0) % two64 = wordSum m % 2 ^ 64 := by
    rw [Nat.add_mod, checksumCalc_eq]
    unfold wordSum two64
    generalize (List.map (fun b => b.base + b.size) m.banks).sum = x
    generalize m.banks.length = y
    rw [show (2 : Nat) ^ 64 = 18446744073709551616 from rfl]
    omega
  unfold validate
  simp only [hsum]
  constructor
  · intro h
    split at h
    · simp at h
    split at h
    · simp at h
    split at h
    · simp at h
    rename_i hv hc n hn
    obtain ⟨hok, hasc, hpos, rfl⟩ := (hloop n).1 hn
    have ht := total_lt m.banks 0 hasc (fun _ _ => Nat.zero_le _) hw (by omega)
    rw [Nat.zero_add, Nat.mod_eq_of_lt (a := total m.banks) (by unfold two64; omega)] at h
    split at h
    · simp at h
    split at h
    · simp at h
    rename_i hs hg
    exact ⟨by omega, by omega, by omega, hok, hasc, by omega, by omega⟩
  · rintro ⟨hv, hp, hc, hok, hasc, hg, hs⟩
    have ht := total_lt m.banks 0 hasc (fun _ _ => Nat.zero_le _) hw (by omega)
    have hn := (hloop (total m.banks)).2
      ⟨hok, hasc, fun b hb => (hok b hb).pos.1, by
        rw [Nat.zero_add, Nat.mod_eq_of_lt (by unfold two64; omega)]⟩
    rw [if_neg (by omega), if_neg (by omega)]
    simp only [hn]
    rw [if_neg (by omega), if_neg (by omega)]

/-- C44 fails in general: a bank that starts at the last page of the 64-bit address
space and wraps to address 0 passes every check (PA width 48), because the range
check is applied to the wrapped end address. -/
theorem C44_wrapping_bank_accepted :
    ∃ m : Manifest, validate 4 0x100000 48 m = true ∧ ¬ LayoutOk 4 0x100000 48 m := by
  refine ⟨⟨2, 0x1000, [⟨0xfffffffffffff000, 0x2000⟩], two64 - 1 - 0x1000 - 0x1000⟩, by decide, ?_⟩
  intro h
  have := (h.banks ⟨0xfffffffffffff000, 0x2000⟩ (by simp)).inPa
  simp at this

/-- A two-bank layout as on FVP is accepted. -/
example : validate 2 0x100000 48
    ⟨2, 0x1000, [⟨0x80000000, 0x7c000000⟩, ⟨0x880000000, 0x80000000⟩],
      two64 - 2 - 0x1000 - 0x80000000 - 0x7c000000 - 0x880000000 - 0x80000000⟩ = true := by decide

/-! ## C43 -/

/-- Layouts produced from accepted banks. -/
structure Good (bs : List Bank) : Prop where
  nonempty : 0 < bs.length
  banks : ∀ b ∈ bs, 0 < b.size ∧ b.base % 4096 = 0 ∧ b.size % 4096 = 0 ∧ b.base + b.size ≤ 2 ^ 64
  ascending : Ascending bs

theorem LayoutOk.good {maxBanks maxGranules paWidth : Nat} {m : Manifest} (hpa : paWidth ≤ 64)
    (h : LayoutOk maxBanks maxGranules paWidth m) : Good m.banks := by
  refine ⟨h.count.1, fun b hb => ?_, h.ascending⟩
  have hb := h.banks b hb
  exact ⟨hb.pos.2, hb.aligned.1, hb.aligned.2,
    Nat.le_trans hb.inPa (Nat.pow_le_pow_right (by omega) hpa)⟩

variable {bs : List Bank}

theorem layout_at (k : Nat) (hk : k < bs.length) :
    (setLayout bs).base k = bs[k].base ∧ (setLayout bs).size k = bs[k].size := by
  simp [setLayout, hk]

theorem good_at (h : Good bs) (k : Nat) (hk : k < bs.length) :
    0 < (setLayout bs).size k ∧ (setLayout bs).base k % 4096 = 0 ∧ (setLayout bs).size k % 4096 = 0 ∧
    (setLayout bs).base k + (setLayout bs).size k ≤ 2 ^ 64 := by
  rw [(layout_at k hk).1, (layout_at k hk).2]
  exact h.banks _ (List.getElem_mem hk)

theorem good_lt (h : Good bs) (j k : Nat) (hjk : j < k) (hk : k < bs.length) :
    (setLayout bs).base j + (setLayout bs).size j ≤ (setLayout bs).base k := by
  rw [(layout_at j (by omega)).1, (layout_at j (by omega)).2, (layout_at k hk).1]
  exact List.pairwise_iff_getElem.1 h.ascending j k (by omega) hk hjk

theorem startIdx_succ (k : Nat) (hk : k < bs.length) :
    (setLayout bs).startIdx (k + 1) = (setLayout bs).startIdx k + (setLayout bs).size k / 4096 := by
  rw [(layout_at k hk).2]
  simp only [setLayout, granulesBefore]
  rw [← List.take_append_getElem hk, List.map_append, List.sum_append]; simp

theorem startIdx_mono (j k : Nat) (hjk : j < k) (hk : k ≤ bs.length) :
    (setLayout bs).startIdx j + (setLayout bs).size j / 4096 ≤ (setLayout bs).startIdx k := by
  induction k with
  | zero => omega
  | succ n ih =>
    rw [startIdx_succ n (by omega)]
    by_cases hn : j = n
    · subst hn; omega
    · have := ih (by omega) (by omega); omega

theorem numGranules_eq : (setLayout bs).numGranules = (setLayout bs).startIdx bs.length := rfl
theorem startIdx_zero : (setLayout bs).startIdx 0 = 0 := by simp [setLayout, granulesBefore]

/-- Address `addr` lies in the `k`-th bank. -/
def InBank (bs : List Bank) (k addr : Nat) : Prop :=
  ∃ h : k < bs.length, bs[k].base ≤ addr ∧ addr < bs[k].base + bs[k].size

theorem searchAddr_found (h : Good bs) (addr k : Nat) (hk : InBank bs k addr) :
    ∀ n l r, r + 1 - l = n → l ≤ k → k ≤ r → r < bs.length →
      searchAddr (setLayout bs) addr l r =
        (setLayout bs).startIdx k + (addr - (setLayout bs).base k) / 4096 := by
  obtain ⟨hkl, hlo, hhi⟩ := hk
  rw [← (layout_at k hkl).1] at hlo
  rw [← (layout_at k hkl).1, ← (layout_at k hkl).2] at hhi
  intro n
  induction n using Nat.strongRecOn with
  | ind n ih =>
    intro l r hn hl hr hrb
    rw [searchAddr, if_pos (by omega)]
    have hi : l + (r - l) / 2 < bs.length := by omega
    have hil : l ≤ l + (r - l) / 2 ∧ l + (r - l) / 2 ≤ r := by omega
    generalize l + (r - l) / 2 = i at hi hil
    have gi := good_at h i hi
    have he : ((setLayout bs).base i + (setLayout bs).size i - 1) % two64 =
        (setLayout bs).base i + (setLayout bs).size i - 1 := Nat.mod_eq_of_lt (by unfold two64; omega)
    simp only [he]
    rcases Nat.lt_trichotomy k i with hlt | heq | hgt
    · have := good_lt h k i hlt hi
      rw [if_pos (by omega), if_neg (by omega)]
      exact ih _ (by omega) l (i - 1) rfl hl (by omega) (by omega)
    · subst heq
      rw [if_neg (by omega), if_neg (by omega)]
    · have := good_lt h i k hgt hkl
      rw [if_neg (by omega), if_pos (by omega)]
      exact ih _ (by omega) (i + 1) r rfl (by omega) hr hrb

theorem searchAddr_notFound (h : Good bs) (addr : Nat) (hno : ∀ k, ¬ InBank bs k addr) :
    ∀ n l r, r + 1 - l = n → r < bs.length →
      searchAddr (setLayout bs) addr l r = UINT64_MAX := by
  intro n
  induction n using Nat.strongRecOn with
  | ind n ih =>
    intro l r hn hrb
    rw [searchAddr]
    by_cases hlr : l ≤ r
    · rw [if_pos hlr]
      have hi : l + (r - l) / 2 < bs.length := by omega
      have hil : l ≤ l + (r - l) / 2 ∧ l + (r - l) / 2 ≤ r := by omega
      generalize l + (r - l) / 2 = i at hi hil
      have gi := good_at h i hi
      have he : ((setLayout bs).base i + (setLayout bs).size i - 1) % two64 =
          (setLayout bs).base i + (setLayout bs).size i - 1 := Nat.mod_eq_of_lt (by unfold two64; omega)
      simp only [he]
      by_cases h1 : addr < (setLayout bs).base i
      · rw [if_pos h1]
        by_cases h0 : i = 0
        · rw [if_pos h0]
        · rw [if_neg h0]; exact ih _ (by omega) l (i - 1) rfl (by omega)
      · rw [if_neg h1]
        by_cases h2 : (setLayout bs).base i + (setLayout bs).size i - 1 < addr
        · rw [if_pos h2]; exact ih _ (by omega) (i + 1) r rfl hrb
        · exfalso
          apply hno i
          refine ⟨hi, ?_⟩
          rw [← (layout_at i hi).1, ← (layout_at i hi).2]; omega
    · rw [if_neg hlr]

theorem searchIdx_found (h : Good bs) (idx k : Nat) (hk : k < bs.length)
    (h1 : (setLayout bs).startIdx k ≤ idx)
    (h2 : idx < (setLayout bs).startIdx k + (setLayout bs).size k / 4096) :
    ∀ n l r, r + 1 - l = n → l ≤ k → k ≤ r → r < bs.length →
      searchIdx (setLayout bs) idx l r =
        some ((setLayout bs).base k + (idx - (setLayout bs).startIdx k) * 4096) := by
  intro n
  induction n using Nat.strongRecOn with
  | ind n ih =>
    intro l r hn hl hr hrb
    rw [searchIdx, if_pos (by omega)]
    have hi : l + (r - l) / 2 < bs.length := by omega
    have hil : l ≤ l + (r - l) / 2 ∧ l + (r - l) / 2 ≤ r := by omega
    generalize l + (r - l) / 2 = i at hi hil
    have gi := good_at h i hi
    dsimp only
    rcases Nat.lt_trichotomy k i with hlt | heq | hgt
    · have := startIdx_mono (bs := bs) k i hlt (by omega)
      rw [if_pos (by omega), if_neg (by omega)]
      exact ih _ (by omega) l (i - 1) rfl hl (by omega) (by omega)
    · subst heq
      rw [if_neg (by omega), if_neg (by omega)]
    · have := startIdx_mono (bs := bs) i k hgt (by omega)
      rw [if_neg (by omega), if_pos (by omega)]
      exact ih _ (by omega) (i + 1) r rfl (by omega) hr hrb

/-- Every index below the total belongs to a bank. -/
theorem bank_of_idx (idx : Nat) : ∀ n, n ≤ bs.length → idx < (setLayout bs).startIdx n →
    ∃ k, k < n ∧ (setLayout bs).startIdx k ≤ idx ∧
      idx < (setLayout bs).startIdx k + (setLayout bs).size k / 4096 := by
  intro n
  induction n with
  | zero => intro _ h; rw [startIdx_zero] at h; omega
  | succ m ih =>
    intro hm h
    rw [startIdx_succ m (by omega)] at h
    by_cases hlt : idx < (setLayout bs).startIdx m
    · obtain ⟨k, hk, h'⟩ := ih (by omega) hlt
      exact ⟨k, by omega, h'⟩
    · exact ⟨m, by omega, by omega, h⟩

/-- C43: an aligned address inside a bank has an index below the number of granules,
and that index leads back to the address.  No assertion fails. -/
theorem C43_addr_to_idx_and_back (h : Good bs) (maxBanks addr k : Nat) (hm : bs.length ≤ maxBanks)
    (ha : addr % 4096 = 0) (hk : InBank bs k addr) :
    ∃ idx, addrToIdx maxBanks (setLayout bs) addr = some idx ∧ idx < total bs ∧
      idxToAddr (setLayout bs) idx = some addr := by
  have hk' := hk
  obtain ⟨hkl, hlo, hhi⟩ := hk'
  have gk := good_at h k hkl
  rw [← (layout_at k hkl).1] at hlo
  rw [← (layout_at k hkl).1, ← (layout_at k hkl).2] at hhi
  have hne := h.nonempty
  have hidx := searchAddr_found h addr k hk _ 0 (bs.length - 1) rfl (by omega) (by omega) (by omega)
  have hlt : (setLayout bs).startIdx k + (addr - (setLayout bs).base k) / 4096 <
      (setLayout bs).startIdx k + (setLayout bs).size k / 4096 := by omega
  have htot : total bs = (setLayout bs).numGranules := by simp [total, setLayout, granulesBefore]
  have hb : (setLayout bs).startIdx k + (addr - (setLayout bs).base k) / 4096 < total bs := by
    rw [htot, numGranules_eq]
    have := startIdx_mono (bs := bs) k bs.length hkl (Nat.le_refl _)
    omega
  refine ⟨_, ?_, hb, ?_⟩
  · unfold addrToIdx
    rw [if_neg (by omega), if_pos ⟨h.nonempty, hm⟩]
    exact congrArg some hidx
  · unfold idxToAddr
    rw [if_pos ⟨h.nonempty, by rw [← htot]; exact hb⟩]
    have := searchIdx_found h _ k hkl (Nat.le_add_right _ _) hlt _ 0 (bs.length - 1) rfl (by omega)
      (by omega) (by omega)
    refine this.trans (congrArg some ?_)
    omega

/-- C43: every index below the number of granules has an address, which is aligned,
inside a bank, and maps back to the index.  No assertion fails. -/
theorem C43_idx_to_addr_and_back (h : Good bs) (maxBanks idx : Nat) (hm : bs.length ≤ maxBanks)
    (hi : idx < total bs) :
    ∃ addr k, idxToAddr (setLayout bs) idx = some addr ∧ addr % 4096 = 0 ∧ InBank bs k addr ∧
      addrToIdx maxBanks (setLayout bs) addr = some idx := by
  have htot : total bs = (setLayout bs).numGranules := by simp [total, setLayout, granulesBefore]
  rw [htot, numGranules_eq] at hi
  obtain ⟨k, hkl, h1, h2⟩ := bank_of_idx idx bs.length (Nat.le_refl _) hi
  have gk := good_at h k hkl
  have hs := searchIdx_found h idx k hkl h1 h2 _ 0 (bs.length - 1) rfl (by omega) (by omega) (by omega)
  have hin : InBank bs k ((setLayout bs).base k + (idx - (setLayout bs).startIdx k) * 4096) := by
    refine ⟨hkl, ?_⟩
    rw [← (layout_at k hkl).1, ← (layout_at k hkl).2]; omega
  have hal : ((setLayout bs).base k + (idx - (setLayout bs).startIdx k) * 4096) % 4096 = 0 := by omega
  refine ⟨_, k, ?_, hal, hin, ?_⟩
  · unfold idxToAddr
    rw [if_pos ⟨h.nonempty, by rw [numGranules_eq]; exact hi⟩]; exact hs
  · unfold addrToIdx
    rw [if_neg (by omega), if_pos ⟨h.nonempty, hm⟩]
    have hne := h.nonempty
    rw [show (setLayout bs).numBanks = bs.length from rfl,
      searchAddr_found h _ k hin _ 0 (bs.length - 1) rfl (by omega) (by omega) (by omega)]
    congr 1; omega

/-- C43: `find_granule` refuses exactly the addresses that are misaligned or in no bank. -/
theorem C43_find_granule_iff (h : Good bs) (maxBanks maxGranules addr : Nat)
    (hm : bs.length ≤ maxBanks) (hg : total bs ≤ maxGranules) (hg' : maxGranules ≤ UINT64_MAX) :
    findGranule maxBanks maxGranules (setLayout bs) addr ≠ none ∧
    ((∃ idx, findGranule maxBanks maxGranules (setLayout bs) addr = some (some idx)) ↔
      addr % 4096 = 0 ∧ ∃ k, InBank bs k addr) := by
  unfold findGranule
  by_cases ha : addr % 4096 = 0
  · rw [if_neg (by omega)]
    by_cases hk : ∃ k, InBank bs k addr
    · obtain ⟨k, hk⟩ := hk
      obtain ⟨idx, h1, h2, -⟩ := C43_addr_to_idx_and_back h maxBanks addr k hm ha hk
      simp only [h1]
      rw [if_neg (by omega)]
      refine ⟨by simp, ?_⟩
      simp only [Option.some.injEq, exists_eq', true_iff]
      exact ⟨ha, k, hk⟩
    · have hne := h.nonempty
      have : addrToIdx maxBanks (setLayout bs) addr = some UINT64_MAX := by
        unfold addrToIdx
        rw [if_neg (by omega), if_pos ⟨h.nonempty, hm⟩]
        exact congrArg some (searchAddr_notFound h addr (fun k hk' => hk ⟨k, hk'⟩) _ 0 (bs.length - 1) rfl
          (by omega))
      simp only [this]
      rw [if_pos hg']
      exact ⟨by simp, by simp [hk]⟩
  · rw [if_pos (by omega)]
    exact ⟨by simp, by simp [ha]⟩

/-- The layout of the C44 example satisfies the hypotheses; its 8th granule of bank 1
is numbered after the whole of bank 0. -/
example : Good [⟨0x80000000, 0x7c000000⟩, ⟨0x880000000, 0x80000000⟩] := by
  refine ⟨by decide, ?_, ?_⟩
  · intro b hb; simp at hb; rcases hb with rfl | rfl <;> decide
  · simp [Ascending]

end Verif.Dram
