import Verif.Geometry.Model
import Mathlib.Tactic.NormNum
import Mathlib.Tactic.Ring
import Mathlib.Tactic.ByContra

/-!
# C19, C20: table indices and legal geometries
-/

namespace Verif.Geometry

/-! ## Specification -/

/-- Bytes mapped by one entry at a level: a page at level 3, 512 times more for
each level up. -/
def entrySize (level : Int) : Nat := 4096 * 512 ^ (3 - level).toNat

/-- The architecture's rule for a 4KB-granule stage 2 regime, in terms of sizes:
the IPA space `2^ipaBits` is cut into at least two starting-level entries; these
fit either in one table or, where concatenation exists (starting level 1, 2 or 3,
or 0 with LPA2), exactly fill `n <= 16` tables of 512. -/
structure Legal (paWidth ipaBits : Nat) (sl : Int) (lpa2 : Bool) (n : Nat) : Prop where
  width : 32 ≤ ipaBits ∧ ipaBits ≤ (if lpa2 then 52 else 48)
  level : (if lpa2 then -1 else 0) ≤ sl ∧ sl ≤ 3
  hw : sl = 0 → 44 ≤ paWidth
  fits : ∃ entries, 2 ≤ entries ∧ 2 ^ ipaBits = entries * entrySize sl ∧
    (entries ≤ (if sl = -1 then 16 else 512) ∧ n = 1 ∨
     512 < entries ∧ entries = n * 512 ∧ n ≤ 16 ∧ (0 < sl ∨ (sl = 0 ∧ lpa2 = true)))

/-! ## Proofs -/

theorem pow_lsb (sl : Int) : 2 ^ lsb sl = entrySize sl := by
  unfold lsb entrySize levels
  rw [Nat.pow_add, Nat.mul_comm (3 - sl).toNat 9, Nat.pow_mul]
  norm_num
  rw [Nat.mul_comm]

theorem level_cases (sl : Int) (h : -1 ≤ sl) (h3 : sl ≤ 3) :
    sl = -1 ∨ sl = 0 ∨ sl = 1 ∨ sl = 2 ∨ sl = 3 := by omega

theorem pow_split {a b c : Nat} (h : 2 ^ a = c * 2 ^ b) : b ≤ a ∧ c = 2 ^ (a - b) := by
  have hb : b ≤ a := by
    by_contra hlt
    have h0 : 0 < c := by
      rcases Nat.eq_zero_or_pos c with rfl | h'
      · have := Nat.two_pow_pos a; omega
      · exact h'
    have h1 : 2 ^ a < 2 ^ b := Nat.pow_lt_pow_right (by omega) (by omega)
    have : 2 ^ b ≤ c * 2 ^ b := Nat.le_mul_of_pos_left _ h0
    omega
  refine ⟨hb, ?_⟩
  have : 2 ^ a = 2 ^ (a - b) * 2 ^ b := by rw [← Nat.pow_add]; congr 1; omega
  rw [this] at h
  exact (Nat.eq_of_mul_eq_mul_right (Nat.two_pow_pos b) h).symm

theorem pow_le_iff (a b : Nat) : 2 ^ a ≤ 2 ^ b ↔ a ≤ b := Nat.pow_le_pow_iff_right (by omega)

theorem ite_false_iff (c : Prop) [Decidable c] (b : Bool) :
    (if c then false else b) = true ↔ ¬ c ∧ b = true := by split <;> simp [*]

theorem numRoots_eq (ipaBits : Nat) (sl : Int) :
    numRootRtts ipaBits sl = 2 ^ (ipaBits - (lsb sl + 9)) := by
  unfold numRootRtts lsb
  simp only
  split
  · rename_i h; rw [Nat.sub_eq_zero_of_le (by omega)]; rfl
  · rw [Nat.one_shiftLeft]

/-- C20: REALM_CREATE's geometry checks accept exactly the legal geometries. -/
theorem C20_geometry_accepted_iff (paWidth ipaBits : Nat) (sl : Int) (lpa2 : Bool) (n : Nat) :
    geometryAccepted paWidth ipaBits sl lpa2 n = true ↔ Legal paWidth ipaBits sl lpa2 n := by
  have key : ∀ (hsl : (if lpa2 then -1 else 0) ≤ sl ∧ sl ≤ 3),
      (∃ entries, 2 ≤ entries ∧ 2 ^ ipaBits = entries * entrySize sl ∧
        (entries ≤ (if sl = -1 then 16 else 512) ∧ n = 1 ∨
        512 < entries ∧ entries = n * 512 ∧ n ≤ 16 ∧ (0 < sl ∨ (sl = 0 ∧ lpa2 = true)))) ↔
      (lsb sl + 1 ≤ ipaBits ∧
        (ipaBits - lsb sl ≤ (if sl = -1 then 4 else 9) ∧ n = 1 ∨
         9 < ipaBits - lsb sl ∧ n = 2 ^ (ipaBits - lsb sl - 9) ∧ ipaBits - lsb sl ≤ 13 ∧
          (0 < sl ∨ (sl = 0 ∧ lpa2 = true)))) := by
    intro hsl
    rw [← pow_lsb]
    constructor
    · rintro ⟨e, h2, he, hc⟩
      obtain ⟨hle, rfl⟩ := pow_split he
      have h1 : 1 ≤ ipaBits - lsb sl := (pow_le_iff 1 _).1 h2
      refine ⟨by omega, ?_⟩
      rcases hc with ⟨hc, hn⟩ | ⟨hc, hn, h16, hs⟩
      · left
        refine ⟨?_, hn⟩
        split at hc <;> rename_i hs
        · rw [if_pos hs]; exact (pow_le_iff _ 4).1 hc
        · rw [if_neg hs]; exact (pow_le_iff _ 9).1 hc
      · right
        obtain ⟨h9, hn'⟩ := pow_split (b := 9) hn
        have h9' : 9 < ipaBits - lsb sl := by
          by_contra hh
          have := (pow_le_iff (ipaBits - lsb sl) 9).2 (by omega)
          omega
        refine ⟨h9', hn', ?_, hs⟩
        rw [hn'] at h16
        have := (pow_le_iff _ 4).1 h16
        omega
    · rintro ⟨hle, hc⟩
      refine ⟨2 ^ (ipaBits - lsb sl), (pow_le_iff 1 _).2 (by omega), ?_, ?_⟩
      · rw [← Nat.pow_add]; congr 1; omega
      · rcases hc with ⟨hc, hn⟩ | ⟨h9, hn, h13, hs⟩
        · left
          refine ⟨?_, hn⟩
          split at hc <;> rename_i hs
          · rw [if_pos hs]; exact (pow_le_iff _ 4).2 hc
          · rw [if_neg hs]; exact (pow_le_iff _ 9).2 hc
        · right
          refine ⟨?_, ?_, ?_, hs⟩
          · exact Nat.pow_lt_pow_right (a := 2) (m := 9) (by omega) h9
          · rw [hn, show (512 : Nat) = 2 ^ 9 from rfl, ← Nat.pow_add]; congr 1; omega
          · rw [hn]; exact (pow_le_iff _ 4).2 (by omega)
  unfold geometryAccepted validateIpaBitsAndSl
  rw [Bool.and_eq_true, decide_eq_true_iff, numRoots_eq]
  constructor
  · rintro ⟨hv, hn⟩
    rw [ite_false_iff, ite_false_iff, ite_false_iff] at hv
    obtain ⟨hw, hl, hp, hv⟩ := hv
    have hsl : (if lpa2 then -1 else 0) ≤ sl ∧ sl ≤ 3 := by omega
    refine ⟨by omega, hsl, by omega, (key hsl).2 ?_⟩
    have hlsb : lsb sl = levels sl * 9 + 12 := rfl
    simp only [inconsistentSl, ← hlsb, Bool.not_eq_true', Bool.or_eq_false_iff,
      decide_eq_false_iff_not, not_lt] at hv
    obtain ⟨hmin, hmax⟩ := hv
    have hm1 : sl = -1 → lpa2 = true := by
      intro h; cases lpa2
      · simp at hsl; omega
      · rfl
    refine ⟨by omega, ?_⟩
    by_cases h9 : ipaBits - lsb sl ≤ 9
    · left
      refine ⟨?_, ?_⟩
      · split <;> rename_i hs
        · rw [if_neg (by omega), if_pos ⟨hs, hm1 hs⟩] at hmax; omega
        · exact h9
      · rw [← hn, show ipaBits - (lsb sl + 9) = 0 by omega]; rfl
    · right
      by_cases hs : 0 < sl ∨ (sl = 0 ∧ lpa2 = true)
      · rw [if_pos hs, if_neg (by omega)] at hmax
        refine ⟨by omega, ?_, by omega, hs⟩
        rw [← hn]; congr 1
      · exfalso
        rw [if_neg hs] at hmax
        split at hmax <;> omega
  · rintro ⟨hw, hsl, hp, hf⟩
    obtain ⟨hmin, hc⟩ := (key hsl).1 hf
    have hlsb : lsb sl = levels sl * 9 + 12 := rfl
    rw [if_neg (by omega), if_neg (by omega), if_neg (by omega)]
    have hm1 : sl = -1 → lpa2 = true := by
      intro h; cases lpa2
      · simp at hsl; omega
      · rfl
    refine ⟨?_, ?_⟩
    · simp only [inconsistentSl, ← hlsb, Bool.not_eq_true', Bool.or_eq_false_iff,
        decide_eq_false_iff_not, not_lt]
      refine ⟨by omega, ?_⟩
      rcases hc with ⟨hc, -⟩ | ⟨h9, -, h13, hs⟩
      · split at hc <;> rename_i hs
        · rw [if_neg (by omega), if_pos ⟨hs, hm1 hs⟩]; omega
        · rw [if_neg (c := sl = -1 ∧ lpa2 = true) (by tauto)]; split <;> omega
      · rw [if_pos hs, if_neg (by omega)]; omega
    · rcases hc with ⟨hc, hn⟩ | ⟨h9, hn, h13, hs⟩
      · rw [hn, show ipaBits - (lsb sl + 9) = 0 by split at hc <;> omega]; rfl
      · rw [hn]; congr 1

/-- The check is not vacuous: a 40-bit space starting at level 1 needs two tables. -/
example : Legal 48 40 1 false 2 := (C20_geometry_accepted_iff ..).1 (by decide)
/-- A 52-bit space with LPA2 starts at level -1 with one table, or 0 with 16. -/
example : Legal 52 52 (-1) true 1 := (C20_geometry_accepted_iff ..).1 (by decide)
example : Legal 52 52 0 true 16 := (C20_geometry_accepted_iff ..).1 (by decide)
example : ¬ Legal 52 40 1 false 1 := fun h =>
  absurd ((C20_geometry_accepted_iff ..).2 h) (by decide)

/-! ## Indices -/

theorem addrToIdx_eq (addr : Nat) (level : Int) :
    addrToIdx addr level = addr / entrySize level % (if level < 0 then 16 else 512) := by
  unfold addrToIdx
  rw [Nat.shiftRight_eq_div_pow, pow_lsb, Nat.one_shiftLeft, Nat.and_two_pow_sub_one_eq_mod]
  split <;> rfl

theorem slAddrToIdx_eq (addr ipaBits : Nat) (sl : Int) (h : addr < 2 ^ ipaBits) :
    slAddrToIdx addr sl ipaBits = addr / entrySize sl := by
  unfold slAddrToIdx
  rw [Nat.shiftRight_eq_div_pow, pow_lsb, Nat.one_shiftLeft, Nat.and_two_pow_sub_one_eq_mod,
    Nat.mod_eq_of_lt h]

theorem rootNum_eq (addr ipaBits : Nat) (sl : Int) (h : addr < 2 ^ ipaBits) :
    rootNum addr sl ipaBits = addr / entrySize sl / 512 := by
  unfold rootNum
  rw [slAddrToIdx_eq _ _ _ h]
  simp only
  split
  · rw [Nat.shiftRight_eq_div_pow]
  · rw [Nat.div_eq_of_lt (by omega)]

/-- C19: every index used by a walk lies inside its table: 512 entries, or 16 at level -1. -/
theorem C19_index_in_table (addr : Nat) (level : Int) :
    addrToIdx addr level < (if level = -1 then 16 else 512) ∨ level < -1 := by
  rw [addrToIdx_eq]
  by_cases h : level < -1
  · exact Or.inr h
  · left
    by_cases h0 : level < 0
    · rw [if_pos h0, if_pos (by omega)]; exact Nat.mod_lt _ (by omega)
    · rw [if_neg h0, if_neg (by omega)]; exact Nat.mod_lt _ (by omega)

/-- Sum of the contributions of the indices at levels `sl+1 .. 3`, with `d = 3 - sl`
levels below the start. -/
def below (addr : Nat) : Nat → Nat
  | 0 => 0
  | d + 1 => addrToIdx addr (3 - d) * entrySize (3 - d) + below addr d

theorem entrySize_d (d : Nat) : entrySize (3 - d) = 4096 * 512 ^ d := by
  unfold entrySize; congr 2; omega

theorem below_eq (addr : Nat) (d : Nat) (hd : d ≤ 4) :
    below addr d + addr % 4096 = addr % (4096 * 512 ^ d) := by
  induction d with
  | zero => simp [below]
  | succ k ih =>
    have ih := ih (by omega)
    rw [below, addrToIdx_eq, if_neg (by omega), entrySize_d]
    rw [Nat.add_assoc, ih, show 4096 * 512 ^ (k + 1) = (4096 * 512 ^ k) * 512 by ring,
      Nat.mod_mul (a := 4096 * 512 ^ k), Nat.add_comm, Nat.mul_comm (4096 * 512 ^ k)]

/-- C19: for an accepted geometry and any address in the IPA space, the walk picks
an existing root table and an entry inside it, and the root number, the indices
at each level and the page offset recombine to the address. -/
theorem C19_indices_recombine (paWidth ipaBits : Nat) (sl : Int) (lpa2 : Bool) (n addr : Nat)
    (hg : Legal paWidth ipaBits sl lpa2 n) (ha : addr < 2 ^ ipaBits) :
    rootNum addr sl ipaBits < n ∧
    (rootNum addr sl ipaBits * 512 + addrToIdx addr sl) * entrySize sl
      + below addr (3 - sl).toNat + addr % 4096 = addr := by
  obtain ⟨hw, hl, -, e, h2, he, hc⟩ := hg
  have hpos : 0 < entrySize sl := by rw [← pow_lsb]; exact Nat.two_pow_pos _
  have hlt : addr / entrySize sl < e := by
    rw [Nat.div_lt_iff_lt_mul hpos, ← he]; exact ha
  have hsl : -1 ≤ sl := by split at hl <;> omega
  have hb : below addr (3 - sl).toNat + addr % 4096 = addr % entrySize sl := by
    rw [below_eq addr _ (by omega)]; rfl
  rw [rootNum_eq _ _ _ ha, Nat.add_assoc, hb, addrToIdx_eq]
  have hroot : addr / entrySize sl / 512 < n ∧
      addr / entrySize sl / 512 * 512 + addr / entrySize sl % (if sl < 0 then 16 else 512)
        = addr / entrySize sl := by
    rcases hc with ⟨hc, rfl⟩ | ⟨-, hc, -, hs⟩
    · split at hc
      · rw [if_pos (by omega), Nat.mod_eq_of_lt (by omega : addr / entrySize sl < 16)]; omega
      · rw [if_neg (by omega)]; omega
    · rw [if_neg (by omega)]; omega
  refine ⟨hroot.1, ?_⟩
  rw [hroot.2, Nat.mul_comm]
  exact Nat.div_add_mod _ _

/-- C19: two addresses of the IPA space with the same root, the same index at every
level and the same page offset are equal. -/
theorem C19_indices_injective (paWidth ipaBits : Nat) (sl : Int) (lpa2 : Bool) (n a b : Nat)
    (hg : Legal paWidth ipaBits sl lpa2 n) (ha : a < 2 ^ ipaBits) (hb : b < 2 ^ ipaBits)
    (hr : rootNum a sl ipaBits = rootNum b sl ipaBits)
    (hi : ∀ l, sl ≤ l → l ≤ 3 → addrToIdx a l = addrToIdx b l)
    (ho : a % 4096 = b % 4096) : a = b := by
  have h1 := (C19_indices_recombine paWidth ipaBits sl lpa2 n a hg ha).2
  have h2 := (C19_indices_recombine paWidth ipaBits sl lpa2 n b hg hb).2
  have hbel : ∀ d : Nat, d ≤ (3 - sl).toNat → below a d = below b d := by
    intro d hd
    induction d with
    | zero => rfl
    | succ k ih => rw [below, below, ih (by omega), hi _ (by omega) (by omega)]
  rw [← h1, ← h2, hr, hi sl (by omega) hg.level.2, hbel _ (le_refl _), ho]

/-- Met by a 40-bit space with two root tables: an address in the second. -/
example : rootNum 0x8040201000 1 40 = 1 ∧ addrToIdx 0x8040201000 1 = 1 ∧
    addrToIdx 0x8040201000 2 = 1 ∧ addrToIdx 0x8040201000 3 = 1 := by decide

/-! ## The starting-level tables -/

theorem initTable_spec (par ipaSize size : Nat) (fuel : Nat) :
    ∀ (rtte cur : Nat) (t : Nat → RootInit), 0 < size → cur + fuel * size ≥ 0 →
    (∀ N, ipaSize = cur + N * size → 0 < N →
      ((initTable par ipaSize size fuel rtte cur t).2.2 = decide (N ≤ fuel)) ∧
      (initTable par ipaSize size fuel rtte cur t).2.1 = cur + min N fuel * size ∧
      ∀ i, (initTable par ipaSize size fuel rtte cur t).1 i =
        if rtte ≤ i ∧ i < rtte + min N fuel then
          (if cur + (i - rtte) * size < par then .empty else .ns) else t i) := by
  induction fuel with
  | zero =>
    intro rtte cur t hs _ N hN hpos
    refine ⟨by simp [initTable]; omega, by simp [initTable], ?_⟩
    intro i
    rw [if_neg (by omega)]; rfl
  | succ k ih =>
    intro rtte cur t hs _ N hN hpos
    rw [initTable]
    obtain ⟨M, rfl⟩ : ∃ M, N = M + 1 := ⟨N - 1, by omega⟩
    rw [Nat.add_mul, Nat.one_mul] at hN
    by_cases hM : M = 0
    · subst hM
      rw [if_pos (by omega)]
      refine ⟨by simp, ?_, ?_⟩
      · simp only; rw [Nat.min_eq_left (by omega)]; omega
      · intro i
        by_cases hi : i = rtte
        · subst hi; simp
        · simp only [hi, if_false]; rw [if_neg (by omega)]
    · have hMs : 0 < M * size := Nat.mul_pos (by omega) hs
      rw [if_neg (by omega)]
      obtain ⟨h1, h2, h3⟩ := ih (rtte + 1) (cur + size) _ hs (by omega) M (by omega) (by omega)
      refine ⟨?_, ?_, ?_⟩
      · rw [h1]; simp
      · rw [h2]
        have : min (M + 1) (k + 1) = min M k + 1 := by omega
        rw [this, Nat.add_mul, Nat.one_mul]; omega
      · intro i
        rw [h3]
        have : min (M + 1) (k + 1) = min M k + 1 := by omega
        rw [this]
        by_cases hi : i = rtte
        · subst hi
          have hA : ¬ (i + 1 ≤ i ∧ i < i + 1 + min M k) := by omega
          have hB : i ≤ i ∧ i < i + (min M k + 1) := by omega
          rw [if_neg hA, if_pos rfl, if_pos hB]; simp
        · by_cases hr : rtte + 1 ≤ i ∧ i < rtte + 1 + min M k
          · have hB : rtte ≤ i ∧ i < rtte + (min M k + 1) := by omega
            rw [if_pos hr, if_pos hB]
            have : cur + size + (i - (rtte + 1)) * size = cur + (i - rtte) * size := by
              rw [show i - rtte = (i - (rtte + 1)) + 1 by omega, Nat.add_mul]; omega
            rw [this]
          · rw [if_neg hr, if_neg hi, if_neg (by omega)]

theorem initTables_spec (par ipaSize size per : Nat) (hs : 0 < size) (hper : 0 < per) (fuel : Nat) :
    ∀ (rtt cur : Nat) (ts : Nat → Nat → RootInit) (N : Nat),
      ipaSize = cur + N * size → 0 < N → N ≤ fuel * per →
      ∃ ts', initTables par ipaSize size per fuel rtt cur ts = some ts' ∧
        ∀ j i, ts' j i = if rtt ≤ j ∧ i < per ∧ (j - rtt) * per + i < N then
          (if cur + ((j - rtt) * per + i) * size < par then .empty else .ns) else ts j i := by
  induction fuel with
  | zero => intro _ _ _ N _ h1 h2; omega
  | succ k ih =>
    intro rtt cur ts N hN hpos hfuel
    obtain ⟨h1, h2, h3⟩ := initTable_spec par ipaSize size per 0 cur (ts rtt) hs (by omega) N hN hpos
    rw [initTables]
    by_cases hle : N ≤ per
    · rw [if_pos (by rw [h1]; simpa using hle)]
      refine ⟨_, rfl, ?_⟩
      intro j i
      by_cases hj : j = rtt
      · subst hj
        simp only [if_true]
        rw [h3, Nat.min_eq_left hle]
        by_cases hi : i < N
        · have hip : i < per := by omega
          simp [hi, hip]
        · simp [hi]
      · simp only [hj, if_false]
        rw [if_neg]
        rintro ⟨ha, hb, hc⟩
        have : per ≤ (j - rtt) * per := Nat.le_mul_of_pos_left _ (by omega)
        omega
    · rw [if_neg (by rw [h1]; simpa using hle)]
      rw [Nat.min_eq_right (by omega)] at h2 h3
      rw [h2]
      have hN' : N * size = per * size + (N - per) * size := by
        rw [← Nat.add_mul]; congr 1; omega
      have hfuel' : N - per ≤ k * per := by rw [Nat.add_mul] at hfuel; omega
      obtain ⟨ts', ht, hspec⟩ := ih (rtt + 1) (cur + per * size) _ (N - per) (by omega) (by omega) hfuel'
      refine ⟨ts', ht, ?_⟩
      intro j i
      rw [hspec]
      by_cases hj : j = rtt
      · subst hj
        rw [if_neg (by omega)]
        simp only [if_true]
        rw [h3]
        by_cases hi : i < per
        · have hiN : i < N := by omega
          simp [hi, hiN]
        · simp [hi]
      · simp only [hj, if_false]
        by_cases hlt : rtt ≤ j
        · obtain ⟨m, rfl⟩ : ∃ m, j = rtt + 1 + m := ⟨j - (rtt + 1), by omega⟩
          have e1 : rtt + 1 + m - (rtt + 1) = m := by omega
          have e2 : rtt + 1 + m - rtt = m + 1 := by omega
          rw [e1, e2, show (m + 1) * per = m * per + per by ring]
          have e3 : cur + per * size + (m * per + i) * size = cur + (m * per + per + i) * size := by ring
          rw [e3]
          by_cases hc : i < per ∧ m * per + i < N - per
          · have hA : rtt + 1 ≤ rtt + 1 + m ∧ i < per ∧ m * per + i < N - per := by omega
            have hB : rtt ≤ rtt + 1 + m ∧ i < per ∧ m * per + per + i < N := by omega
            rw [if_pos hA, if_pos hB]
          · have hA : ¬ (rtt + 1 ≤ rtt + 1 + m ∧ i < per ∧ m * per + i < N - per) := by omega
            have hB : ¬ (rtt ≤ rtt + 1 + m ∧ i < per ∧ m * per + per + i < N) := by omega
            rw [if_neg hA, if_neg hB]
        · rw [if_neg (by omega), if_neg (by omega)]

/-- C20: for an accepted geometry `init_s2_starting_level` never reaches its
`assert(false)`; entry `i` of root table `j`, which maps the IPAs from
`(j * 512 + i) * entrySize`, becomes UNASSIGNED/EMPTY if that IPA is in the protected half,
UNASSIGNED_NS if it is in the unprotected half, and is left zero if it lies
outside the IPA space. -/
theorem C20_starting_level_initialised (paWidth ipaBits : Nat) (sl : Int) (lpa2 : Bool) (n : Nat)
    (hg : Legal paWidth ipaBits sl lpa2 n) :
    ∃ ts, initStartingLevel ipaBits sl n = some ts ∧
      ∀ j i, i < (if sl = -1 then 16 else 512) →
        ts j i =
          if (j * 512 + i) * entrySize sl < 2 ^ (ipaBits - 1) then .empty
          else if (j * 512 + i) * entrySize sl < 2 ^ ipaBits then .ns
          else .untouched := by
  obtain ⟨hw, hl, -, e, h2, he, hc⟩ := hg
  have hpos : 0 < entrySize sl := by rw [← pow_lsb]; exact Nat.two_pow_pos _
  have hhalf : 2 ^ ipaBits / 2 = 2 ^ (ipaBits - 1) := by
    conv_lhs => rw [show ipaBits = (ipaBits - 1) + 1 by omega, Nat.pow_succ]
    omega
  have hdbl : 2 ^ ipaBits = 2 * 2 ^ (ipaBits - 1) := by
    conv_lhs => rw [show ipaBits = (ipaBits - 1) + 1 by omega, Nat.pow_succ]
    omega
  have hfit : e ≤ n * perTable sl := by
    unfold perTable
    rcases hc with ⟨hc, rfl⟩ | ⟨-, hc, -, hs⟩
    · omega
    · rw [if_neg (by omega)]; omega
  obtain ⟨ts, h1, h3⟩ := initTables_spec (2 ^ ipaBits / 2) (2 ^ ipaBits) (2 ^ lsb sl) (perTable sl)
    (Nat.two_pow_pos _) (by unfold perTable; split <;> omega) n 0 0
    (fun _ _ => .untouched) e (by rw [pow_lsb, Nat.zero_add]; exact he) (by omega) hfit
  refine ⟨ts, h1, ?_⟩
  intro j i hi
  rw [h3, hhalf, pow_lsb]
  have hlt : ∀ k, k * entrySize sl < 2 ^ ipaBits ↔ k < e := by
    intro k; rw [he]; exact Nat.mul_lt_mul_right hpos
  simp only [Nat.zero_le, Nat.sub_zero, Nat.zero_add, true_and]
  by_cases hm1 : sl = -1
  · have hp : perTable sl = 16 := by unfold perTable; rw [if_pos hm1]
    rw [if_pos hm1] at hi
    have he16 : e ≤ 16 := by
      rcases hc with ⟨hc, -⟩ | ⟨-, -, -, hs⟩
      · rw [if_pos hm1] at hc; exact hc
      · omega
    rw [hp]
    by_cases hj : j = 0
    · subst hj
      simp only [Nat.zero_mul, Nat.zero_add]
      by_cases hie : i < e
      · rw [if_pos (by omega)]
        have := (hlt i).2 hie
        simp [this]
      · rw [if_neg (by omega)]
        have : ¬ i * entrySize sl < 2 ^ ipaBits := fun h => hie ((hlt i).1 h)
        rw [if_neg (by omega), if_neg this]
    · have : ¬ (j * 512 + i) * entrySize sl < 2 ^ ipaBits := fun h => by
        have := (hlt _).1 h; omega
      rw [if_neg (by omega), if_neg (by omega), if_neg this]
  · have hp : perTable sl = 512 := by unfold perTable; rw [if_neg hm1]
    rw [if_neg hm1] at hi
    rw [hp]
    by_cases hie : j * 512 + i < e
    · rw [if_pos (by omega)]
      have := (hlt _).2 hie
      simp [this]
    · rw [if_neg (by omega)]
      have : ¬ (j * 512 + i) * entrySize sl < 2 ^ ipaBits := fun h => hie ((hlt _).1 h)
      rw [if_neg (by omega), if_neg this]

end Verif.Geometry
