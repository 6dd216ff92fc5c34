import Verif.LockSet.Model
import Verif.Tac

/-!
# C42: locking several granules is all or nothing
-/

namespace Verif.LockSet

/-! ## Sorting -/

/-- The first `n` elements as a list. -/
def toList (a : Arr) (n : Nat) : List Item := (List.range n).map a

theorem shift_spec (temp : Item) (i : Nat) : ∀ a : Arr,
    (shift temp i a).2 ≤ i ∧
    (∀ k, k < (shift temp i a).2 → (shift temp i a).1 k = a k) ∧
    (∀ k, (shift temp i a).2 ≤ k → k < i → (shift temp i a).1 (k + 1) = a k) ∧
    (∀ k, i < k → (shift temp i a).1 k = a k) ∧
    (∀ k, (shift temp i a).2 ≤ k → k < i → temp.addr < (a k).addr) ∧
    (∀ j, (shift temp i a).2 = j + 1 → (a j).addr ≤ temp.addr) ∧
    ((shift temp i a).2 = i → (shift temp i a).1 = a) := by
  induction i with
  | zero =>
    intro a
    refine ⟨Nat.le_refl _, ?_, ?_, ?_, ?_, ?_, ?_⟩
    · intro k hk; exact absurd hk (Nat.not_lt_zero _)
    · intro k _ hk; exact absurd hk (Nat.not_lt_zero _)
    · intros; rfl
    · intro k _ hk; exact absurd hk (Nat.not_lt_zero _)
    · intro j hj; simp [shift] at hj
    · intro; rfl
  | succ j ih =>
    intro a
    rw [shift]
    by_cases hlt : temp.addr < (a j).addr
    · rw [if_pos hlt]
      obtain ⟨h1, h2, h3, h4, h5, h6, h7⟩ := ih (upd a (j + 1) (a j))
      refine ⟨by omega, ?_, ?_, ?_, ?_, ?_, ?_⟩
      · intro k hk; rw [h2 k hk, upd, if_neg (by omega)]
      · intro k hk hkj
        by_cases he : k = j
        · subst he; rw [h4 (k + 1) (by omega), upd, if_pos rfl]
        · rw [h3 k hk (by omega), upd, if_neg (by omega)]
      · intro k hk; rw [h4 k (by omega), upd, if_neg (by omega)]
      · intro k hk hkj
        by_cases he : k = j
        · subst he; exact hlt
        · have := h5 k hk (by omega)
          rw [upd, if_neg (by omega)] at this; exact this
      · intro m hm
        have := h6 m hm
        rw [upd, if_neg (by omega)] at this; exact this
      · intro he; omega
    · rw [if_neg hlt]
      refine ⟨Nat.le_refl _, ?_, ?_, ?_, ?_, ?_, ?_⟩
      · intros; rfl
      · intro k hk hk'; omega
      · intros; rfl
      · intro k hk hk'; omega
      · intro m hm; simp at hm; subst hm; omega
      · intro; rfl

/-- Effect of one outer iteration: the element at `i` moves down to `j`. -/
theorem sortStep_spec (a : Arr) (i : Nat) : ∃ j, j ≤ i ∧
    (∀ k, k < j → sortStep a i k = a k) ∧ sortStep a i j = a i ∧
    (∀ k, j ≤ k → k < i → sortStep a i (k + 1) = a k) ∧
    (∀ k, i < k → sortStep a i k = a k) ∧
    (∀ k, j ≤ k → k < i → (a i).addr < (a k).addr) ∧
    (∀ m, j = m + 1 → (a m).addr ≤ (a i).addr) := by
  obtain ⟨h1, h2, h3, h4, h5, h6, h7⟩ := shift_spec (a i) i a
  refine ⟨(shift (a i) i a).2, h1, ?_, ?_, ?_, ?_, h5, h6⟩
  · intro k hk
    unfold sortStep
    split
    · rw [upd, if_neg (by omega)]; exact h2 k hk
    · exact h2 k hk
  · unfold sortStep
    split
    · rw [upd, if_pos rfl]
    · rename_i hne
      have he : (shift (a i) i a).2 = i := by omega
      rw [h7 he, he]
  · intro k hk hki
    unfold sortStep
    split
    · rw [upd, if_neg (by omega)]; exact h3 k hk hki
    · exact h3 k hk hki
  · intro k hk
    unfold sortStep
    split
    · rw [upd, if_neg (by omega)]; exact h4 k hk
    · exact h4 k hk

theorem map_congr_range' (a b : Arr) (s n : Nat) (h : ∀ k, s ≤ k → k < s + n → a k = b k) :
    (List.range' s n).map a = (List.range' s n).map b := by
  apply List.map_congr_left
  intro k hk
  rw [List.mem_range'_1] at hk
  exact h k hk.1 hk.2

theorem toList_split (a : Arr) (j i n : Nat) (hj : j ≤ i) (hi : i < n) :
    toList a n = (List.range' 0 j).map a ++ ((List.range' j (i - j)).map a ++
      (a i :: (List.range' (i + 1) (n - (i + 1))).map a)) := by
  have e1 : List.range n = List.range' 0 j ++ (List.range' j (i - j) ++
      (i :: List.range' (i + 1) (n - (i + 1)))) := by
    rw [List.range_eq_range', show n = j + ((i - j) + (1 + (n - (i + 1)))) by omega,
      ← List.range'_append_1, ← List.range'_append_1, Nat.zero_add]
    have : j + (i - j) = i := by omega
    rw [this, Nat.add_comm 1, List.range'_succ]
    congr 4; omega
  rw [toList, e1]; simp

theorem sortStep_perm (a : Arr) (i n : Nat) (hi : i < n) :
    (toList (sortStep a i) n).Perm (toList a n) := by
  obtain ⟨j, hj, h1, h2, h3, h4, -, -⟩ := sortStep_spec a i
  have e : toList (sortStep a i) n = (List.range' 0 j).map a ++ (a i ::
      ((List.range' j (i - j)).map a ++ (List.range' (i + 1) (n - (i + 1))).map a)) := by
    rw [toList_split (sortStep a i) j j n (Nat.le_refl _) (by omega), h2]
    rw [map_congr_range' (sortStep a i) a 0 j (fun k _ hk => h1 k (by omega))]
    simp only [Nat.sub_self, List.range'_zero, List.map_nil, List.nil_append]
    congr 2
    rw [show n - (j + 1) = (i - j) + (n - (i + 1)) by omega, ← List.range'_append_1, List.map_append]
    rw [show j + 1 + (i - j) = i + 1 by omega]
    congr 1
    · have : List.range' (j + 1) (i - j) = (List.range' j (i - j)).map (1 + ·) := by
        rw [List.map_add_range', Nat.add_comm]
      rw [this, List.map_map]
      apply List.map_congr_left
      intro k hk
      rw [List.mem_range'_1] at hk
      simp only [Function.comp, Nat.add_comm 1 k]
      exact h3 k hk.1 (by omega)
    · exact map_congr_range' _ _ _ _ (fun k hk _ => h4 k (by omega))
  rw [e, toList_split a j i n hj hi]
  exact List.Perm.append_left _ List.perm_middle.symm

/-- The first `i` elements are in ascending order of address. -/
def SortedTo (a : Arr) (i : Nat) : Prop := ∀ p q, p < q → q < i → (a p).addr ≤ (a q).addr

theorem sortStep_sorted (a : Arr) (i : Nat) (h : SortedTo a i) : SortedTo (sortStep a i) (i + 1) := by
  obtain ⟨j, hj, h1, h2, h3, h4, h5, h6⟩ := sortStep_spec a i
  have below : ∀ k, k < j → (a k).addr ≤ (a i).addr := by
    intro k hk
    have hm := h6 (j - 1) (by omega)
    by_cases he : k = j - 1
    · rw [he]; exact hm
    · exact Nat.le_trans (h k (j - 1) (by omega) (by omega)) hm
  have up : ∀ q, j < q → q ≤ i → sortStep a i q = a (q - 1) := by
    intro q hq hqi
    have := h3 (q - 1) (by omega) (by omega)
    rwa [show q - 1 + 1 = q by omega] at this
  intro p q hpq hq
  rcases Nat.lt_trichotomy q j with hqj | rfl | hqj
  · rw [h1 p (by omega), h1 q hqj]; exact h p q hpq (by omega)
  · rw [h1 p hpq, h2]; exact below p hpq
  · rw [up q hqj (by omega)]
    rcases Nat.lt_trichotomy p j with hpj | rfl | hpj
    · rw [h1 p hpj]
      by_cases he : p = q - 1
      · rw [he]
      · exact h p (q - 1) (by omega) (by omega)
    · rw [h2]; exact Nat.le_of_lt (h5 (q - 1) (by omega) (by omega))
    · rw [up p hpj (by omega)]; exact h (p - 1) (q - 1) (by omega) (by omega)

theorem sortFrom_spec (n : Nat) : ∀ fuel i a, i + fuel = n → SortedTo a i →
    SortedTo (sortFrom fuel i a) n ∧ (toList (sortFrom fuel i a) n).Perm (toList a n) := by
  intro fuel
  induction fuel with
  | zero => intro i a hi hs; exact ⟨by rw [← hi]; exact hs, List.Perm.refl _⟩
  | succ k ih =>
    intro i a hi hs
    rw [sortFrom]
    obtain ⟨h1, h2⟩ := ih (i + 1) (sortStep a i) (by omega) (sortStep_sorted a i hs)
    exact ⟨h1, h2.trans (sortStep_perm a i n (by omega))⟩

/-- Sorting yields the same items in ascending order of address. -/
theorem sortGranules_spec (a : Arr) (n : Nat) :
    SortedTo (sortGranules a n) n ∧ (toList (sortGranules a n) n).Perm (toList a n) := by
  cases n with
  | zero => exact ⟨fun p q _ h => absurd h (Nat.not_lt_zero _), List.Perm.refl _⟩
  | succ m =>
    exact sortFrom_spec (m + 1) m 1 a (by omega) (fun p q h h' => by omega)

/-! ## Specification of the locking operation -/

/-- The granules of the request, by address. -/
def Requested (find : Nat → Option Nat) (gs : Arr) (n g : Nat) : Prop :=
  ∃ k, k < n ∧ find (gs k).addr = some g

/-- All granules of the request are locked, nothing else changed, and each caller
pointer received the granule of its own request. -/
structure AllLocked (find : Nat → Option Nat) (env : Nat → Nat → Nat) (gs : Arr) (n : Nat)
    (ret : Nat → Option Nat) (held : Held) (ret' : Nat → Option Nat) (held' : Held) : Prop where
  locked : ∀ g, held' g = true ↔ held g = true ∨ Requested find gs n g
  found : ∀ k, k < n → ∃ g t, find (gs k).addr = some g ∧ ret' (gs k).slot = some g ∧
    env t g = (gs k).state
  others : ∀ s, (∀ k, k < n → (gs k).slot ≠ s) → ret' s = ret s
  distinct : ∀ j k, j < n → k < n → j ≠ k → (gs j).addr ≠ (gs k).addr

theorem unlockAll_spec (gp : Nat → Nat) (i : Nat) : ∀ (h : Held) (g : Nat),
    unlockAll gp i h g = (h g && decide (¬ ∃ k, k < i ∧ gp k = g)) := by
  induction i with
  | zero => intro h g; simp [unlockAll]
  | succ n ih =>
    intro h g
    rw [unlockAll, ih, unlock]
    by_cases hg : g = gp n
    · rw [if_pos hg]
      have : ∃ k, k < n + 1 ∧ gp k = g := ⟨n, by omega, hg.symm⟩
      simp [this]
    · rw [if_neg hg]
      congr 1
      have : (∃ k, k < n ∧ gp k = g) ↔ (∃ k, k < n + 1 ∧ gp k = g) := by
        constructor
        · rintro ⟨k, hk, h'⟩; exact ⟨k, by omega, h'⟩
        · rintro ⟨k, hk, h'⟩
          refine ⟨k, ?_, h'⟩
          by_contra hh
          have : k = n := by omega
          subst this; exact hg h'.symm
      simp [this]

/-- Invariant of the locking loop at position `i`. -/
structure LoopInv (find : Nat → Option Nat) (env : Nat → Nat → Nat) (a : Arr) (held : Held) (i : Nat)
    (gp : Nat → Nat) (h : Held) : Prop where
  locks : ∀ g, h g = true ↔ held g = true ∨ ∃ k, k < i ∧ gp k = g
  ptr : ∀ k, k < i → find (a k).addr = some (gp k) ∧ env k (gp k) = (a k).state
  strict : ∀ p q, p < q → q < i → (a p).addr < (a q).addr

theorem lockLoop_spec (find : Nat → Option Nat) (hinj : ∀ x y g, find x = some g → find y = some g → x = y)
    (env : Nat → Nat → Nat) (a : Arr) (n : Nat) (hs : SortedTo a n) (held : Held)
    (hfree : ∀ g, Requested find a n g → held g = false) :
    ∀ fuel i gp h, i + fuel = n → LoopInv find env a held i gp h →
      ∃ ok i' gp' h', lockLoop find env a fuel i gp h = some (ok, i', gp', h') ∧ i' ≤ n ∧
        LoopInv find env a held i' gp' h' ∧ (ok = true → i' = n) ∧
        (ok = false → (∃ j k, j < n ∧ k < n ∧ j ≠ k ∧ (a j).addr = (a k).addr) ∨
          ∃ k, k < n ∧ (find (a k).addr = none ∨
            ∃ g, find (a k).addr = some g ∧ ∃ t, env t g ≠ (a k).state)) := by
  intro fuel
  induction fuel with
  | zero =>
    intro i gp h hi hinv
    exact ⟨true, i, gp, h, rfl, by omega, hinv, fun _ => by omega, by simp⟩
  | succ m ih =>
    intro i gp h hi hinv
    rw [lockLoop]
    by_cases hd : i ≠ 0 ∧ (a i).addr = (a (i - 1)).addr
    · rw [if_pos hd]
      exact ⟨false, i, gp, h, rfl, by omega, hinv, by simp,
        fun _ => Or.inl ⟨i, i - 1, by omega, by omega, by omega, hd.2⟩⟩
    · rw [if_neg hd]
      have hgt : ∀ p, p < i → (a p).addr < (a i).addr := by
        intro p hp
        have h1 : (a (i - 1)).addr ≤ (a i).addr := hs (i - 1) i (by omega) (by omega)
        have h2 : (a i).addr ≠ (a (i - 1)).addr := fun e => hd ⟨by omega, e⟩
        by_cases he : p = i - 1
        · subst he; omega
        · have := hs p (i - 1) (by omega) (by omega); omega
      unfold findLock
      cases hf : find (a i).addr with
      | none =>
        exact ⟨false, i, gp, h, rfl, by omega, hinv, by simp,
          fun _ => Or.inr ⟨i, by omega, Or.inl hf⟩⟩
      | some g =>
        have hng : h g = false := by
          cases hb : h g
          · rfl
          · exfalso
            rcases (hinv.locks g).1 hb with h' | ⟨k, hk, rfl⟩
            · rw [hfree g ⟨i, by omega, hf⟩] at h'; simp at h'
            · have := hinj _ _ _ (hinv.ptr k hk).1 hf
              have := hgt k hk; omega
        unfold lockOne
        simp only [hng, Bool.false_eq_true, if_false]
        by_cases he : env i g ≠ (a i).state
        · simp only [he, ne_eq, not_false_eq_true, if_true]
          exact ⟨false, i, gp, h, rfl, by omega, hinv, by simp,
            fun _ => Or.inr ⟨i, by omega, Or.inr ⟨g, hf, i, he⟩⟩⟩
        · simp only [he, if_false]
          apply ih (i + 1) _ _ (by omega)
          refine ⟨?_, ?_, ?_⟩
          · intro g'
            by_cases hg' : g' = g
            · subst hg'
              simp only [if_true, true_iff]
              exact Or.inr ⟨i, by omega, by simp⟩
            · simp only [hg', if_false]
              rw [hinv.locks g']
              constructor
              · rintro (h' | ⟨k, hk, hk'⟩)
                · exact Or.inl h'
                · exact Or.inr ⟨k, by omega, by rw [if_neg (by omega)]; exact hk'⟩
              · rintro (h' | ⟨k, hk, hk'⟩)
                · exact Or.inl h'
                · by_cases hki : k = i
                  · rw [if_pos hki] at hk'; exact absurd hk'.symm hg'
                  · rw [if_neg hki] at hk'; exact Or.inr ⟨k, by omega, hk'⟩
          · intro k hk
            by_cases hki : k = i
            · subst hki
              simp only [if_true]
              exact ⟨hf, by simpa using he⟩
            · simp only [hki, if_false]
              exact hinv.ptr k (by omega)
          · intro p q hpq hq
            by_cases hqi : q = i
            · subst hqi; exact hgt p hpq
            · exact hinv.strict p q hpq (by omega)

theorem assign_spec (a : Arr) (gp : Nat → Nat) (fuel : Nat) : ∀ (i : Nat) (ret : Nat → Option Nat),
    (∀ s, (∀ k, i ≤ k → k < i + fuel → (a k).slot ≠ s) → assign a gp fuel i ret s = ret s) ∧
    ((∀ j k, i ≤ j → j < i + fuel → i ≤ k → k < i + fuel → (a j).slot = (a k).slot → j = k) →
      ∀ k, i ≤ k → k < i + fuel → assign a gp fuel i ret (a k).slot = some (gp k)) := by
  induction fuel with
  | zero => intro i ret; exact ⟨fun _ _ => rfl, fun _ k h h' => by omega⟩
  | succ n ih =>
    intro i ret
    obtain ⟨h1, h2⟩ := ih (i + 1) (fun s => if s = (a i).slot then some (gp i) else ret s)
    constructor
    · intro s hs
      rw [assign, h1 s (fun k hk hk' => hs k (by omega) (by omega)), if_neg]
      exact fun e => hs i (by omega) (by omega) e.symm
    · intro hinj k hk hk'
      rw [assign]
      by_cases hki : k = i
      · subst hki
        rw [h1 _ (fun j hj hj' e => by
          have := hinj j k (by omega) (by omega) (by omega) (by omega) e; omega), if_pos rfl]
      · exact h2 (fun j k a1 a2 a3 a4 e => hinj j k (by omega) (by omega) (by omega) (by omega) e)
          k (by omega) (by omega)

theorem mem_toList (a : Arr) (n : Nat) (x : Item) : x ∈ toList a n ↔ ∃ k, k < n ∧ a k = x := by
  simp [toList]

theorem nodup_addr_of_strict (a : Arr) (n : Nat) (h : ∀ p q, p < q → q < n → (a p).addr < (a q).addr) :
    ((toList a n).map Item.addr).Nodup := by
  rw [toList, List.map_map, List.nodup_iff_pairwise_ne, List.pairwise_map]
  refine List.Pairwise.imp_of_mem ?_ (List.pairwise_lt_range (n := n))
  intro p q _ hq hpq
  have := h p q hpq (List.mem_range.1 hq)
  simp only [Function.comp]; omega

theorem distinct_of_nodup (a : Arr) (n : Nat) (h : ((toList a n).map Item.addr).Nodup) :
    ∀ j k, j < n → k < n → j ≠ k → (a j).addr ≠ (a k).addr := by
  intro j k hj hk hne
  rw [toList, List.map_map, List.nodup_iff_pairwise_ne, List.pairwise_map] at h
  rw [List.pairwise_iff_getElem] at h
  rcases Nat.lt_or_gt_of_ne hne with hlt | hlt
  · have := h j k (by simpa using hj) (by simpa using hk) hlt
    simpa using this
  · have := h k j (by simpa using hk) (by simpa using hj) hlt
    simpa using fun e => this (by simpa using e.symm)

theorem slot_inj_perm (a b : Arr) (n : Nat) (hp : (toList a n).Perm (toList b n))
    (h : ∀ j k, j < n → k < n → (b j).slot = (b k).slot → j = k) :
    ∀ j k, j < n → k < n → (a j).slot = (a k).slot → j = k := by
  have hb : ((toList b n).map Item.slot).Nodup := by
    rw [toList, List.map_map, List.nodup_iff_pairwise_ne, List.pairwise_map]
    refine List.Pairwise.imp_of_mem ?_ (List.pairwise_lt_range (n := n))
    intro p q hp' hq hpq e
    have := h p q (List.mem_range.1 hp') (List.mem_range.1 hq) e
    omega
  have ha : ((toList a n).map Item.slot).Nodup := ((hp.map Item.slot).nodup_iff).2 hb
  intro j k hj hk e
  by_contra hne
  rw [toList, List.map_map, List.nodup_iff_pairwise_ne, List.pairwise_map] at ha
  rw [List.pairwise_iff_getElem] at ha
  rcases Nat.lt_or_gt_of_ne hne with hlt | hlt
  · have := ha j k (by simpa using hj) (by simpa using hk) hlt
    simp at this; exact this e
  · have := ha k j (by simpa using hk) (by simpa using hj) hlt
    simp at this; exact this e.symm

/-- C42: whatever other CPUs do to the granule states in between, the call returns
(this CPU never waits for itself); on success every requested granule is locked in
its expected state and delivered to the pointer of its own request, and all
addresses were different; on failure no lock is left behind and no pointer is
modified. -/
theorem C42_all_or_nothing (find : Nat → Option Nat)
    (hinj : ∀ x y g, find x = some g → find y = some g → x = y)
    (env : Nat → Nat → Nat) (gs : Arr) (n : Nat) (ret : Nat → Option Nat) (held : Held)
    (hslot : ∀ j k, j < n → k < n → (gs j).slot = (gs k).slot → j = k)
    (hfree : ∀ g, Requested find gs n g → held g = false) :
    (∃ ret' held', findLockGranules find env gs n ret held = some (true, ret', held') ∧
      AllLocked find env gs n ret held ret' held') ∨
    (∃ ret' held', findLockGranules find env gs n ret held = some (false, ret', held') ∧
      ret' = ret ∧ held' = held ∧
      ((∃ j k, j < n ∧ k < n ∧ j ≠ k ∧ (gs j).addr = (gs k).addr) ∨
        ∃ k, k < n ∧ (find (gs k).addr = none ∨
          ∃ g, find (gs k).addr = some g ∧ ∃ t, env t g ≠ (gs k).state))) := by
  obtain ⟨hsort, hperm⟩ := sortGranules_spec gs n
  have hmem : ∀ x, (∃ k, k < n ∧ sortGranules gs n k = x) ↔ (∃ k, k < n ∧ gs k = x) := by
    intro x; rw [← mem_toList, ← mem_toList]; exact hperm.mem_iff
  have hreq : ∀ g, Requested find (sortGranules gs n) n g ↔ Requested find gs n g := by
    intro g
    constructor
    · rintro ⟨k, hk, hf⟩
      obtain ⟨k', hk', e⟩ := (hmem _).1 ⟨k, hk, rfl⟩
      exact ⟨k', hk', by rw [e]; exact hf⟩
    · rintro ⟨k, hk, hf⟩
      obtain ⟨k', hk', e⟩ := (hmem _).2 ⟨k, hk, rfl⟩
      exact ⟨k', hk', by rw [e]; exact hf⟩
  have hinit : LoopInv find env (sortGranules gs n) held 0 (fun _ => 0) held := by
    refine ⟨fun g => ?_, fun k hk => by omega, fun p q _ h => by omega⟩
    constructor
    · exact Or.inl
    · rintro (h | ⟨k, hk, -⟩)
      · exact h
      · omega
  obtain ⟨ok, i', gp', h', hl, hi', hinv, hok, hno⟩ :=
    lockLoop_spec find hinj env (sortGranules gs n) n hsort held
      (fun g hg => hfree g ((hreq g).1 hg)) n 0 (fun _ => 0) held (by omega) hinit
  unfold findLockGranules
  simp only [hl]
  cases ok with
  | true =>
    left
    have hn := hok rfl
    subst hn
    have hsl := slot_inj_perm _ gs i' hperm hslot
    obtain ⟨as1, as2⟩ := assign_spec (sortGranules gs i') gp' i' 0 ret
    refine ⟨_, _, rfl, ?_, ?_, ?_, ?_⟩
    · intro g
      rw [hinv.locks g, ← hreq g]
      constructor
      · rintro (h | ⟨k, hk, rfl⟩)
        · exact Or.inl h
        · exact Or.inr ⟨k, hk, (hinv.ptr k hk).1⟩
      · rintro (h | ⟨k, hk, hf⟩)
        · exact Or.inl h
        · refine Or.inr ⟨k, hk, ?_⟩
          have := (hinv.ptr k hk).1
          rw [hf] at this; exact (Option.some.inj this).symm
    · intro k hk
      obtain ⟨k', hk', e⟩ := (hmem _).2 ⟨k, hk, rfl⟩
      have hp := hinv.ptr k' hk'
      refine ⟨gp' k', k', ?_, ?_, ?_⟩
      · rw [← e]; exact hp.1
      · rw [← e]
        exact as2 (fun j k _ a2 _ a4 e' => hsl j k (by omega) (by omega) e') k' (by omega) (by omega)
      · rw [← e]; exact hp.2
    · intro s hs
      apply as1
      intro k _ hk e
      obtain ⟨k', hk', e'⟩ := (hmem _).1 ⟨k, by omega, rfl⟩
      exact hs k' hk' (by rw [e']; exact e)
    · exact distinct_of_nodup gs i'
        (((hperm.map Item.addr).nodup_iff).1 (nodup_addr_of_strict _ i' hinv.strict))
  | false =>
    right
    refine ⟨_, _, rfl, rfl, ?_, ?_⟩
    · funext g
      rw [unlockAll_spec]
      have hlk := hinv.locks g
      have hpt := hinv.ptr
      by_cases hex : ∃ k, k < i' ∧ gp' k = g
      · obtain ⟨k, hk, rfl⟩ := hex
        have hr : Requested find gs n (gp' k) := (hreq _).1 ⟨k, by omega, (hpt k hk).1⟩
        rw [hfree _ hr]
        have : ∃ j, j < i' ∧ gp' j = gp' k := ⟨k, hk, rfl⟩
        simp [this]
      · simp only [hex, or_false] at hlk
        simp only [hex, not_false_eq_true, decide_true, Bool.and_true]
        cases hb : h' g <;> cases hb' : held g <;> simp_all
    · rcases hno rfl with ⟨j, k, hj, hk, hne, he⟩ | ⟨k, hk, hc⟩
      · left
        by_contra hcon
        have hd : ∀ j k, j < n → k < n → j ≠ k → (gs j).addr ≠ (gs k).addr := by
          intro j k hj hk hne e
          exact hcon ⟨j, k, hj, hk, hne, e⟩
        have nd : ((toList gs n).map Item.addr).Nodup := by
          rw [toList, List.map_map, List.nodup_iff_pairwise_ne, List.pairwise_map]
          refine List.Pairwise.imp_of_mem ?_ (List.pairwise_lt_range (n := n))
          intro p q hp hq hpq
          exact hd p q (List.mem_range.1 hp) (List.mem_range.1 hq) (by omega)
        exact distinct_of_nodup _ n (((hperm.map Item.addr).nodup_iff).2 nd) j k hj hk hne he
      · right
        obtain ⟨k', hk', e⟩ := (hmem _).1 ⟨k, hk, rfl⟩
        exact ⟨k', hk', by rw [e]; exact hc⟩

/-- C42: if the addresses are distinct and every granule is, and stays, in its
expected state, the call succeeds, whatever the order of the arguments. -/
theorem C42_succeeds (find : Nat → Option Nat)
    (hinj : ∀ x y g, find x = some g → find y = some g → x = y)
    (env : Nat → Nat → Nat) (gs : Arr) (n : Nat) (ret : Nat → Option Nat) (held : Held)
    (hslot : ∀ j k, j < n → k < n → (gs j).slot = (gs k).slot → j = k)
    (hfree : ∀ g, Requested find gs n g → held g = false)
    (hdist : ∀ j k, j < n → k < n → j ≠ k → (gs j).addr ≠ (gs k).addr)
    (hst : ∀ k, k < n → ∃ g, find (gs k).addr = some g ∧ ∀ t, env t g = (gs k).state) :
    ∃ ret' held', findLockGranules find env gs n ret held = some (true, ret', held') := by
  rcases C42_all_or_nothing find hinj env gs n ret held hslot hfree with
    ⟨r, h, e, -⟩ | ⟨r, h, e, -, -, hc⟩
  · exact ⟨r, h, e⟩
  · exfalso
    rcases hc with ⟨j, k, hj, hk, hne, he⟩ | ⟨k, hk, hc⟩
    · exact hdist j k hj hk hne he
    · obtain ⟨g, hg, hs⟩ := hst k hk
      rcases hc with h0 | ⟨g', hg', t, ht⟩
      · rw [h0] at hg; simp at hg
      · rw [hg] at hg'
        obtain rfl := Option.some.inj hg'
        exact ht (hs t)

/-- `find_lock_two_granules`: granule.c:220-236. -/
def findLockTwo (find : Nat → Option Nat) (env : Nat → Nat → Nat) (a1 s1 a2 s2 : Nat)
    (ret : Nat → Option Nat) (held : Held) : Option (Bool × (Nat → Option Nat) × Held) :=
  findLockGranules find env (fun k => if k = 0 then ⟨a1, s1, 0⟩ else ⟨a2, s2, 1⟩) 2 ret held

/-- C42: for two granules. On success they are different, each pointer has received the granule of its own address, which
was found in its own state, and just these two have been locked; otherwise nothing has changed. -/
theorem C42_two (find : Nat → Option Nat) (hinj : ∀ x y g, find x = some g → find y = some g → x = y)
    (env : Nat → Nat → Nat) (a1 s1 a2 s2 : Nat) (ret : Nat → Option Nat) (held : Held)
    (hfree : ∀ g, find a1 = some g ∨ find a2 = some g → held g = false) :
    (∃ ret' held' g1 g2, findLockTwo find env a1 s1 a2 s2 ret held = some (true, ret', held') ∧ g1 ≠ g2 ∧
      find a1 = some g1 ∧ find a2 = some g2 ∧ ret' 0 = some g1 ∧ ret' 1 = some g2 ∧ (∀ i, 2 ≤ i → ret' i = ret i) ∧
      (∃ t, env t g1 = s1) ∧ (∃ t, env t g2 = s2) ∧ ∀ g, held' g = true ↔ held g = true ∨ g = g1 ∨ g = g2) ∨
    (findLockTwo find env a1 s1 a2 s2 ret held = some (false, ret, held) ∧
      (a1 = a2 ∨ find a1 = none ∨ find a2 = none ∨ (∃ g t, find a1 = some g ∧ env t g ≠ s1) ∨
        ∃ g t, find a2 = some g ∧ env t g ≠ s2)) := by
  have two : ∀ k, k < 2 → k = 0 ∨ k = 1 := by omega
  rcases C42_all_or_nothing find hinj env (fun k => if k = 0 then ⟨a1, s1, 0⟩ else ⟨a2, s2, 1⟩) 2 ret held
    (by
      intro j k hj hk
      rcases two j hj with rfl | rfl <;> rcases two k hk with rfl | rfl <;> simp)
    (by
      rintro g ⟨k, hk, h⟩
      rcases two k hk with rfl | rfl
      · exact hfree g (.inl h)
      · exact hfree g (.inr h)) with ⟨ret', held', h1, h2⟩ | ⟨ret', held', h1, rfl, rfl, h2⟩
  · left
    obtain ⟨g1, t1, k1, k2, k3⟩ := h2.found 0 (by omega)
    obtain ⟨g2, t2, l1, l2, l3⟩ := h2.found 1 (by omega)
    have hne : a1 ≠ a2 := h2.distinct 0 1 (by omega) (by omega) (by omega)
    refine ⟨ret', held', g1, g2, h1, ?_, k1, l1, k2, l2, fun i hi => ?_, ⟨t1, k3⟩, ⟨t2, l3⟩, fun g => ?_⟩
    · rintro rfl; exact hne (hinj _ _ _ k1 l1)
    · refine h2.others i fun k hk => ?_
      rcases two k hk with rfl | rfl <;> simp <;> omega
    · rw [h2.locked g]
      refine or_congr_right ⟨?_, ?_⟩
      · rintro ⟨k, hk, h⟩
        rcases two k hk with rfl | rfl
        · exact .inl (Option.some.inj (h.symm.trans k1))
        · exact .inr (Option.some.inj (h.symm.trans l1))
      · rintro (rfl | rfl)
        · exact ⟨0, by omega, k1⟩
        · exact ⟨1, by omega, l1⟩
  · right
    refine ⟨h1, ?_⟩
    rcases h2 with ⟨j, k, hj, hk, hne, h3⟩ | ⟨k, hk, h3⟩
    · rcases two j hj with rfl | rfl <;> rcases two k hk with rfl | rfl
      · exact absurd rfl hne
      · exact .inl h3
      · exact .inl h3.symm
      · exact absurd rfl hne
    · rcases two k hk with rfl | rfl <;> rcases h3 with h3 | ⟨g, h3, t, h4⟩
      · exact .inr (.inl h3)
      · exact .inr (.inr (.inr (.inl ⟨g, t, h3, h4⟩)))
      · exact .inr (.inr (.inl h3))
      · exact .inr (.inr (.inr (.inr ⟨g, t, h3, h4⟩)))

/-- Two granules given in descending order: both are locked and delivered to the
right pointers; the same address twice is refused and leaves nothing locked. -/
example :
    (findLockTwo (fun a => some (a / 4096)) (fun _ g => g % 2 + 1) 0x3000 2 0x2000 1
      (fun _ => none) (fun _ => false)).map (fun r => (r.1, r.2.1 0, r.2.1 1, r.2.2 2, r.2.2 3)) =
      some (true, some 3, some 2, true, true) ∧
    (findLockTwo (fun a => some (a / 4096)) (fun _ g => g % 2 + 1) 0x3000 2 0x3000 2
      (fun _ => none) (fun _ => false)).map (fun r => (r.1, r.2.2 3)) = some (false, false) := by
  decide

end Verif.LockSet
