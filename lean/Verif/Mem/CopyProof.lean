import Verif.Mem.Copy
import Verif.Mem.MemsetProof

/-! Proofs about memcpy, memmove, memcmp, strnlen, strlcpy. -/

namespace Verif.Mem

theorem sub_ofNat_toNat (x : Addr) (k : Nat) (h : k ≤ x.toNat) : (x - BitVec.ofNat 64 k).toNat = x.toNat - k := by
  have := x.isLt
  rw [BitVec.toNat_sub, BitVec.toNat_ofNat]; omega

/-- Distance of an address from a base, for an address given by an offset. -/
theorem off_toNat (b : Addr) {k : Nat} (h : k < 2 ^ 64) : (b + BitVec.ofNat 64 k - b).toNat = k := by
  have : b + BitVec.ofNat 64 k - b = BitVec.ofNat 64 k := by grind
  rw [this, BitVec.toNat_ofNat, Nat.mod_eq_of_lt h]

theorem eq_off {x b : Addr} {k : Nat} (h : (x - b).toNat = k) : x = b + BitVec.ofNat 64 k := by
  rw [← h, BitVec.ofNat_toNat, BitVec.setWidth_eq]; grind

/-- `src + k` seen from `dst`. -/
theorem cross_toNat (dst src : Addr) {k : Nat} (h : k < 2 ^ 64) :
    (src + BitVec.ofNat 64 k - dst).toNat =
      if (dst - src).toNat ≤ k then k - (dst - src).toNat else 2 ^ 64 + k - (dst - src).toNat := by
  have e : src + BitVec.ofNat 64 k - dst = BitVec.ofNat 64 k - (dst - src) := by grind
  have := (dst - src).isLt
  rw [e, BitVec.toNat_sub, BitVec.toNat_ofNat]
  split <;> omega

/-- Memory with the bytes `i` to `n - 1` from `dst` on taken from `src`. -/
def moved (m : Mem) (dst src : Addr) (i n : Nat) : Mem :=
  fun x => if i ≤ (x - dst).toNat ∧ (x - dst).toNat < n then m (src + (x - dst)) else m x

theorem moved_none (m : Mem) (dst src : Addr) {i n : Nat} (h : n ≤ i) : moved m dst src i n = m := by
  funext x; unfold moved; rw [if_neg (by omega)]

theorem put_up (m : Mem) (dst src : Addr) {k : Nat} (h : k < 2 ^ 64) :
    put (moved m dst src 0 k) (dst + BitVec.ofNat 64 k) (m (src + BitVec.ofNat 64 k)) = moved m dst src 0 (k + 1) := by
  funext x
  unfold put
  by_cases hx : x = dst + BitVec.ofNat 64 k
  · rw [if_pos hx]; subst hx
    unfold moved
    rw [if_pos (by rw [off_toNat _ h]; omega)]
    congr 2; grind
  · rw [if_neg hx]
    have hne : (x - dst).toNat ≠ k := fun e => hx (eq_off e)
    unfold moved
    by_cases hl : (x - dst).toNat < k
    · rw [if_pos (by omega), if_pos (by omega)]
    · rw [if_neg (by omega), if_neg (by omega)]

theorem put_down (m : Mem) (dst src : Addr) {k n : Nat} (h : k < 2 ^ 64) (hn : k < n) :
    put (moved m dst src (k + 1) n) (dst + BitVec.ofNat 64 k) (m (src + BitVec.ofNat 64 k)) = moved m dst src k n := by
  funext x
  unfold put
  by_cases hx : x = dst + BitVec.ofNat 64 k
  · rw [if_pos hx]; subst hx
    unfold moved
    rw [if_pos (by rw [off_toNat _ h]; omega)]
    congr 2; grind
  · rw [if_neg hx]
    have hne : (x - dst).toNat ≠ k := fun e => hx (eq_off e)
    unfold moved
    by_cases hl : k ≤ (x - dst).toNat ∧ (x - dst).toNat < n
    · rw [if_pos (by omega), if_pos hl]
    · rw [if_neg (by omega), if_neg hl]

theorem succ_off (a : Addr) (k : Nat) : a + BitVec.ofNat 64 k + 1 = a + BitVec.ofNat 64 (k + 1) := add_ofNat a k 1

theorem memcpy_from {p : Perm} {m : Mem} {dst src : Addr} {n : Nat} (hn : n < 2 ^ 64)
    (hr : ∀ i < n, p.r (src + BitVec.ofNat 64 i) = true) (hw : ∀ i < n, p.w (dst + BitVec.ofNat 64 i) = true)
    (hov : (dst - src).toNat = 0 ∨ n ≤ (dst - src).toNat) : ∀ (r k : Nat), k + r = n →
    memcpy p (moved m dst src 0 k) (dst + BitVec.ofNat 64 k) (src + BitVec.ofNat 64 k) r = some (moved m dst src 0 n)
  | 0, k, h => by unfold memcpy; rw [show k = n by omega]
  | r + 1, k, h => by
    have hk : k < 2 ^ 64 := by omega
    have e : moved m dst src 0 k (src + BitVec.ofNat 64 k) = m (src + BitVec.ofNat 64 k) := by
      unfold moved
      rw [if_neg]
      rw [cross_toNat _ _ hk]
      have := (dst - src).isLt
      split <;> omega
    unfold memcpy
    simp only [ld, st, if_pos (hr k (by omega)), if_pos (hw k (by omega)), e, bind, Option.bind, put_up m dst src hk, succ_off]
    exact memcpy_from hn hr hw hov r (k + 1) (by omega)

theorem memcpy_run {p : Perm} {m : Mem} {dst src : Addr} {n : Nat} (hn : n < 2 ^ 64)
    (hr : ∀ i < n, p.r (src + BitVec.ofNat 64 i) = true) (hw : ∀ i < n, p.w (dst + BitVec.ofNat 64 i) = true)
    (hov : (dst - src).toNat = 0 ∨ n ≤ (dst - src).toNat) :
    memcpy p m dst src n = some (moved m dst src 0 n) := by
  have := memcpy_from (m := m) hn hr hw hov n 0 (by omega)
  rw [moved_none _ _ _ (Nat.le_refl 0)] at this
  simpa using this

theorem pred_off (a : Addr) (k : Nat) : a + BitVec.ofNat 64 (k + 1) - 1 = a + BitVec.ofNat 64 k := by
  rw [← succ_off]; grind

theorem back_from {p : Perm} {m : Mem} {dst src : Addr} {n : Nat} (hn : n ≤ 2 ^ 63)
    (hr : ∀ i < n, p.r (src + BitVec.ofNat 64 i) = true) (hw : ∀ i < n, p.w (dst + BitVec.ofNat 64 i) = true)
    (hov : (dst - src).toNat < n) : ∀ (k fuel : Nat), k ≤ n → k < fuel →
    back p dst (moved m dst src k n) (dst + BitVec.ofNat 64 k) (src + BitVec.ofNat 64 k) fuel = some (moved m dst src 0 n)
  | 0, fuel + 1, _, _ => by unfold back; rw [if_pos (by simp)]
  | k + 1, fuel + 1, h, hf => by
    have hk : k < 2 ^ 64 := by omega
    have hne : dst + BitVec.ofNat 64 (k + 1) ≠ dst := by
      intro e
      have := off_toNat dst (k := k + 1) (by omega)
      rw [e] at this; simp at this
    have e : moved m dst src (k + 1) n (src + BitVec.ofNat 64 k) = m (src + BitVec.ofNat 64 k) := by
      unfold moved
      rw [if_neg]
      rw [cross_toNat _ _ hk]
      split <;> omega
    unfold back
    rw [if_neg hne]
    simp only [pred_off, ld, st, if_pos (hr k (by omega)), if_pos (hw k (by omega)), e, bind, Option.bind,
      put_down m dst src hk (show k < n by omega)]
    exact back_from hn hr hw hov k fuel (by omega) (by omega)

theorem memmove_run {p : Perm} {m : Mem} {dst src : Addr} {len : BitVec 64} (hn : len.toNat ≤ 2 ^ 63)
    (hr : ∀ i < len.toNat, p.r (src + BitVec.ofNat 64 i) = true) (hw : ∀ i < len.toNat, p.w (dst + BitVec.ofNat 64 i) = true)
    {fuel : Nat} (hf : len.toNat < fuel) :
    memmove p m dst src len fuel = some (moved m dst src 0 len.toNat) := by
  unfold memmove
  by_cases h : dst - src ≥ len
  · rw [if_pos h]; exact memcpy_run (by omega) hr hw (.inr h)
  · rw [if_neg h]
    have hlt : (dst - src).toNat < len.toNat := by
      have : ¬ len.toNat ≤ (dst - src).toNat := h
      omega
    have := back_from (m := m) hn hr hw hlt len.toNat fuel (Nat.le_refl _) hf
    rw [moved_none _ _ _ (Nat.le_refl _)] at this
    simpa using this

theorem memcmp_run {p : Perm} {m : Mem} : ∀ {n : Nat} {s d : Addr},
    (∀ i < n, p.r (s + BitVec.ofNat 64 i) = true) → (∀ i < n, p.r (d + BitVec.ofNat 64 i) = true) →
    ∃ v, memcmp p m s d n = some v ∧
      ((v = 0 ∧ ∀ i < n, m (s + BitVec.ofNat 64 i) = m (d + BitVec.ofNat 64 i)) ∨
       (∃ k < n, (∀ i < k, m (s + BitVec.ofNat 64 i) = m (d + BitVec.ofNat 64 i)) ∧
          v = ((m (s + BitVec.ofNat 64 k)).toNat : Int) - (m (d + BitVec.ofNat 64 k)).toNat ∧ v ≠ 0))
  | 0, s, d, _, _ => ⟨0, rfl, .inl ⟨rfl, fun _ h => absurd h (by omega)⟩⟩
  | n + 1, s, d, hs, hd => by
    have s0 : p.r s = true := by simpa using hs 0 (by omega)
    have d0 : p.r d = true := by simpa using hd 0 (by omega)
    have sh : ∀ (a : Addr) (i : Nat), a + BitVec.ofNat 64 (i + 1) = a + 1 + BitVec.ofNat 64 i := by
      intro a i; rw [BitVec.ofNat_add]; change a + (_ + 1) = _; grind
    unfold memcmp
    simp only [ld, if_pos s0, if_pos d0, bind, Option.bind]
    by_cases h : ((m s).toNat : Int) - (m d).toNat ≠ 0
    · rw [if_pos h]
      exact ⟨_, rfl, .inr ⟨0, by omega, fun _ h => absurd h (by omega), by simp, h⟩⟩
    · rw [if_neg h]
      have heq : m s = m d := BitVec.eq_of_toNat_eq (by omega)
      obtain ⟨v, e, hv⟩ := memcmp_run (p := p) (m := m) (n := n) (s := s + 1) (d := d + 1)
        (fun i hi => by rw [← sh]; exact hs (i + 1) (by omega)) (fun i hi => by rw [← sh]; exact hd (i + 1) (by omega))
      refine ⟨v, e, ?_⟩
      rcases hv with ⟨h0, ha⟩ | ⟨k, hk, ha, hv, hv0⟩
      · refine .inl ⟨h0, fun i hi => ?_⟩
        match i with
        | 0 => simpa using heq
        | i + 1 => rw [sh, sh]; exact ha i (by omega)
      · refine .inr ⟨k + 1, by omega, fun i hi => ?_, by rw [sh, sh]; exact hv, hv0⟩
        match i with
        | 0 => simpa using heq
        | i + 1 => rw [sh, sh]; exact ha i (by omega)

theorem strnlen_from {p : Perm} {m : Mem} {s : Addr} {maxlen : Nat}
    (hr : ∀ i < maxlen, (∀ j < i, m (s + BitVec.ofNat 64 j) ≠ 0) → p.r (s + BitVec.ofNat 64 i) = true) :
    ∀ (fuel len : Nat), len ≤ maxlen → maxlen - len < fuel → (∀ j < len, m (s + BitVec.ofNat 64 j) ≠ 0) →
    ∃ r, strnlen p m (s + BitVec.ofNat 64 len) maxlen len fuel = some r ∧ r ≤ maxlen ∧
      (∀ j < r, m (s + BitVec.ofNat 64 j) ≠ 0) ∧ (r < maxlen → m (s + BitVec.ofNat 64 r) = 0)
  | fuel + 1, len, hl, hf, hz => by
    unfold strnlen
    by_cases h : len < maxlen
    · rw [if_pos h]
      simp only [ld, if_pos (hr len h hz), bind, Option.bind]
      by_cases h0 : m (s + BitVec.ofNat 64 len) = 0
      · rw [if_pos h0]; exact ⟨len, rfl, hl, hz, fun _ => h0⟩
      · rw [if_neg h0, succ_off]
        exact strnlen_from hr fuel (len + 1) h (by omega) (fun j hj => by
          by_cases hje : j = len
          · subst hje; exact h0
          · exact hz j (by omega))
    · rw [if_neg h]; exact ⟨len, rfl, hl, hz, fun h' => absurd h' h⟩

/-- Two ranges of addresses without a common byte. -/
def Apart (a : Addr) (n : Nat) (b : Addr) (k : Nat) : Prop :=
  ∀ i < n, ∀ j < k, a + BitVec.ofNat 64 i ≠ b + BitVec.ofNat 64 j

theorem moved_src {m : Mem} {dst src : Addr} {n k L : Nat} (hap : Apart dst n src L) (hk : k ≤ n) {j : Nat} (hj : j < L) :
    moved m dst src 0 k (src + BitVec.ofNat 64 j) = m (src + BitVec.ofNat 64 j) := by
  unfold moved
  rw [if_neg]
  rintro ⟨_, h⟩
  exact hap _ (Nat.lt_of_lt_of_le h hk) j hj (eq_off rfl).symm

theorem lcopy_from {p : Perm} {m : Mem} {dst src : Addr} {n L : Nat} (hn : n < 2 ^ 64) (hL : L + 1 < 2 ^ 64)
    (hz : m (src + BitVec.ofNat 64 L) = 0) (hnz : ∀ j < L, m (src + BitVec.ofNat 64 j) ≠ 0)
    (hr : ∀ i ≤ L, p.r (src + BitVec.ofNat 64 i) = true) (hw : ∀ i < n, p.w (dst + BitVec.ofNat 64 i) = true)
    (hrd : ∀ i < n, p.r (dst + BitVec.ofNat 64 i) = true)
    (hap : Apart dst n src (L + 1)) : ∀ (r k : Nat), k + r = n → k ≤ L → 0 < r →
    lcopy p (moved m dst src 0 k) (dst + BitVec.ofNat 64 k) (src + BitVec.ofNat 64 k) r =
      if L + 1 < n then some (moved m dst src 0 (L + 1), dst + BitVec.ofNat 64 (L + 1), src + BitVec.ofNat 64 (L + 1), n - (L + 1))
      else some (moved m dst src 0 (n - 1), dst + BitVec.ofNat 64 (n - 1), src + BitVec.ofNat 64 (n - 1), 0)
  | r + 1, k, h, hkL, _ => by
    have hk : k < 2 ^ 64 := by omega
    unfold lcopy
    by_cases h0 : r ≠ 0
    · rw [if_pos h0]
      have e := moved_src (m := m) hap (show k ≤ n by omega) (show k < L + 1 by omega)
      simp only [ld, st, if_pos (hr k hkL), if_pos (hw k (by omega)), if_pos (hrd k (by omega)), e, bind, Option.bind,
        put_up m dst src hk, succ_off]
      have e2 : moved m dst src 0 (k + 1) (dst + BitVec.ofNat 64 k) = m (src + BitVec.ofNat 64 k) := by
        rw [← put_up m dst src hk]; simp [put]
      rw [e2]
      by_cases hkl : k = L
      · subst hkl
        rw [if_pos hz, if_pos (by omega)]
        congr 4; omega
      · rw [if_neg (hnz k (by omega))]
        exact lcopy_from hn hL hz hnz hr hw hrd hap r (k + 1) (by omega) (by omega) (by omega)
    · rw [if_neg h0, if_neg (by omega)]
      rw [show n - 1 = k by omega]

theorem lskip_from {p : Perm} {m : Mem} {src : Addr} {L : Nat}
    (hz : m (src + BitVec.ofNat 64 L) = 0) (hnz : ∀ j < L, m (src + BitVec.ofNat 64 j) ≠ 0)
    (hr : ∀ i ≤ L, p.r (src + BitVec.ofNat 64 i) = true) : ∀ (fuel k : Nat), k ≤ L → L - k < fuel →
    lskip p m (src + BitVec.ofNat 64 k) fuel = some (src + BitVec.ofNat 64 (L + 1))
  | fuel + 1, k, hk, hf => by
    unfold lskip
    simp only [ld, if_pos (hr k hk), bind, Option.bind]
    by_cases hkl : k = L
    · subst hkl; rw [if_pos hz, succ_off]
    · rw [if_neg (hnz k (by omega)), succ_off]
      exact lskip_from hz hnz hr fuel (k + 1) (by omega) (by omega)

/-- The string at `src`, cut to fit and terminated. -/
def strcopied (m : Mem) (dst src : Addr) (n L : Nat) : Mem :=
  fun x => if (x - dst).toNat < min L (n - 1) then m (src + (x - dst))
    else if n ≠ 0 ∧ (x - dst).toNat = min L (n - 1) then 0 else m x

theorem strlcpy_run {p : Perm} {m : Mem} {dst src : Addr} {n L : Nat} (hn : n < 2 ^ 64) (hL : L + 1 < 2 ^ 64)
    (hz : m (src + BitVec.ofNat 64 L) = 0) (hnz : ∀ j < L, m (src + BitVec.ofNat 64 j) ≠ 0)
    (hr : ∀ i ≤ L, p.r (src + BitVec.ofNat 64 i) = true) (hw : ∀ i < n, p.w (dst + BitVec.ofNat 64 i) = true)
    (hrd : ∀ i < n, p.r (dst + BitVec.ofNat 64 i) = true)
    (hap : Apart dst n src (L + 1)) {fuel : Nat} (hf : L < fuel) :
    strlcpy p m dst src n fuel = some (strcopied m dst src n L, BitVec.ofNat 64 L) := by
  have eL : src + BitVec.ofNat 64 (L + 1) - src - 1 = BitVec.ofNat 64 L := by rw [← succ_off]; grind
  unfold strlcpy
  match n with
  | 0 =>
    have := lskip_from hz hnz hr fuel 0 (by omega) (by omega)
    simp only [BitVec.add_zero] at this
    simp only [lcopy, bind, Option.bind, this, ne_eq, not_true_eq_false, if_false, if_true, eL]
    congr 2
    funext x; simp [strcopied]
  | n + 1 =>
    have hl := lcopy_from (m := m) hn hL hz hnz hr hw hrd hap (n + 1) 0 (by omega) (by omega) (by omega)
    rw [moved_none _ _ _ (Nat.le_refl 0)] at hl
    simp only [BitVec.add_zero] at hl
    simp only [hl, bind, Option.bind]
    by_cases h : L + 1 < n + 1
    · simp only [if_pos h]
      rw [if_neg (by omega), eL]
      congr 2
      funext x
      unfold moved strcopied
      have hm : min L (n + 1 - 1) = L := by omega
      rw [hm]
      by_cases h1 : (x - dst).toNat < L
      · rw [if_pos (by omega), if_pos h1]
      · rw [if_neg h1]
        by_cases h2 : (x - dst).toNat = L
        · rw [if_pos (by omega), if_pos ⟨by omega, h2⟩]
          have : src + (x - dst) = src + BitVec.ofNat 64 L := by rw [← h2, BitVec.ofNat_toNat, BitVec.setWidth_eq]
          rw [this, hz]
        · rw [if_neg (by omega), if_neg (by omega)]
    · simp only [if_neg h, if_true]
      have hwn := hw n (by omega)
      simp only [Nat.add_sub_cancel, st, if_pos hwn, ne_eq, Nat.add_one_ne_zero, not_false_eq_true, if_true]
      have hm' : ∀ j < L + 1, put (moved m dst src 0 n) (dst + BitVec.ofNat 64 n) 0 (src + BitVec.ofNat 64 j) = m (src + BitVec.ofNat 64 j) := by
        intro j hj
        unfold put
        rw [if_neg (fun e => hap n (by omega) j hj e.symm)]
        exact moved_src hap (by omega) hj
      have := lskip_from (p := p) (m := put (moved m dst src 0 n) (dst + BitVec.ofNat 64 n) 0) (src := src) (L := L)
        (by rw [hm' L (by omega)]; exact hz) (fun j hj => by rw [hm' j (by omega)]; exact hnz j hj) hr fuel n (by omega) (by omega)
      simp only [this, eL]
      congr 2
      funext x
      unfold put moved strcopied
      have hm : min L (n + 1 - 1) = n := by omega
      rw [hm]
      by_cases h1 : x = dst + BitVec.ofNat 64 n
      · subst h1
        rw [if_pos rfl, if_neg (by rw [off_toNat _ (by omega)]; omega), if_pos ⟨by omega, off_toNat _ (by omega)⟩]
      · have hne : (x - dst).toNat ≠ n := fun e => h1 (eq_off e)
        rw [if_neg h1]
        by_cases h2 : (x - dst).toNat < n
        · rw [if_pos (by omega), if_pos h2]
        · rw [if_neg (by omega), if_neg h2, if_neg (by omega)]

end Verif.Mem
