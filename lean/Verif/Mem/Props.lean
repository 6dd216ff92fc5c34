import Verif.Mem.ZeroProof

/-!
# C57: the memory primitives do what the rest of the code takes for granted

The statements use only addresses, bytes and ranges.
-/

namespace Verif.Mem

/-- The bytes `a` to `a + n - 1`. -/
def inRange (x a : Addr) (n : Nat) : Prop := ∃ i < n, x = a + BitVec.ofNat 64 i

theorem inRange_iff {x a : Addr} {n : Nat} (h : n ≤ 2 ^ 64) : inRange x a n ↔ (x - a).toNat < n := by
  constructor
  · rintro ⟨i, hi, rfl⟩; rw [off_toNat _ (by omega)]; exact hi
  · intro h'; exact ⟨_, h', eq_off rfl⟩

/-- memset: it ends, returns the destination, writes only where it was told to and with aligned
stores, every byte of the range is the low byte of the value, and no other byte changes. -/
theorem C57_memset {ok : Addr → Bool} {s : Cpu} (hpc : s.pc = 0) (hok : ∀ x, inRange x s.x0 s.x2.toNat → ok x = true) :
    ∃ n s', run ok n s = .done s' ∧ s'.x0 = s.x0 ∧
      (∀ x, inRange x s.x0 s.x2.toNat → s'.mem x = s.x1.setWidth 8) ∧
      (∀ x, ¬ inRange x s.x0 s.x2.toNat → s'.mem x = s.mem x) := by
  obtain ⟨n, s', h1, h2, h3⟩ := memset_run hpc (fun i hi => hok _ ⟨i, hi, rfl⟩)
  refine ⟨n, s', h1, h2, fun x hx => ?_, fun x hx => ?_⟩ <;> rw [h3] <;> unfold filled <;>
    rw [inRange_iff (Nat.le_of_lt s.x2.isLt)] at hx
  · rw [if_pos hx]
    apply BitVec.eq_of_getLsbD_eq
    intro i hi
    simp [byte]
  · rw [if_neg hx]

/-- memmove: for any two ranges, overlapping or not, the destination gets the old bytes of the source. -/
theorem C57_memmove {p : Perm} {m : Mem} {dst src : Addr} {len : BitVec 64} (hn : len.toNat ≤ 2 ^ 63)
    (hr : ∀ x, inRange x src len.toNat → p.r x = true) (hw : ∀ x, inRange x dst len.toNat → p.w x = true) :
    ∃ fuel m', memmove p m dst src len fuel = some m' ∧
      (∀ i < len.toNat, m' (dst + BitVec.ofNat 64 i) = m (src + BitVec.ofNat 64 i)) ∧
      (∀ x, ¬ inRange x dst len.toNat → m' x = m x) := by
  refine ⟨len.toNat + 1, _, memmove_run hn (fun i hi => hr _ ⟨i, hi, rfl⟩) (fun i hi => hw _ ⟨i, hi, rfl⟩) (by omega), ?_, ?_⟩
  · intro i hi
    unfold moved
    rw [off_toNat _ (by omega), if_pos ⟨by omega, hi⟩]
    congr 2; grind
  · intro x hx
    rw [inRange_iff (by omega)] at hx
    unfold moved; rw [if_neg (by omega)]

/-- memcpy: the same for ranges without a common byte. -/
theorem C57_memcpy {p : Perm} {m : Mem} {dst src : Addr} {len : Nat} (hn : len < 2 ^ 64)
    (hr : ∀ x, inRange x src len → p.r x = true) (hw : ∀ x, inRange x dst len → p.w x = true)
    (hap : ∀ x, ¬ (inRange x dst len ∧ inRange x src len)) :
    ∃ m', memcpy p m dst src len = some m' ∧
      (∀ i < len, m' (dst + BitVec.ofNat 64 i) = m (src + BitVec.ofNat 64 i)) ∧
      (∀ x, ¬ inRange x dst len → m' x = m x) := by
  refine ⟨_, memcpy_run hn (fun i hi => hr _ ⟨i, hi, rfl⟩) (fun i hi => hw _ ⟨i, hi, rfl⟩) ?_, ?_, ?_⟩
  · by_cases h : len ≤ (dst - src).toNat
    · exact .inr h
    · exact absurd ⟨⟨0, by omega, by simp⟩, ⟨_, Nat.lt_of_not_le h, eq_off rfl⟩⟩ (hap dst)
  · intro i hi
    unfold moved
    rw [off_toNat _ (by omega), if_pos ⟨by omega, hi⟩]
    congr 2; grind
  · intro x hx
    rw [inRange_iff (by omega)] at hx
    unfold moved; rw [if_neg (by omega)]

/-- memcmp: zero exactly when the ranges agree, else the sign of the first difference. -/
theorem C57_memcmp {p : Perm} {m : Mem} {s d : Addr} {len : Nat}
    (hs : ∀ x, inRange x s len → p.r x = true) (hd : ∀ x, inRange x d len → p.r x = true) :
    ∃ v, memcmp p m s d len = some v ∧
      (v = 0 ↔ ∀ i < len, m (s + BitVec.ofNat 64 i) = m (d + BitVec.ofNat 64 i)) ∧
      (∀ k < len, (∀ i < k, m (s + BitVec.ofNat 64 i) = m (d + BitVec.ofNat 64 i)) →
        (m (s + BitVec.ofNat 64 k) < m (d + BitVec.ofNat 64 k) → v < 0) ∧
        (m (d + BitVec.ofNat 64 k) < m (s + BitVec.ofNat 64 k) → 0 < v)) := by
  obtain ⟨v, e, h⟩ := memcmp_run (m := m) (fun i hi => hs _ ⟨i, hi, rfl⟩) (fun i hi => hd _ ⟨i, hi, rfl⟩)
  refine ⟨v, e, ?_, ?_⟩
  · rcases h with ⟨h0, ha⟩ | ⟨k, hk, _, hv, hne⟩
    · exact ⟨fun _ => ha, fun _ => h0⟩
    · refine ⟨fun h => absurd h hne, fun ha => ?_⟩
      rw [hv, ha k hk]; omega
  · intro k hk hpre
    rcases h with ⟨_, ha⟩ | ⟨k', hk', hpre', hv, hne⟩
    · rw [ha k hk]; exact ⟨fun h => absurd h (BitVec.lt_irrefl _), fun h => absurd h (BitVec.lt_irrefl _)⟩
    · have hkk : ∀ (q : m (s + BitVec.ofNat 64 k) ≠ m (d + BitVec.ofNat 64 k)), k = k' := by
        intro q
        by_cases h1 : k < k'
        · exact absurd (hpre' k h1) q
        · by_cases h2 : k' < k
          · have := hpre k' h2; rw [this] at hv; omega
          · omega
      constructor
      · intro h
        have := hkk (fun e => by rw [e] at h; exact BitVec.lt_irrefl _ h)
        subst this; rw [hv]; rw [BitVec.lt_def] at h; omega
      · intro h
        have := hkk (fun e => by rw [e] at h; exact BitVec.lt_irrefl _ h)
        subst this; rw [hv]; rw [BitVec.lt_def] at h; omega

/-- strnlen: reads no byte past the terminator or the limit, and returns the length. -/
theorem C57_strnlen {p : Perm} {m : Mem} {s : Addr} {maxlen : Nat}
    (hr : ∀ i < maxlen, (∀ j < i, m (s + BitVec.ofNat 64 j) ≠ 0) → p.r (s + BitVec.ofNat 64 i) = true) :
    ∃ fuel r, strnlen p m s maxlen 0 fuel = some r ∧ r ≤ maxlen ∧
      (∀ j < r, m (s + BitVec.ofNat 64 j) ≠ 0) ∧ (r < maxlen → m (s + BitVec.ofNat 64 r) = 0) := by
  obtain ⟨r, h⟩ := strnlen_from hr (maxlen + 1) 0 (by omega) (by omega) (fun _ h => absurd h (by omega))
  exact ⟨maxlen + 1, r, by simpa using h⟩

/-- strlcpy: for a string of `L` bytes the destination holds the string cut to fit with a terminator,
the result is `L`, and no byte is read past the terminator or written outside the destination. -/
theorem C57_strlcpy {p : Perm} {m : Mem} {dst src : Addr} {n L : Nat} (hn : n < 2 ^ 64) (hL : L + 1 < 2 ^ 64)
    (hz : m (src + BitVec.ofNat 64 L) = 0) (hnz : ∀ j < L, m (src + BitVec.ofNat 64 j) ≠ 0)
    (hr : ∀ x, inRange x src (L + 1) ∨ inRange x dst n → p.r x = true) (hw : ∀ x, inRange x dst n → p.w x = true)
    (hap : ∀ x, ¬ (inRange x dst n ∧ inRange x src (L + 1))) :
    ∃ fuel m', strlcpy p m dst src n fuel = some (m', BitVec.ofNat 64 L) ∧
      (∀ i, i < L → i + 1 < n → m' (dst + BitVec.ofNat 64 i) = m (src + BitVec.ofNat 64 i)) ∧
      (∀ i < n, (i = L ∨ i < L ∧ i + 1 = n) → m' (dst + BitVec.ofNat 64 i) = 0) ∧
      (∀ x, ¬ inRange x dst (min n (L + 1)) → m' x = m x) := by
  refine ⟨L + 1, _, strlcpy_run hn hL hz hnz (fun i hi => hr _ (.inl ⟨i, by omega, rfl⟩)) (fun i hi => hw _ ⟨i, hi, rfl⟩)
    (fun i hi => hr _ (.inr ⟨i, hi, rfl⟩)) (fun i hi j hj e => hap _ ⟨⟨i, hi, rfl⟩, ⟨j, hj, e⟩⟩) (by omega), ?_, ?_, ?_⟩
  · intro i h1 h2
    unfold strcopied
    rw [off_toNat _ (by omega), if_pos (by omega)]
    congr 2; grind
  · intro i h1 h2
    unfold strcopied
    rw [off_toNat _ (by omega), if_neg (by omega), if_pos (by omega)]
  · intro x hx
    rw [inRange_iff (by omega)] at hx
    unfold strcopied
    rw [if_neg (by omega), if_neg (by omega)]

/-- granule_memzero_mapped: all 4096 bytes of the granule and no other byte become zero, for every
block size of DC ZVA that the architecture allows. -/
theorem C57_memzero {p : Perm} {m : Mem} {buf : Addr} {dczid : BitVec 64} (hz : dczid.getLsbD 4 = false)
    (hb : (dczid.extractLsb' 0 4).toNat ≤ 9) (ha : buf.toNat % 4096 = 0) (hw : ∀ x, inRange x buf 4096 → p.w x = true) :
    ∃ m', memzero p m buf dczid = some m' ∧ (∀ x, inRange x buf 4096 → m' x = 0) ∧
      (∀ x, ¬ inRange x buf 4096 → m' x = m x) := by
  refine ⟨_, memzero_run hz hb ha (fun i hi => hw _ ⟨i, hi, rfl⟩), fun x hx => ?_, fun x hx => ?_⟩ <;>
    unfold filled <;> rw [inRange_iff (by omega)] at hx
  · rw [if_pos hx]
  · rw [if_neg hx]

/-- The cache range functions: a line is operated on exactly when it holds a byte of the range. -/
theorem C57_dcache {ctr x0 x1 : BitVec 64} (h : x0.toNat + x1.toNat + lineSize ctr ≤ 2 ^ 64) :
    ∃ fuel as, dcRange ctr x0 x1 fuel = some as ∧
      ∀ a : Addr, a ∈ as ↔ ∃ i < x1.toNat, a.toNat = (x0.toNat + i) / lineSize ctr * lineSize ctr := by
  obtain ⟨as, h⟩ := dcRange_run h (fuel := x0.toNat + x1.toNat + 1) (by omega)
  exact ⟨_, as, h⟩

/-- Without the bound it is not so: a range that ends at the top of the address space gets one line. -/
theorem C57_dcache_top : ∃ (ctr x0 x1 : BitVec 64), x0.toNat + x1.toNat = 2 ^ 64 ∧ lineSize ctr = 64 ∧ x1.toNat = 128 ∧
    ∀ fuel, dcRange ctr x0 x1 (fuel + 1) = some [x0] :=
  ⟨0x40000, 0xffffffffffffff80, 128, by decide, by decide, by decide, fun _ => rfl⟩

/-! The hypotheses are met. -/

/-- 100 bytes at an odd address, also across the end of the address space. -/
example (m : Mem) : ∃ n s', run (fun _ => true) n ⟨0, 0xffffffffffffffc3, 0x1a5, 100, 0, 0, false, m⟩ = .done s' ∧ s'.mem 5 = 0xa5 := by
  obtain ⟨n, s', h1, _, h3, _⟩ := C57_memset (ok := fun _ => true) (s := ⟨0, 0xffffffffffffffc3, 0x1a5, 100, 0, 0, false, m⟩) rfl (fun _ _ => rfl)
  refine ⟨n, s', h1, (h3 5 ⟨66, ?_, ?_⟩).trans ?_⟩
  · change 66 < (100 : BitVec 64).toNat; decide
  · change (5 : BitVec 64) = 0xffffffffffffffc3 + 66#64; decide
  · change (0x1a5 : BitVec 64).setWidth 8 = 0xa5; decide

/-- A store to a byte outside is a fault: the hypothesis on `ok` is needed. -/
example : (run (fun x => x == 8) 20 ⟨0, 8, 1, 2, 0, 0, false, fun _ => 0⟩ matches .fault) = true := by decide +kernel

/-- Overlap in both directions. -/
example (m : Mem) : ∃ fuel m', memmove ⟨fun _ => true, fun _ => true⟩ m 0x1003 0x1000 8 fuel = some m' ∧ m' 0x1006 = m 0x1003 := by
  obtain ⟨fuel, m', h1, h2, _⟩ := C57_memmove (p := ⟨fun _ => true, fun _ => true⟩) (m := m) (dst := 0x1003) (src := 0x1000) (len := 8)
    (by decide) (fun _ _ => rfl) (fun _ _ => rfl)
  exact ⟨fuel, m', h1, h2 3 (by decide)⟩

/-- memcpy gets the same overlap wrong. -/
example : ∃ m : Mem, ∃ m', memcpy ⟨fun _ => true, fun _ => true⟩ m 0x1003 0x1000 8 = some m' ∧ m' 0x1006 ≠ m 0x1003 :=
  ⟨fun x => x.setWidth 8, _, rfl, by decide⟩

example : memcmp ⟨fun _ => true, fun _ => true⟩ (fun x => if x = 0x2002 then 0xff else 1) 0x1000 0x2000 4 = some (-254) := by decide

example : ∃ (m : Mem) (x : BitVec 64), strlcpy ⟨fun _ => true, fun _ => true⟩
    (fun x => if x.toNat < 0x1005 then 0x41 else if x.toNat < 0x2000 then 0 else 0x77) 0x2000 0x1000 4 10 = some (m, x) ∧
    m 0x2002 = 0x41 ∧ m 0x2003 = 0 ∧ m 0x2004 = 0x77 ∧ x = 5 := ⟨_, _, rfl, by decide, by decide, by decide, by decide⟩

/-- Blocks of 64 bytes. -/
example (m : Mem) : ∃ m', memzero ⟨fun _ => true, fun _ => true⟩ m 0x5000 4 = some m' ∧ m' 0x5fff = 0 := by
  obtain ⟨m', h1, h2, _⟩ := C57_memzero (p := ⟨fun _ => true, fun _ => true⟩) (m := m) (buf := 0x5000) (dczid := 4)
    (by decide) (by decide) (by decide) (fun _ _ => rfl)
  exact ⟨m', h1, h2 _ ⟨4095, by decide, by decide⟩⟩

example : dcRange 0x40000 0x103c 8 10 = some [0x1000, 0x1040] := by decide

end Verif.Mem
