import Verif.Mem.Fill

/-! memset fills exactly the bytes it is asked to. -/

namespace Verif.Mem

/-- `s'` is reached from `s`. -/
def To (ok : Addr → Bool) (s s' : Cpu) : Prop := ∃ n, run ok n s = .run s'

theorem To.refl {ok : Addr → Bool} (s : Cpu) : To ok s s := ⟨0, rfl⟩

theorem To.head {ok : Addr → Bool} {s s' s'' : Cpu} (h : step ok s = .run s') (h' : To ok s' s'') : To ok s s'' := by
  obtain ⟨n, hn⟩ := h'
  exact ⟨n + 1, by unfold run; rw [h]; exact hn⟩

theorem run_add {ok : Addr → Bool} : ∀ (n k : Nat) (s s' : Cpu), run ok n s = .run s' → run ok (n + k) s = run ok k s'
  | 0, k, s, s', h => by cases h; rw [Nat.zero_add]
  | n + 1, k, s, s', h => by
    rw [show n + 1 + k = (n + k) + 1 by omega]
    unfold run at h
    rw [run]
    cases hs : step ok s with
    | run s1 => rw [hs] at h; exact run_add n k s1 s' h
    | done _ => rw [hs] at h; cases h
    | fault => rw [hs] at h; cases h

theorem To.trans {ok : Addr → Bool} {s s' s'' : Cpu} (h : To ok s s') (h' : To ok s' s'') : To ok s s'' := by
  obtain ⟨n, hn⟩ := h
  obtain ⟨k, hk⟩ := h'
  exact ⟨n + k, by rw [run_add n k s s' hn, hk]⟩

section
variable {ok : Addr → Bool} {m : Addr → Byte} {dst : Addr} {v : Byte} {N : Nat}

/-- `k` bytes are done. -/
structure Done (m : Addr → Byte) (dst : Addr) (v : Byte) (s : Cpu) (pc k : Nat) : Prop where
  pc : s.pc = pc
  x0 : s.x0 = dst
  x3 : s.x3 = dst + BitVec.ofNat 64 k
  mem : s.mem = filled m dst v k

theorem may_of (hok : ∀ i < N, ok (dst + BitVec.ofNat 64 i) = true) {k n : Nat} (h : k + n ≤ N) :
    may ok (dst + BitVec.ofNat 64 k) n = true := by
  simp only [may, List.all_eq_true, List.mem_range]
  intro i hi
  have := hok (k + i) (by omega)
  rwa [BitVec.ofNat_add, ← BitVec.add_assoc] at this

theorem add_ofNat (dst : Addr) (k n : Nat) :
    dst + BitVec.ofNat 64 k + BitVec.ofNat 64 n = dst + BitVec.ofNat 64 (k + n) := by
  rw [BitVec.ofNat_add, BitVec.add_assoc]

theorem to_str (hN : N ≤ 2 ^ 64) (hok : ∀ i < N, ok (dst + BitVec.ofNat 64 i) = true) {s : Cpu} {pc k n inc : Nat}
    (hd : Done m dst v s pc k) (hi : memset[pc]? = some (.str n .x1 .x3 inc)) (hk : k + n ≤ N)
    (ha : (dst + BitVec.ofNat 64 k).toNat % n = 0) (hb : ∀ i < n, byte s.x1 i = v) :
    step ok s = .run { s with pc := pc + 1, x3 := dst + BitVec.ofNat 64 (k + inc), mem := filled m dst v (k + n) } := by
  unfold step
  rw [hd.pc, hi]
  have e3 : s.get .x3 = dst + BitVec.ofNat 64 k := hd.x3
  dsimp only [exec]
  rw [e3, if_pos ⟨ha, may_of hok hk⟩]
  have e1 : s.get .x1 = s.x1 := rfl
  simp only [Cpu.set, Cpu.next, hd.mem, e1, wr_filled hb, filled_add (Nat.le_trans hk hN), add_ofNat, hd.pc]

theorem to_stp (hN : N ≤ 2 ^ 64) (hok : ∀ i < N, ok (dst + BitVec.ofNat 64 i) = true) {s : Cpu} {pc k : Nat}
    (hd : Done m dst v s pc k) (hi : memset[pc]? = some (.stp .x1 .x3 16)) (hk : k + 16 ≤ N)
    (ha : (dst + BitVec.ofNat 64 k).toNat % 8 = 0) (hb : Rep s.x1 v) :
    step ok s = .run { s with pc := pc + 1, x3 := dst + BitVec.ofNat 64 (k + 16), mem := filled m dst v (k + 16) } := by
  unfold step
  rw [hd.pc, hi]
  have e3 : s.get .x3 = dst + BitVec.ofNat 64 k := hd.x3
  dsimp only [exec]
  rw [e3, if_pos ⟨ha, may_of hok hk⟩]
  have e1 : s.get .x1 = s.x1 := rfl
  have e : dst + BitVec.ofNat 64 k + 8 = dst + BitVec.ofNat 64 (k + 8) := add_ofNat dst k 8
  simp only [Cpu.set, Cpu.next, hd.mem, e1, wr_filled hb, e]
  rw [filled_add (by omega), filled_add (by omega), add_ofNat, hd.pc]

theorem align_add {k k' n : Nat} (hn : 2 ^ 64 % n = 0) (h : (dst + BitVec.ofNat 64 k).toNat % n = 0)
    (hk : k ≤ k') (hd : (k' - k) % n = 0) : (dst + BitVec.ofNat 64 k').toNat % n = 0 := by
  have e : k' = k + (k' - k) := by omega
  rw [e, ← add_ofNat, BitVec.toNat_add, BitVec.toNat_ofNat]
  have h1 : n ∣ 2 ^ 64 := Nat.dvd_of_mod_eq_zero hn
  rw [Nat.mod_mod_of_dvd _ h1, Nat.add_mod, h, Nat.mod_mod_of_dvd _ h1, hd]
  simp

theorem bit_iff (x : BitVec 64) (i : Nat) : x.getLsbD i = decide (x.toNat / 2 ^ i % 2 = 1) := by
  rw [BitVec.getLsbD, Nat.testBit_eq_decide_div_mod_eq]

/-- TBZ on a bit of the count. -/
theorem to_tbz {s : Cpu} {pc bit l : Nat} (hpc : s.pc = pc) (hi : memset[pc]? = some (.tbz .x2 bit l)) :
    step ok s = .run { s with pc := if s.x2.toNat / 2 ^ bit % 2 = 1 then pc + 1 else l } := by
  unfold step
  rw [hpc, hi]
  simp only [exec, Cpu.get, bit_iff]
  by_cases h : s.x2.toNat / 2 ^ bit % 2 = 1
  · simp [h, Cpu.next, hpc]
  · simp [h]

/-- memset.S:46-61: the last bytes, up to 63 of them. -/
theorem tail (hN : N ≤ 2 ^ 64) (hok : ∀ i < N, ok (dst + BitVec.ofNat 64 i) = true) {s : Cpu} {k : Nat}
    (hd : Done m dst v s 21 k) (hr : Rep s.x1 v) (hk : k + s.x2.toNat % 64 = N)
    (ha : (dst + BitVec.ofNat 64 k).toNat % 8 = 0) :
    ∃ s', To ok s s' ∧ s'.pc = 34 ∧ s'.x0 = dst ∧ s'.mem = filled m dst v N := by
  -- bit 5
  have h5 : ∃ s1, To ok s s1 ∧ Done m dst v s1 24 (N - s1.x2.toNat % 32) ∧ Rep s1.x1 v ∧ s1.x2 = s.x2 := by
    by_cases hb : s.x2.toNat / 2 ^ 5 % 2 = 1
    · refine ⟨_, .head (to_tbz hd.pc rfl) (.head (to_stp (k := k) hN hok ⟨by simp only [if_pos hb], hd.x0, hd.x3, hd.mem⟩ rfl
        (by omega) ha hr) (.head (to_stp (pc := 23) (k := k + 16) hN hok ⟨rfl, hd.x0, rfl, rfl⟩ rfl (by omega)
        (align_add rfl ha (by omega) (by omega)) hr) (.refl _))), ?_, hr, rfl⟩
      have e : N - s.x2.toNat % 32 = k + 16 + 16 := by omega
      rw [e]; exact ⟨rfl, hd.x0, rfl, rfl⟩
    · refine ⟨_, .head (to_tbz hd.pc rfl) (.refl _), ?_, hr, rfl⟩
      have e : N - s.x2.toNat % 32 = k := by omega
      rw [e]; exact ⟨by simp only [if_neg hb], hd.x0, hd.x3, hd.mem⟩
  obtain ⟨s1, t1, d1, r1, e1⟩ := h5
  have hx1 : s1.x2.toNat % 64 + k = N := by rw [e1]; omega
  have a1 : (dst + BitVec.ofNat 64 (N - s1.x2.toNat % 32)).toNat % 8 = 0 :=
    align_add rfl ha (by omega) (by omega)
  -- bit 4
  have h4 : ∃ s2, To ok s1 s2 ∧ Done m dst v s2 26 (N - s2.x2.toNat % 16) ∧ Rep s2.x1 v ∧ s2.x2 = s1.x2 := by
    by_cases hb : s1.x2.toNat / 2 ^ 4 % 2 = 1
    · refine ⟨_, .head (to_tbz d1.pc rfl) (.head (to_stp (k := N - s1.x2.toNat % 32) hN hok
        ⟨by simp only [if_pos hb]; rfl, d1.x0, d1.x3, d1.mem⟩ rfl
        (by omega) a1 r1) (.refl _)), ?_, r1, rfl⟩
      have e : N - s1.x2.toNat % 16 = N - s1.x2.toNat % 32 + 16 := by omega
      rw [e]; exact ⟨rfl, d1.x0, rfl, rfl⟩
    · refine ⟨_, .head (to_tbz d1.pc rfl) (.refl _), ?_, r1, rfl⟩
      have e : N - s1.x2.toNat % 16 = N - s1.x2.toNat % 32 := by omega
      rw [e]; exact ⟨by simp only [if_neg hb], d1.x0, d1.x3, d1.mem⟩
  obtain ⟨s2, t2, d2, r2, e2⟩ := h4
  rw [← e2] at hx1
  have a2 : (dst + BitVec.ofNat 64 (N - s2.x2.toNat % 16)).toNat % 8 = 0 :=
    align_add rfl ha (by omega) (by omega)
  -- bit 3
  have h3 : ∃ s3, To ok s2 s3 ∧ Done m dst v s3 28 (N - s3.x2.toNat % 8) ∧ Rep s3.x1 v ∧ s3.x2 = s2.x2 := by
    by_cases hb : s2.x2.toNat / 2 ^ 3 % 2 = 1
    · refine ⟨_, .head (to_tbz d2.pc rfl) (.head (to_str (k := N - s2.x2.toNat % 16) hN hok
        ⟨by simp only [if_pos hb]; rfl, d2.x0, d2.x3, d2.mem⟩ rfl
        (by omega) a2 r2) (.refl _)), ?_, r2, rfl⟩
      have e : N - s2.x2.toNat % 8 = N - s2.x2.toNat % 16 + 8 := by omega
      rw [e]; exact ⟨rfl, d2.x0, rfl, rfl⟩
    · refine ⟨_, .head (to_tbz d2.pc rfl) (.refl _), ?_, r2, rfl⟩
      have e : N - s2.x2.toNat % 8 = N - s2.x2.toNat % 16 := by omega
      rw [e]; exact ⟨by simp only [if_neg hb], d2.x0, d2.x3, d2.mem⟩
  obtain ⟨s3, t3, d3, r3, e3⟩ := h3
  rw [← e3] at hx1
  have a3 : (dst + BitVec.ofNat 64 (N - s3.x2.toNat % 8)).toNat % 8 = 0 :=
    align_add rfl ha (by omega) (by omega)
  have a3' : (dst + BitVec.ofNat 64 (N - s3.x2.toNat % 8)).toNat % 4 = 0 := by omega
  -- bit 2
  have h2 : ∃ s4, To ok s3 s4 ∧ Done m dst v s4 30 (N - s4.x2.toNat % 4) ∧ Rep s4.x1 v ∧ s4.x2 = s3.x2 := by
    by_cases hb : s3.x2.toNat / 2 ^ 2 % 2 = 1
    · refine ⟨_, .head (to_tbz d3.pc rfl) (.head (to_str (k := N - s3.x2.toNat % 8) hN hok
        ⟨by simp only [if_pos hb]; rfl, d3.x0, d3.x3, d3.mem⟩ rfl
        (by omega) a3' (fun i hi => r3 i (by omega))) (.refl _)), ?_, r3, rfl⟩
      have e : N - s3.x2.toNat % 4 = N - s3.x2.toNat % 8 + 4 := by omega
      rw [e]; exact ⟨rfl, d3.x0, rfl, rfl⟩
    · refine ⟨_, .head (to_tbz d3.pc rfl) (.refl _), ?_, r3, rfl⟩
      have e : N - s3.x2.toNat % 4 = N - s3.x2.toNat % 8 := by omega
      rw [e]; exact ⟨by simp only [if_neg hb], d3.x0, d3.x3, d3.mem⟩
  obtain ⟨s4, t4, d4, r4, e4⟩ := h2
  rw [← e4] at hx1 a3'
  have a4 : (dst + BitVec.ofNat 64 (N - s4.x2.toNat % 4)).toNat % 4 = 0 :=
    align_add rfl a3' (by omega) (by omega)
  have a4' : (dst + BitVec.ofNat 64 (N - s4.x2.toNat % 4)).toNat % 2 = 0 := by omega
  -- bit 1
  have h1 : ∃ s5, To ok s4 s5 ∧ Done m dst v s5 32 (N - s5.x2.toNat % 2) ∧ Rep s5.x1 v ∧ s5.x2 = s4.x2 := by
    by_cases hb : s4.x2.toNat / 2 ^ 1 % 2 = 1
    · refine ⟨_, .head (to_tbz d4.pc rfl) (.head (to_str (k := N - s4.x2.toNat % 4) hN hok
        ⟨by simp only [if_pos hb]; rfl, d4.x0, d4.x3, d4.mem⟩ rfl
        (by omega) a4' (fun i hi => r4 i (by omega))) (.refl _)), ?_, r4, rfl⟩
      have e : N - s4.x2.toNat % 2 = N - s4.x2.toNat % 4 + 2 := by omega
      rw [e]; exact ⟨rfl, d4.x0, rfl, rfl⟩
    · refine ⟨_, .head (to_tbz d4.pc rfl) (.refl _), ?_, r4, rfl⟩
      have e : N - s4.x2.toNat % 2 = N - s4.x2.toNat % 4 := by omega
      rw [e]; exact ⟨by simp only [if_neg hb], d4.x0, d4.x3, d4.mem⟩
  obtain ⟨s5, t5, d5, r5, e5⟩ := h1
  rw [← e5] at hx1
  -- bit 0
  refine (fun ⟨s', h⟩ => ⟨s', t1.trans (t2.trans (t3.trans (t4.trans (t5.trans h.1)))), h.2⟩ :
    (∃ s', To ok s5 s' ∧ s'.pc = 34 ∧ s'.x0 = dst ∧ s'.mem = filled m dst v N) → _) ?_
  by_cases hb : s5.x2.toNat / 2 ^ 0 % 2 = 1
  · refine ⟨_, .head (to_tbz d5.pc rfl) (.head (to_str (k := N - s5.x2.toNat % 2) hN hok
        ⟨by simp only [if_pos hb], d5.x0, d5.x3, d5.mem⟩ rfl
        (by omega) (Nat.mod_one _) (fun i hi => r5 i (by omega))) (.refl _)), rfl, d5.x0, ?_⟩
    have e : N - s5.x2.toNat % 2 + 1 = N := by omega
    simp only [e]
  · refine ⟨_, .head (to_tbz d5.pc rfl) (.refl _), by simp only [if_neg hb], d5.x0, ?_⟩
    have e : N - s5.x2.toNat % 2 = N := by omega
    rw [← e]; exact d5.mem

/-- memset.S:42-45: the blocks of 64 bytes. -/
theorem blocks (hN : N ≤ 2 ^ 64) (hok : ∀ i < N, ok (dst + BitVec.ofNat 64 i) = true) : ∀ (j : Nat) (s : Cpu) (k : Nat),
    Done m dst v s 15 k → Rep s.x1 v → s.x4.toNat = 64 * (j + 1) → k + 64 * (j + 1) ≤ N →
    (dst + BitVec.ofNat 64 k).toNat % 8 = 0 →
    ∃ s', To ok s s' ∧ Done m dst v s' 21 (k + 64 * (j + 1)) ∧ s'.x1 = s.x1 ∧ s'.x2 = s.x2
  | j, s, k, hd, hr, h4, hk, ha => by
    have hlt := s.x4.isLt
    let s4 : Cpu := { s with pc := 19, x3 := dst + BitVec.ofNat 64 (k + 64), mem := filled m dst v (k + 64) }
    have t : To ok s s4 :=
      .head (to_stp hN hok hd rfl (by omega) ha hr)
      (.head (to_stp (pc := 16) (k := k + 16) hN hok ⟨rfl, hd.x0, rfl, rfl⟩ rfl (by omega) (align_add rfl ha (by omega) (by omega)) hr)
      (.head (to_stp (pc := 17) (k := k + 16 + 16) hN hok ⟨rfl, hd.x0, rfl, rfl⟩ rfl (by omega) (align_add rfl ha (by omega) (by omega)) hr)
      (.head (to_stp (pc := 18) (k := k + 16 + 16 + 16) hN hok ⟨rfl, hd.x0, rfl, rfl⟩ rfl (by omega)
        (align_add rfl ha (by omega) (by omega)) hr) (.refl _))))
    have hv : (s.x4 - 64).toNat = 64 * j := by
      rw [BitVec.toNat_sub]; change (2 ^ 64 - 64 + s.x4.toNat) % 2 ^ 64 = _; omega
    have u : To ok s4 { s4 with pc := 20, z := s.x4 - 64 == 0, x4 := s.x4 - 64 } := .head rfl (.refl _)
    have hz : (s.x4 - 64 == 0) = decide (j = 0) := by
      rw [Bool.eq_iff_iff]; simp only [beq_iff_eq, decide_eq_true_eq, ← BitVec.toNat_inj, hv]
      change 64 * j = 0 ↔ _; omega
    match j with
    | 0 =>
      refine ⟨{ s4 with pc := 21, z := true, x4 := s.x4 - 64 }, t.trans (u.trans (.head ?_ (.refl _))), ⟨rfl, hd.x0, rfl, rfl⟩, rfl, rfl⟩
      rw [hz]; rfl
    | j + 1 =>
      obtain ⟨s', t', d', e1, e2⟩ := blocks hN hok j { s4 with pc := 15, z := false, x4 := s.x4 - 64 } (k + 64)
        ⟨rfl, hd.x0, rfl, rfl⟩ hr hv (by omega) (align_add rfl ha (by omega) (by omega))
      refine ⟨s', t.trans (u.trans (.head ?_ t')), ?_, e1, e2⟩
      · rw [hz]; rfl
      · rw [show k + 64 * (j + 1 + 1) = k + 64 + 64 * (j + 1) by omega]; exact d'

theorem toNat_mask (x : BitVec 64) : (x &&& ~~~ 0x3f#64).toNat = 64 * (x.toNat / 64) := by
  have : x &&& ~~~ 0x3f#64 = (x >>> 6) <<< 6 := by
    apply BitVec.eq_of_getLsbD_eq
    intro i hi
    simp only [BitVec.getLsbD_and, BitVec.getLsbD_not, BitVec.getLsbD_shiftLeft, BitVec.getLsbD_ushiftRight]
    have h63 : (0x3f#64).getLsbD i = decide (i < 64 ∧ i < 6) := getLsbD_mask 64 6 i
    rw [h63]
    by_cases h : i < 6
    · simp [h, hi]
    · simp [h, hi, show 6 + (i - 6) = i by omega]
  rw [this, BitVec.toNat_shiftLeft, BitVec.toNat_ushiftRight, Nat.shiftRight_eq_div_pow, Nat.shiftLeft_eq]
  have := x.isLt
  omega

/-- memset.S:39-61: from a word-wide value in X1. -/
theorem words (hN : N ≤ 2 ^ 64) (hok : ∀ i < N, ok (dst + BitVec.ofNat 64 i) = true) {s : Cpu} {k : Nat}
    (hd : Done m dst v s 13 k) (hr : Rep s.x1 v) (hk : k + s.x2.toNat = N)
    (ha : (dst + BitVec.ofNat 64 k).toNat % 8 = 0) :
    ∃ s', To ok s s' ∧ s'.pc = 34 ∧ s'.x0 = dst ∧ s'.mem = filled m dst v N := by
  have hv := toNat_mask s.x2
  have hz : (s.x2 &&& ~~~ 0x3f#64 == 0) = decide (s.x2.toNat / 64 = 0) := by
    rw [Bool.eq_iff_iff]; simp only [beq_iff_eq, decide_eq_true_eq, ← BitVec.toNat_inj, hv]
    change 64 * (s.x2.toNat / 64) = 0 ↔ _; omega
  have hpc := hd.pc
  have t1 : step ok s = .run { s with pc := 14, z := decide (s.x2.toNat / 64 = 0), x4 := s.x2 &&& ~~~ 0x3f#64 } := by
    rw [← hz]; unfold step; rw [hpc]
    simp only [memset, exec, Cpu.get, Cpu.set, Cpu.next, hpc, List.getElem?_cons_succ, List.getElem?_cons_zero]
  by_cases h : s.x2.toNat / 64 = 0
  · have t2 : step ok { s with pc := 14, z := decide (s.x2.toNat / 64 = 0), x4 := s.x2 &&& ~~~ 0x3f#64 } =
        .run { s with pc := 21, z := decide (s.x2.toNat / 64 = 0), x4 := s.x2 &&& ~~~ 0x3f#64 } := by
      simp only [h]; rfl
    obtain ⟨s', t, e⟩ := tail hN hok (s := { s with pc := 21, z := decide (s.x2.toNat / 64 = 0), x4 := s.x2 &&& ~~~ 0x3f#64 }) (k := k)
      ⟨rfl, hd.x0, hd.x3, hd.mem⟩ hr (by change k + s.x2.toNat % 64 = N; omega) ha
    exact ⟨s', .head t1 (.head t2 t), e⟩
  · have t2 : step ok { s with pc := 14, z := decide (s.x2.toNat / 64 = 0), x4 := s.x2 &&& ~~~ 0x3f#64 } =
        .run { s with pc := 15, z := decide (s.x2.toNat / 64 = 0), x4 := s.x2 &&& ~~~ 0x3f#64 } := by
      simp only [h]; rfl
    obtain ⟨s1, t3, d1, e1, e2⟩ := blocks hN hok (s.x2.toNat / 64 - 1)
      { s with pc := 15, z := decide (s.x2.toNat / 64 = 0), x4 := s.x2 &&& ~~~ 0x3f#64 } k ⟨rfl, hd.x0, hd.x3, hd.mem⟩ hr
      (by change (s.x2 &&& ~~~ 0x3f#64).toNat = _; omega) (by omega) ha
    obtain ⟨s', t, e⟩ := tail hN hok d1 (by rw [e1]; exact hr)
      (by rw [e2]; change k + 64 * (s.x2.toNat / 64 - 1 + 1) + s.x2.toNat % 64 = N; omega)
      (align_add rfl ha (by omega) (by omega))
    exact ⟨s', .head t1 (.head t2 (t3.trans t)), e⟩

/-- memset.S:33-61: the destination is aligned. -/
theorem aligned (hN : N ≤ 2 ^ 64) (hok : ∀ i < N, ok (dst + BitVec.ofNat 64 i) = true) {s : Cpu} {k : Nat}
    (hd : Done m dst v s 9 k) (hb : byte s.x1 0 = v) (hk : k + s.x2.toNat = N)
    (ha : (dst + BitVec.ofNat 64 k).toNat % 8 = 0) :
    ∃ s', To ok s s' ∧ s'.pc = 34 ∧ s'.x0 = dst ∧ s'.mem = filled m dst v N := by
  obtain ⟨pc, x0, x1, x2, x3, x4, z, mem⟩ := s
  obtain ⟨hpc, h0, h3, hm⟩ := hd
  subst hpc
  by_cases h : x1 = 0
  · obtain ⟨s', t, e⟩ := words hN hok (s := ⟨13, x0, x1, x2, x3, x4, z, mem⟩) (k := k) ⟨rfl, h0, h3, hm⟩
      (by rw [← hb]; exact rep_zero h) hk ha
    refine ⟨s', .head ?_ t, e⟩
    subst h; rfl
  · obtain ⟨s', t, e⟩ := words hN hok (s := ⟨13, x0, _, x2, x3, x4, z, mem⟩) (k := k) ⟨rfl, h0, h3, hm⟩
      (by rw [← hb]; exact rep_bfi x1) hk ha
    refine ⟨s', .head (s' := ⟨10, x0, x1, x2, x3, x4, z, mem⟩) ?_ (.head rfl (.head rfl (.head rfl t))), e⟩
    change Out.run (if x1 = 0 then _ else _) = _
    rw [if_neg h]; rfl

theorem and7 (x : BitVec 64) : (x &&& 7 == 0) = decide (x.toNat % 8 = 0) := by
  rw [Bool.eq_iff_iff]
  simp only [beq_iff_eq, decide_eq_true_eq, ← BitVec.toNat_inj, BitVec.toNat_and]
  change x.toNat &&& (2 ^ 3 - 1) = 0 ↔ _
  rw [Nat.and_two_pow_sub_one_eq_mod]

/-- memset.S:25-30: single bytes until the address is aligned or the count is used up. -/
theorem single (hN : N ≤ 2 ^ 64) (hok : ∀ i < N, ok (dst + BitVec.ofNat 64 i) = true) : ∀ (r : Nat) (s : Cpu) (k : Nat),
    Done m dst v s 4 k → byte s.x1 0 = v → s.x2.toNat = r + 1 → k + (r + 1) = N →
    ∃ s', To ok s s' ∧ s'.pc = 34 ∧ s'.x0 = dst ∧ s'.mem = filled m dst v N
  | r, s, k, hd, hb, h2, hk => by
    have hlt := s.x2.isLt
    let s1 : Cpu := { s with pc := 5, x3 := dst + BitVec.ofNat 64 (k + 1), mem := filled m dst v (k + 1) }
    have t1 : To ok s s1 := .head (to_str hN hok hd rfl (by omega) (Nat.mod_one _)
      (fun i hi => by rw [show i = 0 by omega]; exact hb)) (.refl _)
    have hv : (s.x2 - 1).toNat = r := by
      rw [BitVec.toNat_sub]; change (2 ^ 64 - 1 + s.x2.toNat) % 2 ^ 64 = _; omega
    have hz : (s.x2 - 1 == 0) = decide (r = 0) := by
      rw [Bool.eq_iff_iff]; simp only [beq_iff_eq, decide_eq_true_eq, ← BitVec.toNat_inj, hv]; rfl
    have t2 : To ok s1 { s1 with pc := 6, z := s.x2 - 1 == 0, x2 := s.x2 - 1 } := .head rfl (.refl _)
    rw [hz] at t2
    match r with
    | 0 =>
      refine ⟨{ s1 with pc := 34, z := true, x2 := s.x2 - 1 }, t1.trans (t2.trans (.head rfl (.refl _))), rfl, hd.x0, ?_⟩
      rw [← hk]
    | r + 1 =>
      let s3 : Cpu := { s1 with pc := 8, x2 := s.x2 - 1, z := s1.x3 &&& 7 == 0 }
      have t3 : To ok s1 s3 := t2.trans (.head (s' := { s1 with pc := 7, x2 := s.x2 - 1, z := false }) rfl (.head rfl (.refl _)))
      have ha := and7 s1.x3
      by_cases h : s1.x3.toNat % 8 = 0
      · obtain ⟨s', t, e⟩ := aligned hN hok (s := { s3 with pc := 9 }) (k := k + 1) ⟨rfl, hd.x0, rfl, rfl⟩ hb
          (by change k + 1 + (s.x2 - 1).toNat = N; omega) h
        refine ⟨s', t1.trans (t3.trans (.head ?_ t)), e⟩
        change Out.run (if (s1.x3 &&& 7 == 0) = true then _ else _) = _
        rw [if_pos (by rw [ha]; simpa using h)]; rfl
      · obtain ⟨s', t, e⟩ := single hN hok r { s3 with pc := 4 } (k + 1) ⟨rfl, hd.x0, rfl, rfl⟩ hb hv (by omega)
        refine ⟨s', t1.trans (t3.trans (.head ?_ t)), e⟩
        change Out.run (if (s1.x3 &&& 7 == 0) = true then _ else _) = _
        rw [if_neg (by rw [ha]; simpa using h)]

end

/-- The whole function. -/
theorem memset_run {ok : Addr → Bool} {s : Cpu} (hpc : s.pc = 0)
    (hok : ∀ i < s.x2.toNat, ok (s.x0 + BitVec.ofNat 64 i) = true) :
    ∃ n s', run ok n s = .done s' ∧ s'.x0 = s.x0 ∧ s'.mem = filled s.mem s.x0 (byte s.x1 0) s.x2.toNat := by
  have fin : (∃ s', To ok s s' ∧ s'.pc = 34 ∧ s'.x0 = s.x0 ∧ s'.mem = filled s.mem s.x0 (byte s.x1 0) s.x2.toNat) →
      ∃ n s', run ok n s = .done s' ∧ s'.x0 = s.x0 ∧ s'.mem = filled s.mem s.x0 (byte s.x1 0) s.x2.toNat := by
    rintro ⟨s', ⟨n, hn⟩, h1, h2, h3⟩
    refine ⟨n + 1, s', ?_, h2, h3⟩
    rw [run_add n 1 s s' hn]
    unfold run step
    rw [h1]; rfl
  apply fin
  have hN : s.x2.toNat ≤ 2 ^ 64 := Nat.le_of_lt s.x2.isLt
  obtain ⟨pc, x0, x1, x2, x3, x4, z, mem⟩ := s
  cases hpc
  by_cases h0 : x2 = 0
  · subst h0
    refine ⟨⟨34, x0, x1, 0, x3, x4, z, mem⟩, .head rfl (.refl _), rfl, rfl, ?_⟩
    exact (filled_zero _ _ _).symm
  · let s3 : Cpu := ⟨3, x0, x1, x2, x0, x4, x0 &&& 7 == 0, mem⟩
    have t : To ok ⟨0, x0, x1, x2, x3, x4, z, mem⟩ s3 := by
      refine .head (s' := ⟨1, x0, x1, x2, x3, x4, z, mem⟩) ?_ (.head rfl (.head rfl (.refl _)))
      change Out.run (if x2 = 0 then _ else _) = _
      rw [if_neg h0]; rfl
    have hx : x0 = x0 + BitVec.ofNat 64 0 := by simp
    by_cases h : x0.toNat % 8 = 0
    · obtain ⟨s', t', e⟩ := aligned hN hok (s := { s3 with pc := 9 }) (k := 0) (v := byte x1 0)
        ⟨rfl, rfl, hx, (filled_zero _ _ _).symm⟩ rfl (Nat.zero_add _) (by rw [← hx]; exact h)
      refine ⟨s', t.trans (.head ?_ t'), e⟩
      change Out.run (if (x0 &&& 7 == 0) = true then _ else _) = _
      rw [if_pos (by rw [and7]; simpa using h)]
    · have hne : x2.toNat ≠ 0 := fun h => h0 (BitVec.eq_of_toNat_eq h)
      obtain ⟨s', t', e⟩ := single hN hok (x2.toNat - 1) { s3 with pc := 4 } 0 (v := byte x1 0)
        ⟨rfl, rfl, hx, (filled_zero _ _ _).symm⟩ rfl
        (by change x2.toNat = _; omega) (by change 0 + (x2.toNat - 1 + 1) = x2.toNat; omega)
      refine ⟨s', t.trans (.head ?_ t'), e⟩
      change Out.run (if (x0 &&& 7 == 0) = true then _ else _) = _
      rw [if_neg (by rw [and7]; simpa using h)]; rfl

end Verif.Mem
