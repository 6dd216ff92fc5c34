import Verif.Mem.CopyProof

/-! Proofs about scrubbing and cache maintenance. -/

namespace Verif.Mem

theorem aligned_sub (a : Addr) (log : Nat) (h : a.toNat % 2 ^ log = 0) : a - BitVec.ofNat 64 (a.toNat % 2 ^ log) = a := by
  rw [h]; simp

theorem zva_filled {p : Perm} {m : Mem} {a : Addr} {log : Nat} (hl : log ≤ 12) (ha : a.toNat % 2 ^ log = 0)
    (hw : ∀ i < 2 ^ log, p.w (a + BitVec.ofNat 64 i) = true) : zva p m a log = some (filled m a 0 (2 ^ log)) := by
  unfold zva
  have hm : may p.w a (2 ^ log) = true := by
    simp only [may, List.all_eq_true, List.mem_range]; exact hw
  simp only [aligned_sub a log ha, hm, if_true]
  congr 1
  funext x
  unfold filled
  have hx := x.isLt
  have ha' := a.isLt
  have hpos : 0 < 2 ^ log := Nat.two_pow_pos _
  have hdvd : 2 ^ log ∣ 2 ^ 64 := Nat.pow_dvd_pow 2 (by omega)
  have key : x.toNat / 2 ^ log = a.toNat / 2 ^ log ↔ (x - a).toNat < 2 ^ log := by
    obtain ⟨q, hq⟩ := Nat.dvd_of_mod_eq_zero ha
    obtain ⟨t, ht⟩ := hdvd
    rw [hq, Nat.mul_div_cancel_left _ hpos, BitVec.toNat_sub, hq]
    have hd : x.toNat / 2 ^ log = q ↔ 2 ^ log * q ≤ x.toNat ∧ x.toNat < 2 ^ log * q + 2 ^ log := by
      rw [Nat.div_eq_iff hpos]
      constructor <;> intro h <;> constructor <;> first | (have := h.1; have := h.2; grind)
    rw [hd]
    have hqt : 2 ^ log * q + 2 ^ log ≤ 2 ^ 64 := by
      rw [ht] at ha' ⊢
      rw [hq] at ha'
      have : q < t := Nat.lt_of_mul_lt_mul_left ha'
      calc 2 ^ log * q + 2 ^ log = 2 ^ log * (q + 1) := by rw [Nat.mul_add, Nat.mul_one]
        _ ≤ 2 ^ log * t := Nat.mul_le_mul_left _ this
    omega
  by_cases h : (x - a).toNat < 2 ^ log
  · rw [if_pos h, if_pos (key.mpr h)]
  · rw [if_neg h, if_neg (fun e => h (key.mp e))]

theorem zvaLoop_from {p : Perm} {m : Mem} {buf : Addr} {log n : Nat} (hl : log ≤ 12) (hn : n ≤ 4096)
    (ha : buf.toNat % 4096 = 0) (hw : ∀ i < n, p.w (buf + BitVec.ofNat 64 i) = true) : ∀ (cnt k : Nat), 2 ^ log ∣ k →
    k + 2 ^ log * cnt = n →
    zvaLoop p log (filled m buf 0 k) (buf + BitVec.ofNat 64 k) cnt = some (filled m buf 0 n)
  | 0, k, _, h => by unfold zvaLoop; rw [show k = n by omega]
  | cnt + 1, k, hd, h => by
    have hpos : 0 < 2 ^ log := Nat.two_pow_pos _
    have hmul : 2 ^ log * (cnt + 1) = 2 ^ log * cnt + 2 ^ log := by rw [Nat.mul_add, Nat.mul_one]
    have hal : (buf + BitVec.ofNat 64 k).toNat % 2 ^ log = 0 := by
      have h1 : 2 ^ log ∣ 2 ^ 64 := Nat.pow_dvd_pow 2 (by omega)
      have h2 : 2 ^ log ∣ buf.toNat := Nat.dvd_trans (Nat.pow_dvd_pow 2 hl) (Nat.dvd_of_mod_eq_zero ha)
      rw [BitVec.toNat_add, BitVec.toNat_ofNat, Nat.mod_mod_of_dvd _ h1]
      exact Nat.mod_eq_zero_of_dvd (Nat.dvd_add h2 ((Nat.dvd_mod_iff h1).mpr hd))
    unfold zvaLoop
    rw [zva_filled hl hal (fun i hi => by rw [add_ofNat]; exact hw _ (by omega))]
    simp only [bind, Option.bind]
    rw [filled_add (by omega), add_ofNat]
    exact zvaLoop_from hl hn ha hw cnt (k + 2 ^ log) (Nat.dvd_add hd (Nat.dvd_refl _)) (by omega)

theorem memzero_run {p : Perm} {m : Mem} {buf : Addr} {dczid : BitVec 64} (hz : dczid.getLsbD 4 = false)
    (hb : (dczid.extractLsb' 0 4).toNat ≤ 9) (ha : buf.toNat % 4096 = 0)
    (hw : ∀ i < 4096, p.w (buf + BitVec.ofNat 64 i) = true) :
    memzero p m buf dczid = some (filled m buf 0 4096) := by
  unfold memzero
  rw [if_neg (by rw [hz]; decide)]
  simp only
  rw [if_pos (by omega)]
  have := zvaLoop_from (p := p) (m := m) (buf := buf) (log := (dczid.extractLsb' 0 4).toNat + 2) (n := 4096) (by omega) (by omega) ha hw
    (2 ^ (12 - ((dczid.extractLsb' 0 4).toNat + 2))) 0 (Nat.dvd_zero _)
    (by rw [Nat.zero_add, ← Nat.pow_add, show (dczid.extractLsb' 0 4).toNat + 2 + (12 - ((dczid.extractLsb' 0 4).toNat + 2)) = 12 by omega])
  rw [filled_zero] at this
  simpa using this

/-- The size of a cache line in bytes. -/
def lineSize (ctr : BitVec 64) : Nat := 2 ^ ((ctr.extractLsb' 16 4).toNat + 2)

theorem line_toNat (ctr : BitVec 64) : ((4 : BitVec 64) <<< (ctr.extractLsb' 16 4).toNat).toNat = lineSize ctr := by
  have := (ctr.extractLsb' 16 4).isLt
  rw [BitVec.toNat_shiftLeft, Nat.shiftLeft_eq]
  change 4 * 2 ^ _ % 2 ^ 64 = 2 ^ _
  rw [Nat.pow_add, Nat.mul_comm]
  apply Nat.mod_eq_of_lt
  have : 2 ^ (ctr.extractLsb' 16 4).toNat ≤ 2 ^ 15 := Nat.pow_le_pow_right (by omega) (by omega)
  omega

theorem bic_mask (x : Addr) (log : Nat) :
    x &&& ~~~ (BitVec.ofNat 64 (2 ^ log - 1)) = BitVec.ofNat 64 (x.toNat / 2 ^ log * 2 ^ log) := by
  have e : x &&& ~~~ (BitVec.ofNat 64 (2 ^ log - 1)) = (x >>> log) <<< log := by
    apply BitVec.eq_of_getLsbD_eq
    intro i hi
    simp only [BitVec.getLsbD_and, BitVec.getLsbD_not, BitVec.getLsbD_shiftLeft, BitVec.getLsbD_ushiftRight, getLsbD_mask]
    by_cases h : i < log
    · simp [h, hi]
    · simp [h, hi, show log + (i - log) = i by omega]
  rw [e]
  apply BitVec.eq_of_toNat_eq
  rw [BitVec.toNat_shiftLeft, BitVec.toNat_ushiftRight, Nat.shiftRight_eq_div_pow, Nat.shiftLeft_eq, BitVec.toNat_ofNat]

/-- From line `q` to the line with the last byte before `e`. -/
theorem dcLoop_from {line stop : Addr} {l e : Nat} (hl : line.toNat = l) (hpos : 0 < l) (hs : stop.toNat = e) (he : e + l ≤ 2 ^ 64) :
    ∀ (fuel q : Nat), q * l < e → e - q * l < fuel →
    ∃ as, dcLoop line stop (BitVec.ofNat 64 (q * l)) fuel = some as ∧
      ∀ a : Addr, a ∈ as ↔ ∃ t, q ≤ t ∧ t * l < e ∧ a = BitVec.ofNat 64 (t * l)
  | fuel + 1, q, hq, hf => by
    have hadd : BitVec.ofNat 64 (q * l) + line = BitVec.ofNat 64 ((q + 1) * l) := by
      apply BitVec.eq_of_toNat_eq
      rw [BitVec.toNat_add, hl, BitVec.toNat_ofNat, BitVec.toNat_ofNat, Nat.add_mul, Nat.one_mul]; omega
    have hm : (q + 1) * l = q * l + l := by rw [Nat.add_mul, Nat.one_mul]
    unfold dcLoop
    rw [hadd]
    by_cases h : (q + 1) * l < e
    · have hlt : BitVec.ofNat 64 ((q + 1) * l) < stop := by
        rw [BitVec.lt_def, BitVec.toNat_ofNat, hs]; omega
      rw [if_pos hlt]
      obtain ⟨as, e1, e2⟩ := dcLoop_from hl hpos hs he fuel (q + 1) h (by omega)
      refine ⟨_, by rw [e1]; rfl, fun a => ?_⟩
      rw [List.mem_cons, e2]
      constructor
      · rintro (rfl | ⟨t, h1, h2, h3⟩)
        · exact ⟨q, Nat.le_refl _, hq, rfl⟩
        · exact ⟨t, by omega, h2, h3⟩
      · rintro ⟨t, h1, h2, h3⟩
        by_cases ht : t = q
        · subst ht; exact .inl h3
        · exact .inr ⟨t, by omega, h2, h3⟩
    · have hnlt : ¬ BitVec.ofNat 64 ((q + 1) * l) < stop := by
        rw [BitVec.lt_def, BitVec.toNat_ofNat, hs]
        by_cases hw : (q + 1) * l < 2 ^ 64
        · rw [Nat.mod_eq_of_lt hw]; exact h
        · omega
      rw [if_neg hnlt]
      refine ⟨_, rfl, fun a => ?_⟩
      rw [List.mem_singleton]
      constructor
      · rintro rfl; exact ⟨q, Nat.le_refl _, hq, rfl⟩
      · rintro ⟨t, h1, h2, h3⟩
        have : t = q := by
          have : t < q + 1 := by
            apply Nat.lt_of_mul_lt_mul_right (a := l)
            omega
          omega
        subst this; exact h3

theorem dcRange_run {ctr x0 x1 : BitVec 64} (h : x0.toNat + x1.toNat + lineSize ctr ≤ 2 ^ 64) {fuel : Nat} (hf : x0.toNat + x1.toNat < fuel) :
    ∃ as, dcRange ctr x0 x1 fuel = some as ∧
      ∀ a : Addr, a ∈ as ↔ ∃ i < x1.toNat, a.toNat = (x0.toNat + i) / lineSize ctr * lineSize ctr := by
  unfold dcRange
  by_cases h0 : x1 = 0
  · rw [if_pos h0]; subst h0
    exact ⟨[], rfl, fun a => by simp⟩
  · rw [if_neg h0]
    have hpos : 0 < lineSize ctr := Nat.two_pow_pos _
    have hne : x1.toNat ≠ 0 := fun e => h0 (BitVec.eq_of_toNat_eq e)
    have hline := line_toNat ctr
    have hmask : (4 : BitVec 64) <<< (ctr.extractLsb' 16 4).toNat - 1 = BitVec.ofNat 64 (2 ^ ((ctr.extractLsb' 16 4).toNat + 2) - 1) := by
      apply BitVec.eq_of_toNat_eq
      have hlt := ((4 : BitVec 64) <<< (ctr.extractLsb' 16 4).toNat).isLt
      rw [BitVec.toNat_sub, hline, BitVec.toNat_ofNat]
      rw [hline] at hlt
      change (2 ^ 64 - 1 + lineSize ctr) % 2 ^ 64 = (lineSize ctr - 1) % 2 ^ 64
      omega
    have hstop : (x0 + x1).toNat = x0.toNat + x1.toNat := by
      rw [BitVec.toNat_add, Nat.mod_eq_of_lt (by omega)]
    have hb := (ctr.extractLsb' 16 4).isLt
    simp only [hmask, bic_mask x0 _]
    have hdiv : x0.toNat / lineSize ctr * lineSize ctr ≤ x0.toNat := Nat.div_mul_le_self _ _
    obtain ⟨as, e1, e2⟩ := dcLoop_from hline hpos hstop (by omega) fuel (x0.toNat / lineSize ctr) (by omega) (by omega)
    refine ⟨as, e1, fun a => ?_⟩
    rw [e2]
    constructor
    · rintro ⟨t, h1, h2, rfl⟩
      have hlt : t * lineSize ctr < 2 ^ 64 := by omega
      rw [BitVec.toNat_ofNat, Nat.mod_eq_of_lt hlt]
      by_cases hc : t * lineSize ctr ≤ x0.toNat
      · refine ⟨0, by omega, ?_⟩
        have : t ≤ x0.toNat / lineSize ctr := (Nat.le_div_iff_mul_le hpos).mpr hc
        rw [Nat.add_zero, show t = x0.toNat / lineSize ctr by omega]
      · refine ⟨t * lineSize ctr - x0.toNat, by omega, ?_⟩
        rw [show x0.toNat + (t * lineSize ctr - x0.toNat) = t * lineSize ctr by omega, Nat.mul_div_cancel _ hpos]
    · rintro ⟨i, hi, ha⟩
      have hle := Nat.div_mul_le_self (x0.toNat + i) (lineSize ctr)
      refine ⟨(x0.toNat + i) / lineSize ctr, Nat.div_le_div_right (by omega), by omega, ?_⟩
      apply BitVec.eq_of_toNat_eq
      rw [BitVec.toNat_ofNat, Nat.mod_eq_of_lt (by omega), ha]

end Verif.Mem
