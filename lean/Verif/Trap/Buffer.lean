import Verif.Trap.Props

/-!
# The callers of the copy functions, and concrete runs (C63)
-/

namespace Verif.Trap

/-- `ns_buffer_read` and `ns_buffer_write` (/repo/lib/slot_buf/src/buffer.c:148-178, 188-218) up to the call of the
copy function, with the slot mapped at `va` and RMM's buffer at `buf`: the address in the slot and the number of
words, or `none` when an assertion fails.  The assertions on the slot and on null pointers are left out. -/
def nsBuffer (va offset size buf : Nat) : Option (Nat × Nat) :=
  if size % 8 ≠ 0 ∨ offset % 8 ≠ 0 ∨ buf % 8 ≠ 0 then none
  else
    let offset := offset % 4096
    if offset + size ≤ 4096 then some (va + offset, size / 8) else none

/-- The offset and size of each call: realm parameters (/repo/runtime/rmi/realm.c:64-65), REC parameters
(/repo/runtime/rmi/rec.c:270-271), data (/repo/runtime/rmi/rtt.c:960-961), REC entry (/repo/runtime/rmi/run.c:220-221)
and REC exit (/repo/runtime/rmi/run.c:325-328); sizes from /repo/lib/smc/include/smc-rmi.h:644-809. -/
def sites : List (Nat × Nat) := [(0, 4096), (0, 4096), (0, 4096), (0, 0x800), (0x800, 0x800)]

section
variable {L : Lay} {m : M} {b : Bool} {va offset size buf far n : Nat}

/-- C63: if the assertions of `ns_buffer_read` or `ns_buffer_write` hold, their call of the copy function meets the
hypotheses above: the host's buffer lies within the slot. -/
theorem C63_ns_buffer (h : nsBuffer va offset size buf = some (far, n))
    (hva : va % 4096 = 0) (hlt : va + 4096 < 2 ^ 64) (hblt : buf + size < 2 ^ 64)
    (hns : ∀ a, L.ns a = true ↔ va ≤ a ∧ a < va + 4096)
    (hbuf : ∀ a, buf ≤ a → a < buf + size → ¬ (va ≤ a ∧ a < va + 4096) ∧ ¬ (L.ehLo ≤ a ∧ a < m.sp0))
    (heh : ∀ a, L.ehLo ≤ a → a < m.sp0 → ¬ (va ≤ a ∧ a < va + 4096))
    (hpc : m.pc = if b then L.rd else L.wr)
    (h0 : m.x 0 = BitVec.ofNat 64 (if b then buf else far)) (h1 : m.x 1 = BitVec.ofNat 64 (if b then far else buf))
    (h2 : m.x 2 = BitVec.ofNat 64 size)
    (hs : m.selX = true) (hs8 : m.sp0 % 8 = 0) (hr : L.ehLo + 256 ≤ m.sp0) (hret : code L (m.x 30).toNat = none) :
    Entry L m b (if b then buf else far) (if b then far else buf) n ∧ 8 * n = size ∧ va ≤ far ∧ far + size ≤ va + 4096 := by
  unfold nsBuffer at h
  split at h
  · cases h
  rename_i hal
  dsimp only at h
  split at h
  case isFalse => cases h
  rename_i hle
  cases h
  have hnf : ∀ a, ¬ (va ≤ a ∧ a < va + 4096) → L.ns a = false := by
    intro a ha
    cases hx : L.ns a
    · rfl
    · exact absurd ((hns a).mp hx) ha
  have hsz : 8 * (size / 8) = size := by omega
  refine ⟨⟨hpc, h0, h1, by rw [h2, hsz], ?_, ?_, ?_, ?_, hs, hs8, hr, fun a x y => hnf a (heh a x y), ?_, ?_, hret⟩, hsz,
    by omega, by omega⟩
  · cases b <;> simp only [Bool.false_eq_true, if_false, if_true] <;> omega
  · cases b <;> simp only [Bool.false_eq_true, if_false, if_true] <;> omega
  · cases b <;> simp only [Bool.false_eq_true, if_false, if_true] <;> omega
  · cases b <;> simp only [Bool.false_eq_true, if_false, if_true] <;> omega
  · intro i hi
    have : ∀ x, x = va + offset % 4096 → L.ns (x + 8 * i) = true := fun x hx => (hns _).mpr (by omega)
    cases b <;> simp only [Bool.false_eq_true, if_false, if_true] <;> exact this _ rfl
  · intro i hi
    have : ∀ x, x = buf → L.ns (x + 8 * i) = false ∧ (x + 8 * i < L.ehLo ∨ m.sp0 ≤ x + 8 * i) := by
      intro x hx
      have := hbuf (x + 8 * i) (by omega) (by omega)
      exact ⟨hnf _ this.1, by omega⟩
    cases b <;> simp only [Bool.false_eq_true, if_false, if_true] <;> exact this _ rfl

/-- C63: the assertions hold at every call, if RMM's buffer is aligned (it is a structure with 8-byte members, or a
granule). -/
theorem C63_sites (va : Nat) (h8 : buf % 8 = 0) :
    ∀ p ∈ sites, ∃ far n, nsBuffer va p.1 p.2 buf = some (far, n) ∧ far = va + p.1 ∧ 8 * n = p.2 := by
  intro p hp
  simp only [sites, List.mem_cons, List.not_mem_nil, or_false] at hp
  rcases hp with rfl | rfl | rfl | rfl | rfl <;>
    exact ⟨_, _, by unfold nsBuffer; simp only [h8]; rfl, by simp, by simp⟩

end

/-! ## Concrete runs -/

/-- Runs the CPU for at most `k` steps and until it leaves the code; the granule is the host's before step `i` iff
`g i`. -/
def sim (L : Lay) (g : Nat → Bool) : Nat → Nat → M → M
  | 0, _, m => m
  | k + 1, i, m =>
    let m := { m with ok := g i }
    match code L m.pc with
    | none => m
    | some .call =>
      match handle L m.esr m.elr with
      | none => m
      | some t => sim L g k (i + 1) { m with x := upd m.x 0 (BitVec.ofNat 64 t), pc := m.pc + 4 }
    | some j =>
      if faults L m j then sim L g k (i + 1) (take L m 0x94000028) else sim L g k (i + 1) (sem L m j)

theorem sim_run (L : Lay) (g : Nat → Bool) (m0 : M) (k i : Nat) (m : M) {j : Nat} (h : Run L m0 j m) :
    ∃ j', Run L m0 j' (sim L g k i m) := by
  induction k generalizing i m j with
  | zero => exact ⟨j, h⟩
  | succ k ih =>
    have he : Run L m0 j { m with ok := g i } := .env h ⟨m.mem, g i, rfl, fun _ _ => rfl⟩
    unfold sim
    dsimp only
    split
    · exact ⟨j, he⟩
    · rename_i hc
      split
      · exact ⟨j, he⟩
      · rename_i t ht
        refine ih _ _ (.cpu he (.call hc ht ⟨rfl, fun n h1 _ => ?_, rfl, rfl, rfl, rfl, rfl, rfl, rfl, fun _ _ _ => rfl⟩))
        show (if n = 0 then _ else _) = _
        rw [if_neg (by omega)]
    · rename_i y hn hc
      split
      · rename_i hf
        exact ih _ _ (.cpu he (.fault hc hn hf gpf_ex))
      · rename_i hf
        exact ih _ _ (.cpu he (.run hc hn (by simpa using hf)))

namespace Ex

def L : Lay where
  rd := 0x1000
  wr := 0x1100
  r0 := 0x1200
  vbar := 0x2000
  vec := 0x3000
  ns a := decide (0x8000 ≤ a ∧ a < 0x9000)
  ehLo := 0x6000

def m (b : Bool) : M where
  x i := match i with
    | 0 => if b then 0x5000 else 0x8010
    | 1 => if b then 0x8010 else 0x5000
    | 2 => 24
    | 30 => 0x4000
    | i => BitVec.ofNat 64 (i + 100)
  spx := 0xa000
  sp0 := 0x7000
  selX := true
  z := false
  pc := if b then 0x1000 else 0x1100
  elr := 0
  esr := 0
  spsrZ := false
  spsrSel := true
  mem a := BitVec.ofNat 64 a
  ok := true
  log := []

theorem ok : L.Ok := ⟨by decide, by decide⟩

theorem entry (b : Bool) : Entry L (m b) b (if b then 0x5000 else 0x8010) (if b then 0x8010 else 0x5000) 3 := by
  have h : nsBuffer 0x8000 0xfff010 24 0x5000 = some (0x8010, 3) := by decide
  refine (C63_ns_buffer (L := L) (m := m b) (b := b) h (by decide) (by decide) (by decide) ?_ ?_ ?_ ?_ ?_ ?_ ?_ ?_ ?_ ?_ ?_).1
  · intro a; exact decide_eq_true_iff
  · intro a h1 h2
    show ¬ _ ∧ ¬ (0x6000 ≤ a ∧ a < 0x7000)
    omega
  · intro a h1 h2
    have : a < 0x7000 := h2
    omega
  all_goals cases b <;> decide

/-- A copy that is not disturbed returns 1 with all the words. -/
example : let r := sim L (fun _ => true) 200 0 (m true)
    r.pc = 0x4000 ∧ r.x 0 = 1 ∧ r.log.length = 3 ∧ r.mem 0x5008 = 0x8018 ∧ r.mem 0x5010 = 0x8020 := by decide +kernel

/-- The granule is taken away before the second load: the copy returns 0 with one word, and X19 and X2 are what they
were. -/
example : let r := sim L (fun i => decide (i < 8)) 200 0 (m true)
    r.pc = 0x4000 ∧ r.x 0 = 0 ∧ r.log.length = 1 ∧ r.mem 0x5000 = 0x8010 ∧ r.mem 0x5008 = 0x5008 ∧ r.x 19 = 119 ∧
      r.sp0 = 0x7000 ∧ r.selX = true := by decide +kernel

/-- The granule is taken away before the third store. -/
example : let r := sim L (fun i => decide (i < 13)) 200 0 (m false)
    r.pc = 0x4000 ∧ r.x 0 = 0 ∧ r.log.length = 2 ∧ r.mem 0x8018 = 0x5008 ∧ r.mem 0x8020 = 0x8020 := by decide +kernel

/-- These are executions of the model, so the theorems apply to them. -/
example : ∃ k, Run L (m true) k (sim L (fun i => decide (i < 8)) 200 0 (m true)) := sim_run _ _ _ _ _ _ .nil

/-- A fault elsewhere is fatal: here on the load of `memcpy_ns_write`. -/
example : handle L 0x94000028 (L.wr + 12) = none ∧ handle L 0x94000021 (L.wr + 16) = none ∧
    handle L 0x94000028 (L.wr + 16) = some L.r0 := by decide

end Ex

end Verif.Trap
