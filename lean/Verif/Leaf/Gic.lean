import Verif.Basic
import Verif.Tac

/-!
# C37: virtual interrupt state

Model of /repo/lib/gic/src/gic.c.
-/

namespace Verif.Gic

abbrev W := BitVec 64

/-- `struct gic_virt_feature_s`: gic.c:39-58. -/
structure Feat where
  nrLrs : Nat
  nrAprs : Nat
  priRes0 : W
  maxVintid : W
  extRange : Bool
  deriving DecidableEq

/-- `EXTRACT(field, reg)` for a field of `width` bits at `shift`. -/
def extract (shift width : Nat) (r : W) : W := (r >>> shift) &&& (((1 : W) <<< width) - 1)

/-- `gic_get_virt_features`: gic.c:66-118; `none` when an assertion fails.  The registers read are
arguments; `VERBOSE` is left out.  `ExtRange` is bit 19 of ICC_CTLR_EL1 (arch.h). -/
def getVirtFeatures (vtr ctlr : W) : Option Feat :=
  let nrLrs := (extract 0 5 vtr).toNat
  let preBits := extract 26 3 vtr + 1
  let priBits := extract 29 3 vtr + 1
  if nrLrs < 16 ∧ preBits.toNat ≥ 5 then
    some { nrLrs := nrLrs
           nrAprs := (((1 : W) <<< (preBits.toNat - 5)) - 1).toNat
           maxVintid := if extract 23 3 vtr = 0 then ((1 : W) <<< 16) - 1 else ((1 : W) <<< 24) - 1
           priRes0 := ((1 : W) <<< (8 - priBits.toNat)) - 1
           extRange := ctlr &&& ((1 : W) <<< 19) != 0 }
  else none

/-- `struct gic_cpu_state`: gic.h:184-201. -/
structure St where
  ap0r : Nat → W
  ap1r : Nat → W
  vmcr : W
  hcr : W
  lr : Nat → W
  misr : W

/-- The fields of `struct rmi_rec_enter` and `struct rmi_rec_exit` used here (smc-rmi.h). -/
structure Enter where
  hcr : W
  lrs : Nat → W

structure Exit where
  lrs : Nat → W
  misr : W
  vmcr : W
  hcr : W

/-- `ICH_HCR_EL2_NS_MASK`: gic.h:145-153. -/
def NS_MASK : W := ((1 : W) <<< 1) ||| ((1 : W) <<< 2) ||| ((1 : W) <<< 3) ||| ((1 : W) <<< 4) ||| ((1 : W) <<< 5) ||| ((1 : W) <<< 6) ||| ((1 : W) <<< 7) ||| ((1 : W) <<< 14)

/-- `ICH_HCR_EL2_EOI_COUNT_MASK`: gic.h:85-87. -/
def EOI_COUNT_MASK : W := (((1 : W) <<< 5) - 1) <<< 27

/-- `gic_cpu_state_init`: gic.c:123-130. -/
def init : St :=
  { ap0r := fun _ => 0, ap1r := fun _ => 0, vmcr := 0, lr := fun _ => 0, misr := 0
    hcr := ((1 : W) <<< 0) ||| ((1 : W) <<< 8) ||| ((1 : W) <<< 15) }

/-- `gic_copy_state_from_rec_entry`: gic.c:132-146. -/
def copyFrom (f : Feat) (g : St) (e : Enter) : St :=
  { g with
    lr := fun i => if i ≤ f.nrLrs then e.lrs i else g.lr i
    hcr := (g.hcr &&& ~~~ NS_MASK) ||| (e.hcr &&& NS_MASK) }

/-- `gic_copy_state_to_rec_exit`: gic.c:148-161. -/
def copyTo (f : Feat) (g : St) (x : Exit) : Exit :=
  { lrs := fun i => if i ≤ f.nrLrs then g.lr i else x.lrs i
    misr := g.misr
    vmcr := g.vmcr
    hcr := g.hcr &&& (EOI_COUNT_MASK ||| NS_MASK) }

/-- `is_valid_vintid`: gic.c:163-179. -/
def isValidVintid (f : Feat) (i : W) : Bool :=
  if i ≤ 1019 || (i ≥ 8192 && i ≤ f.maxVintid) then true
  else if f.extRange then (i ≥ 1056 && i ≤ 1119) || (i ≥ 4096 && i ≤ 5119) else false

/-- `ICH_LR_STATE_MASK`, and the test for INVALID. -/
def lrInvalid (lr : W) : Bool := lr &&& ((((1 : W) <<< 2) - 1) <<< 62) == 0

/-- `ICH_LR_VINTID`: gic.h:89-92. -/
def vintid (lr : W) : W := extract 0 32 lr

/-- The checks of one list register: gic.c:199-210. -/
def lrBad (f : Feat) (lr : W) : Bool :=
  (lr &&& ((1 : W) <<< 61) != 0) ||
  (extract 48 8 lr &&& f.priRes0 != 0) ||
  (lr &&& ((((1 : W) <<< 13) - 1) <<< 32) &&& ~~~ ((1 : W) <<< 41) != 0) ||
  !isValidVintid f (vintid lr)

/-- The inner loop: gic.c:216-227, `j` from `i + 1`, `n` iterations left. -/
def noDup (e : Enter) (id : W) : Nat → Nat → Bool
  | 0, _ => true
  | n + 1, j =>
    if lrInvalid (e.lrs j) then noDup e id n (j + 1)
    else if id = vintid (e.lrs j) then false
    else noDup e id n (j + 1)

/-- The outer loop: gic.c:191-228, `n` iterations left. -/
def lrLoop (f : Feat) (e : Enter) : Nat → Nat → Bool
  | 0, _ => true
  | n + 1, i =>
    if lrInvalid (e.lrs i) then lrLoop f e n (i + 1)
    else if lrBad f (e.lrs i) then false
    else if noDup e (vintid (e.lrs i)) (f.nrLrs - i) (i + 1) then lrLoop f e n (i + 1)
    else false

/-- `gic_validate_state`: gic.c:181-231. -/
def validate (f : Feat) (e : Enter) : Bool :=
  if e.hcr &&& ~~~ NS_MASK != 0 then false else lrLoop f e (f.nrLrs + 1) 0

/-- The virtual interface registers of the CPU. -/
structure Hw where
  ap0r : Nat → W
  ap1r : Nat → W
  vmcr : W
  hcr : W
  lr : Nat → W
  misr : W

/-- How many active priority registers are transferred: the switch statements of gic.c:283-305 fall
through from `nr_aprs`; a value above 3 takes the default case, register 0 only. -/
def aprCount (f : Feat) : Nat := if f.nrAprs ≤ 3 then f.nrAprs + 1 else 1

/-- As above for the list registers: gic.c:233-280. -/
def lrCount (f : Feat) : Nat := if f.nrLrs ≤ 15 then f.nrLrs + 1 else 1

/-- `gic_restore_state`: gic.c:307-314. -/
def restore (f : Feat) (g : St) (h : Hw) : Hw :=
  { h with
    ap0r := fun i => if i < aprCount f then g.ap0r i else h.ap0r i
    ap1r := fun i => if i < aprCount f then g.ap1r i else h.ap1r i
    lr := fun i => if i < lrCount f then g.lr i else h.lr i
    vmcr := g.vmcr
    hcr := g.hcr }

/-- `gic_save_state`: gic.c:316-328. -/
def save (f : Feat) (g : St) (h : Hw) : St × Hw :=
  ({ ap0r := fun i => if i < aprCount f then h.ap0r i else g.ap0r i
     ap1r := fun i => if i < aprCount f then h.ap1r i else g.ap1r i
     lr := fun i => if i < lrCount f then h.lr i else g.lr i
     vmcr := h.vmcr
     hcr := h.hcr
     misr := h.misr },
   { h with hcr := h.hcr &&& ~~~ 1 })

/-! ## Specification -/

namespace Spec

/-- The bits of ICH_HCR_EL2 the host controls: UIE, LRENPIE, NPIE, VGrp0EIE, VGrp0DIE, VGrp1EIE,
VGrp1DIE and TDIR. -/
def hostBit (k : Nat) : Bool := (1 ≤ k && k ≤ 7) || k == 14

/-- The bits of ICH_HCR_EL2.EOIcount. -/
def eoiBit (k : Nat) : Bool := 27 ≤ k && k ≤ 31

/-- The virtual interrupt number of a list register. -/
def id (lr : W) : Nat := lr.toNat % 2 ^ 32

/-- The list register holds an interrupt: state pending, active or both. -/
def used (lr : W) : Prop := lr.getLsbD 62 = true ∨ lr.getLsbD 63 = true

/-- Interrupt numbers a host may inject: SGI, PPI, SPI, LPI, and with extended range extended PPI and SPI. -/
def idOk (f : Feat) (n : Nat) : Prop :=
  n ≤ 1019 ∨ (8192 ≤ n ∧ n ≤ f.maxVintid.toNat) ∨
  (f.extRange = true ∧ ((1056 ≤ n ∧ n ≤ 1119) ∨ (4096 ≤ n ∧ n ≤ 5119)))

/-- A used list register the host may supply: not linked to a physical interrupt, no reserved
bit in the physical interrupt field (bit 41 is EOI) or in the priority field. -/
structure LrOk (f : Feat) (lr : W) : Prop where
  hw : lr.getLsbD 61 = false
  pint : ∀ k, 32 ≤ k → k ≤ 44 → k ≠ 41 → lr.getLsbD k = false
  pri : ∀ k < 8, f.priRes0.getLsbD k = true → lr.getLsbD (48 + k) = false
  id : idOk f (id lr)

/-- The host's interrupt state is acceptable. -/
structure Ok (f : Feat) (e : Enter) : Prop where
  hcr : ∀ k < 64, hostBit k = false → e.hcr.getLsbD k = false
  lrs : ∀ i ≤ f.nrLrs, used (e.lrs i) → LrOk f (e.lrs i)
  nodup : ∀ i j, i < j → j ≤ f.nrLrs → used (e.lrs i) → used (e.lrs j) → id (e.lrs i) ≠ id (e.lrs j)

end Spec

/-! ## Proofs -/

theorem ns_bits : ∀ k : Fin 64, NS_MASK.getLsbD k = Spec.hostBit k := by decide
theorem eoi_bits : ∀ k : Fin 64, EOI_COUNT_MASK.getLsbD k = Spec.eoiBit k := by decide

theorem and_eq_zero_iff (a b : W) : a &&& b = 0 ↔ ∀ k < 64, b.getLsbD k = true → a.getLsbD k = false := by
  constructor
  · intro h k hk hb
    have := congrArg (fun v => BitVec.getLsbD v k) h
    simp only [BitVec.getLsbD_and, hb, Bool.and_true] at this
    rw [this]; simp
  · intro h
    apply BitVec.eq_of_getLsbD_eq
    intro k hk
    rw [BitVec.getLsbD_and]
    cases hb : b.getLsbD k
    · simp
    · rw [h k hk hb]; simp

theorem invalid_iff (lr : W) : lrInvalid lr = true ↔ ¬ Spec.used lr := by
  unfold lrInvalid Spec.used
  rw [beq_iff_eq, and_eq_zero_iff]
  have hb : ∀ k : Fin 64, ((((1 : W) <<< 2) - 1) <<< 62).getLsbD k = decide (62 ≤ k.val) := by decide
  constructor
  · intro h
    have h1 := h 62 (by omega) (hb ⟨62, by omega⟩)
    have h2 := h 63 (by omega) (hb ⟨63, by omega⟩)
    rw [h1, h2]; simp
  · intro h k hk hm
    rw [hb ⟨k, hk⟩, decide_eq_true_eq] at hm
    have : k = 62 ∨ k = 63 := by simp only at hm; omega
    rcases this with rfl | rfl <;> grind

theorem vintid_toNat (lr : W) : (vintid lr).toNat = Spec.id lr := by
  unfold vintid extract Spec.id
  rw [BitVec.toNat_and, show ((1 : W) <<< 32 - 1).toNat = 2 ^ 32 - 1 by decide, Nat.and_two_pow_sub_one_eq_mod]
  simp

theorem valid_id_iff (f : Feat) (lr : W) : isValidVintid f (vintid lr) = true ↔ Spec.idOk f (Spec.id lr) := by
  unfold isValidVintid Spec.idOk
  rw [← vintid_toNat]
  generalize vintid lr = i
  have c1 : (1019 : W).toNat = 1019 := by decide
  have c2 : (8192 : W).toNat = 8192 := by decide
  have c3 : (1056 : W).toNat = 1056 := by decide
  have c4 : (1119 : W).toNat = 1119 := by decide
  have c5 : (4096 : W).toNat = 4096 := by decide
  have c6 : (5119 : W).toNat = 5119 := by decide
  simp only [ge_iff_le, BitVec.le_def, c1, c2, c3, c4, c5, c6, Bool.or_eq_true, Bool.and_eq_true, decide_eq_true_eq]
  split
  · simp only [true_iff]; omega
  · cases f.extRange <;> simp <;> omega

theorem bad_iff (f : Feat) (lr : W) : lrBad f lr = false ↔ Spec.LrOk f lr := by
  have e1 : (lr &&& ((1 : W) <<< 61) != 0) = false ↔ lr.getLsbD 61 = false := by
    rw [bne_eq_false_iff_eq, and_eq_zero_iff]
    have hb : ∀ k : Fin 64, ((1 : W) <<< 61).getLsbD k = decide (k.val = 61) := by decide
    constructor
    · intro h; exact h 61 (by omega) (hb ⟨61, by omega⟩)
    · intro h k hk hm
      rw [hb ⟨k, hk⟩, decide_eq_true_eq] at hm
      simp only at hm; subst hm; exact h
  have e2 : (extract 48 8 lr &&& f.priRes0 != 0) = false ↔ ∀ k < 8, f.priRes0.getLsbD k = true → lr.getLsbD (48 + k) = false := by
    rw [bne_eq_false_iff_eq, and_eq_zero_iff]
    have hb : ∀ k : Fin 64, ((1 : W) <<< 8 - 1).getLsbD k = decide (k.val < 8) := by decide
    have hx : ∀ k < 64, (extract 48 8 lr).getLsbD k = (lr.getLsbD (48 + k) && decide (k < 8)) := by
      intro k hk
      unfold extract
      rw [BitVec.getLsbD_and, BitVec.getLsbD_ushiftRight]
      have := hb ⟨k, hk⟩
      simp only at this; rw [this]
    constructor
    · intro h k hk hp
      have := h k (by omega) hp
      rw [hx k (by omega)] at this
      simpa [hk] using this
    · intro h k hk hp
      rw [hx k hk]
      by_cases h8 : k < 8
      · rw [h k h8 hp]; simp
      · simp [h8]
  have e3 : (lr &&& ((((1 : W) <<< 13) - 1) <<< 32) &&& ~~~ ((1 : W) <<< 41) != 0) = false ↔
      ∀ k, 32 ≤ k → k ≤ 44 → k ≠ 41 → lr.getLsbD k = false := by
    rw [bne_eq_false_iff_eq, BitVec.and_assoc, and_eq_zero_iff]
    have hb : ∀ k : Fin 64, ((((1 : W) <<< 13) - 1) <<< 32 &&& ~~~ ((1 : W) <<< 41)).getLsbD k =
        decide (32 ≤ k.val ∧ k.val ≤ 44 ∧ k.val ≠ 41) := by decide
    constructor
    · intro h k h1 h2 h3
      exact h k (by omega) (by
        have := hb ⟨k, by omega⟩
        simp only at this; rw [this]; simp [h1, h2, h3])
    · intro h k hk hm
      have := hb ⟨k, hk⟩
      simp only at this
      rw [this, decide_eq_true_eq] at hm
      exact h k hm.1 hm.2.1 hm.2.2
  unfold lrBad
  simp only [Bool.or_eq_false_iff, e1, e2, e3, Bool.not_eq_false', valid_id_iff]
  constructor
  · rintro ⟨⟨⟨a, b⟩, c⟩, d⟩; exact ⟨a, c, b, d⟩
  · rintro ⟨a, c, b, d⟩; exact ⟨⟨⟨a, b⟩, c⟩, d⟩

theorem noDup_iff (e : Enter) (id : W) : ∀ n j, noDup e id n j = true ↔
    ∀ k, j ≤ k → k < j + n → Spec.used (e.lrs k) → id.toNat ≠ Spec.id (e.lrs k) := by
  intro n
  induction n with
  | zero => intro j; simp only [noDup, true_iff]; intro k h1 h2; omega
  | succ n ih =>
    intro j
    have split : (∀ k, j ≤ k → k < j + (n + 1) → Spec.used (e.lrs k) → id.toNat ≠ Spec.id (e.lrs k)) ↔
        (Spec.used (e.lrs j) → id.toNat ≠ Spec.id (e.lrs j)) ∧
        ∀ k, j + 1 ≤ k → k < j + 1 + n → Spec.used (e.lrs k) → id.toNat ≠ Spec.id (e.lrs k) := by
      constructor
      · intro h; exact ⟨h j (by omega) (by omega), fun k h1 h2 => h k (by omega) (by omega)⟩
      · rintro ⟨h1, h2⟩ k h3 h4
        by_cases hk : k = j
        · rw [hk]; exact h1
        · exact h2 k (by omega) (by omega)
    rw [split, ← ih (j + 1)]
    rw [noDup]
    by_cases hi : lrInvalid (e.lrs j) = true
    · rw [if_pos hi]
      rw [invalid_iff] at hi
      simp [hi]
    · rw [if_neg hi]
      rw [invalid_iff, not_not] at hi
      by_cases he : id = vintid (e.lrs j)
      · rw [if_pos he]
        have : id.toNat = Spec.id (e.lrs j) := by rw [he, vintid_toNat]
        simp [hi, this]
      · rw [if_neg he]
        have : id.toNat ≠ Spec.id (e.lrs j) := by
          rw [← vintid_toNat]; intro hh; exact he (BitVec.eq_of_toNat_eq hh)
        simp [this]

theorem lrLoop_iff (f : Feat) (e : Enter) : ∀ n i, i + n = f.nrLrs + 1 → (lrLoop f e n i = true ↔
    (∀ k, i ≤ k → k ≤ f.nrLrs → Spec.used (e.lrs k) → Spec.LrOk f (e.lrs k) ∧
      ∀ j, k < j → j ≤ f.nrLrs → Spec.used (e.lrs j) → Spec.id (e.lrs k) ≠ Spec.id (e.lrs j))) := by
  intro n
  induction n with
  | zero => intro i hi; simp only [lrLoop, true_iff]; intro k h1 h2; omega
  | succ n ih =>
    intro i hi
    have := ih (i + 1) (by omega)
    rw [lrLoop]
    by_cases hinv : lrInvalid (e.lrs i) = true
    · rw [if_pos hinv, this]
      rw [invalid_iff] at hinv
      constructor
      · intro h k h1 h2 h3
        by_cases hk : k = i
        · rw [hk] at h3; exact absurd h3 hinv
        · exact h k (by omega) h2 h3
      · intro h k h1; exact h k (by omega)
    · rw [if_neg hinv]
      rw [invalid_iff, not_not] at hinv
      by_cases hb : lrBad f (e.lrs i) = true
      · rw [if_pos hb]
        simp only [Bool.false_eq_true, false_iff]
        intro h
        have := (bad_iff f (e.lrs i)).mpr (h i (by omega) (by omega) hinv).1
        rw [hb] at this; cases this
      · rw [if_neg hb]
        have hok := (bad_iff f (e.lrs i)).mp (by simpa using hb)
        have hd := noDup_iff e (vintid (e.lrs i)) (f.nrLrs - i) (i + 1)
        rw [vintid_toNat] at hd
        by_cases hn : noDup e (vintid (e.lrs i)) (f.nrLrs - i) (i + 1) = true
        · rw [if_pos hn, this]
          rw [hd] at hn
          constructor
          · intro h k h1 h2 h3
            by_cases hk : k = i
            · subst hk
              exact ⟨hok, fun j h4 h5 h6 => hn j (by omega) (by omega) h6⟩
            · exact h k (by omega) h2 h3
          · intro h k h1; exact h k (by omega)
        · rw [if_neg hn]
          simp only [Bool.false_eq_true, false_iff]
          intro h
          exact hn (hd.mpr fun k h1 h2 h3 => (h i (by omega) (by omega) hinv).2 k (by omega) (by omega) h3)

/-- C37: the host's interrupt state is accepted exactly when no control bit outside the host's
is set, every used list register has a permitted interrupt number, no link to a
physical interrupt and no reserved bit in its priority and physical interrupt fields,
and no two used list registers have the same interrupt number.  For every number of
implemented list registers; the others are not looked at. -/
theorem C37_validate_iff (f : Feat) (e : Enter) : validate f e = true ↔ Spec.Ok f e := by
  have hh : (e.hcr &&& ~~~ NS_MASK != 0) = false ↔ ∀ k < 64, Spec.hostBit k = false → e.hcr.getLsbD k = false := by
    rw [bne_eq_false_iff_eq, and_eq_zero_iff]
    have hb : ∀ k < 64, (~~~ NS_MASK).getLsbD k = ! Spec.hostBit k := by
      intro k hk
      rw [BitVec.getLsbD_not, ns_bits ⟨k, hk⟩]; simp [hk]
    constructor
    · intro h k hk h1; exact h k hk (by rw [hb k hk, h1]; rfl)
    · intro h k hk h1
      rw [hb k hk] at h1
      exact h k hk (by simpa using h1)
  unfold validate
  by_cases hc : (e.hcr &&& ~~~ NS_MASK != 0) = true
  · rw [if_pos hc]
    simp only [Bool.false_eq_true, false_iff]
    intro h
    rw [hh.mpr h.hcr] at hc; cases hc
  · rw [if_neg hc]
    rw [lrLoop_iff f e (f.nrLrs + 1) 0 (by omega)]
    have hc' := hh.mp (by simpa using hc)
    constructor
    · intro h
      exact ⟨hc', fun i hi hu => (h i (by omega) hi hu).1, fun i j hij hj h1 h2 => (h i (by omega) (by omega) h1).2 j hij hj h2⟩
    · rintro ⟨_, h1, h2⟩ k _ hk hu
      exact ⟨h1 k hk hu, fun j hj hj2 hu2 => h2 k j hj hj2 hu hu2⟩

/-- C37: on entry exactly the implemented list registers and the host's control bits are taken over. -/
theorem C37_entry (f : Feat) (g : St) (e : Enter) :
    (∀ i, (copyFrom f g e).lr i = if i ≤ f.nrLrs then e.lrs i else g.lr i) ∧
    (∀ k < 64, (copyFrom f g e).hcr.getLsbD k = if Spec.hostBit k then e.hcr.getLsbD k else g.hcr.getLsbD k) ∧
    (copyFrom f g e).ap0r = g.ap0r ∧ (copyFrom f g e).ap1r = g.ap1r ∧ (copyFrom f g e).vmcr = g.vmcr ∧
    (copyFrom f g e).misr = g.misr := by
  refine ⟨fun i => rfl, fun k hk => ?_, rfl, rfl, rfl, rfl⟩
  simp only [copyFrom, BitVec.getLsbD_or, BitVec.getLsbD_and, BitVec.getLsbD_not, ns_bits ⟨k, hk⟩]
  cases Spec.hostBit k <;> simp [hk]

/-- C37: on exit the host gets the implemented list registers, the maintenance status, the machine
control register, and of the control register only its own bits and the EOI count. -/
theorem C37_exit (f : Feat) (g : St) (x : Exit) :
    (∀ i, (copyTo f g x).lrs i = if i ≤ f.nrLrs then g.lr i else x.lrs i) ∧
    (copyTo f g x).misr = g.misr ∧ (copyTo f g x).vmcr = g.vmcr ∧
    ∀ k < 64, (copyTo f g x).hcr.getLsbD k = ((Spec.hostBit k || Spec.eoiBit k) && g.hcr.getLsbD k) := by
  refine ⟨fun i => rfl, rfl, rfl, fun k hk => ?_⟩
  simp only [copyTo, BitVec.getLsbD_and, BitVec.getLsbD_or, ns_bits ⟨k, hk⟩, eoi_bits ⟨k, hk⟩]
  cases Spec.hostBit k <;> cases Spec.eoiBit k <;> cases g.hcr.getLsbD k <;> rfl

/-- C37: after the realm has run, the REC holds every implemented register as the realm left it,
and the virtual interface is left disabled with nothing else changed. -/
theorem C37_save (f : Feat) (hl : f.nrLrs < 16) (ha : f.nrAprs < 4) (g : St) (h : Hw) :
    (∀ i, (save f g h).1.lr i = if i ≤ f.nrLrs then h.lr i else g.lr i) ∧
    (∀ i ≤ f.nrAprs, (save f g h).1.ap0r i = h.ap0r i ∧ (save f g h).1.ap1r i = h.ap1r i) ∧
    (save f g h).1.vmcr = h.vmcr ∧ (save f g h).1.hcr = h.hcr ∧ (save f g h).1.misr = h.misr ∧
    (∀ k < 64, (save f g h).2.hcr.getLsbD k = (k != 0 && h.hcr.getLsbD k)) ∧
    (save f g h).2.lr = h.lr ∧ (save f g h).2.vmcr = h.vmcr := by
  have hl : lrCount f = f.nrLrs + 1 := if_pos (by omega)
  have ha : aprCount f = f.nrAprs + 1 := if_pos (by omega)
  refine ⟨fun i => ?_, fun i hi => ?_, rfl, rfl, rfl, fun k hk => ?_, rfl, rfl⟩
  · simp only [save, hl, Nat.lt_succ_iff]
  · simp only [save, ha, if_pos (Nat.lt_succ_of_le hi), and_self]
  · have hb : ∀ k : Fin 64, (~~~ (1 : W)).getLsbD k = (k.val != 0) := by decide
    show (h.hcr &&& ~~~ 1).getLsbD k = _
    rw [BitVec.getLsbD_and, hb ⟨k, hk⟩, Bool.and_comm]

/-- C37: the realm starts with exactly the state held in the REC. -/
theorem C37_restore (f : Feat) (hl : f.nrLrs < 16) (ha : f.nrAprs < 4) (g : St) (h : Hw) :
    (∀ i ≤ f.nrLrs, (restore f g h).lr i = g.lr i) ∧
    (∀ i ≤ f.nrAprs, (restore f g h).ap0r i = g.ap0r i ∧ (restore f g h).ap1r i = g.ap1r i) ∧
    (restore f g h).vmcr = g.vmcr ∧ (restore f g h).hcr = g.hcr := by
  have hl : lrCount f = f.nrLrs + 1 := if_pos (by omega)
  have ha : aprCount f = f.nrAprs + 1 := if_pos (by omega)
  refine ⟨fun i hi => ?_, fun i hi => ?_, rfl, rfl⟩
  · simp only [restore, hl, if_pos (Nat.lt_succ_of_le hi)]
  · simp only [restore, ha, if_pos (Nat.lt_succ_of_le hi), and_self]

/-- What running the realm can do to the interface: anything, except that EL1 cannot write
ICH_HCR_EL2, of which only EOIcount changes by itself. -/
def Runs (a b : Hw) : Prop := ∀ k < 64, Spec.eoiBit k = false → b.hcr.getLsbD k = a.hcr.getLsbD k

/-- The life of the interrupt state of a REC: initialised, then any number of times entered (after
validation), run and saved. -/
inductive Life (f : Feat) : St → Prop where
  | init : Life f init
  | enter {g e h h'} : Life f g → validate f e = true → Runs (restore f (copyFrom f g e) h) h' →
      Life f (save f (copyFrom f g e) h').1

/-- C37: over the whole life of a REC the virtual interface stays enabled, direct injection stays
masked, virtual SGIs stay out of the EOI count, and no control bit outside the host's bits and the
EOI count is ever set besides these, whatever the host supplies. -/
theorem C37_history (f : Feat) (g : St) (h : Life f g) (k : Nat) (hk : k < 64) :
    (Spec.hostBit k || Spec.eoiBit k) = false → g.hcr.getLsbD k = (k == 0 || k == 8 || k == 15) := by
  induction h with
  | init =>
    intro _
    have : ∀ k : Fin 64, init.hcr.getLsbD k = (k.val == 0 || k.val == 8 || k.val == 15) := by decide
    exact this ⟨k, hk⟩
  | @enter g e h h' _ _ hr ih =>
    intro hb
    have hb' := hb
    rw [Bool.or_eq_false_iff] at hb'
    show h'.hcr.getLsbD k = _
    rw [hr k hk hb'.2]
    show (copyFrom f g e).hcr.getLsbD k = _
    rw [(C37_entry f g e).2.1 k hk, hb'.1]
    exact ih hb

/-- C37: a list register the hardware does not implement keeps its value (initially zero) for ever,
and one that is implemented is loaded from what was validated. -/
theorem C37_unimplemented (f : Feat) (h16 : f.nrLrs < 16) (g : St) (h : Life f g) (i : Nat) (hi : f.nrLrs < i) :
    g.lr i = 0 := by
  have hc : lrCount f = f.nrLrs + 1 := by unfold lrCount; rw [if_pos (by omega)]
  induction h with
  | init => rfl
  | @enter g e h h' _ _ _ ih =>
    show (if i < lrCount f then h'.lr i else (copyFrom f g e).lr i) = 0
    rw [hc, if_neg (by omega)]
    show (if i ≤ f.nrLrs then e.lrs i else g.lr i) = 0
    rw [if_neg (by omega)]; exact ih

/-- C37: the features RMM works with are those the hardware reports: the discovered list registers,
the priority bits below the implemented ones, the interrupt number width, the extended range. With the 5 to 7 preemption
bits the architecture knows, there is a bit in the active priority registers for each preemption level. -/
theorem C37_features (vtr ctlr : W) (f : Feat) (h : getVirtFeatures vtr ctlr = some f) :
    f.nrLrs = vtr.toNat % 32 ∧ f.nrLrs < 16 ∧
    (∀ k < 64, f.priRes0.getLsbD k = decide (k + (vtr.toNat / 2 ^ 29 % 8 + 1) < 8)) ∧
    f.maxVintid.toNat = (if vtr.toNat / 2 ^ 23 % 8 = 0 then 65535 else 16777215) ∧ f.extRange = ctlr.getLsbD 19 ∧
    (vtr.toNat / 2 ^ 26 % 8 + 1 ≤ 7 → f.nrAprs < 4 ∧ 32 * (f.nrAprs + 1) = 2 ^ (vtr.toNat / 2 ^ 26 % 8 + 1)) := by
  unfold getVirtFeatures at h
  dsimp only at h
  split at h
  swap
  · cases h
  rename_i hc
  injection h with h
  subst h
  have hx : ∀ sh w, w ≤ 5 → (extract sh w vtr).toNat = vtr.toNat / 2 ^ sh % 2 ^ w := by
    intro sh w hw
    unfold extract
    rw [BitVec.toNat_and, BitVec.toNat_ushiftRight, Nat.shiftRight_eq_div_pow]
    have : ((1 : W) <<< w - 1).toNat = 2 ^ w - 1 := by
      have : w = 0 ∨ w = 1 ∨ w = 2 ∨ w = 3 ∨ w = 4 ∨ w = 5 := by omega
      rcases this with rfl | rfl | rfl | rfl | rfl | rfl <;> decide
    rw [this, Nat.and_two_pow_sub_one_eq_mod]
  refine ⟨?_, hc.1, ?_, ?_, ?_, ?_⟩
  · dsimp only; rw [hx 0 5 (by omega)]; simp
  · intro k hk
    dsimp only
    have h3 := hx 29 3 (by omega)
    have h4 : (extract 29 3 vtr + 1).toNat = vtr.toNat / 2 ^ 29 % 8 + 1 := by
      rw [BitVec.toNat_add, h3]
      show (vtr.toNat / 2 ^ 29 % 8 + 1) % 2 ^ 64 = _
      omega
    rw [h4]
    have h5 : vtr.toNat / 2 ^ 29 % 8 < 8 := Nat.mod_lt _ (by omega)
    generalize vtr.toNat / 2 ^ 29 % 8 = p at h5 ⊢
    have key : ∀ p : Fin 8, ∀ k : Fin 64, ((1 : W) <<< (8 - (p.val + 1)) - 1).getLsbD k = decide (k.val + (p.val + 1) < 8) := by
      decide +kernel
    exact key ⟨p, h5⟩ ⟨k, hk⟩
  · dsimp only
    have h3 := hx 23 3 (by omega)
    have : extract 23 3 vtr = 0 ↔ vtr.toNat / 2 ^ 23 % 8 = 0 := by
      rw [← BitVec.toNat_inj, h3]; rfl
    by_cases h4 : extract 23 3 vtr = 0
    · rw [if_pos h4, if_pos (this.mp h4)]; decide
    · rw [if_neg h4, if_neg (fun h => h4 (this.mpr h))]; decide
  · dsimp only
    by_cases hb : ctlr.getLsbD 19 = true
    · rw [hb, bne_iff_ne]
      intro h0
      have := congrArg (fun x => x.getLsbD 19) h0
      simp only [BitVec.getLsbD_and, hb] at this
      exact absurd this (by decide)
    · rw [Bool.not_eq_true] at hb
      rw [hb, bne_eq_false_iff_eq]
      apply BitVec.eq_of_getLsbD_eq
      intro k hk
      have key : ∀ k : Fin 64, ((1 : W) <<< 19).getLsbD k = decide (k.val = 19) := by decide
      rw [BitVec.getLsbD_and, key ⟨k, hk⟩]
      by_cases h19 : k = 19
      · subst h19; rw [hb]; rfl
      · simp [h19]
  · dsimp only
    intro h7
    have h3 := hx 26 3 (by omega)
    have h4 : (extract 26 3 vtr + 1).toNat = vtr.toNat / 2 ^ 26 % 8 + 1 := by
      rw [BitVec.toNat_add, h3]
      show (vtr.toNat / 2 ^ 26 % 8 + 1) % 2 ^ 64 = _
      omega
    have h5 := hc.2
    rw [h4] at h5 ⊢
    generalize vtr.toNat / 2 ^ 26 % 8 = p at h5 h7 ⊢
    have : p = 4 ∨ p = 5 ∨ p = 6 := by omega
    rcases this with rfl | rfl | rfl <;> decide

/-- C37: with 8 preemption bits, which no implementation may have, only the first of the registers would be transferred. -/
theorem C37_eight_bits (vtr ctlr : W) (f : Feat) (h : getVirtFeatures vtr ctlr = some f)
    (h8 : vtr.toNat / 2 ^ 26 % 8 + 1 = 8) (g : St) (hw : Hw) : (restore f g hw).ap0r 1 = hw.ap0r 1 := by
  have hf : f.nrAprs = 7 := by
    unfold getVirtFeatures at h
    dsimp only at h
    split at h
    swap
    · cases h
    injection h with h
    subst h
    dsimp only
    have h3 : (extract 26 3 vtr).toNat = 7 := by
      unfold extract
      rw [BitVec.toNat_and, BitVec.toNat_ushiftRight, Nat.shiftRight_eq_div_pow,
        show ((1 : W) <<< 3 - 1).toNat = 2 ^ 3 - 1 from rfl, Nat.and_two_pow_sub_one_eq_mod]
      omega
    have : extract 26 3 vtr = 7#64 := BitVec.eq_of_toNat_eq h3
    rw [this]; decide
  have : aprCount f = 1 := if_neg (by omega)
  simp only [restore, this, if_neg (show ¬ 1 < 1 by omega)]

/-- Features as in the theorems. -/
example : ∃ f, getVirtFeatures 0x90080003 0x80000 = some f ∧ f.nrLrs = 3 ∧ f.nrAprs = 0 ∧ f.extRange = true := ⟨_, rfl, rfl, rfl, rfl⟩
example : ∃ f, getVirtFeatures 0x9C080003 0 = some f ∧ f.nrAprs = 7 := ⟨_, rfl, rfl⟩

/-- Four list registers: two different interrupts and two unused entries are accepted. -/
example : validate ⟨3, 0, 7, 0xFFFF, false⟩ ⟨0x4002, fun i =>
    if i = 0 then 0x50A0000000000020 else if i = 2 then 0x9000020000002001 else 0⟩ = true := by decide

/-- The same interrupt twice, a hardware link, an extended interrupt without support, a reserved control
bit: refused. -/
example : validate ⟨3, 0, 7, 0xFFFF, false⟩ ⟨0, fun i => if i = 3 ∨ i = 1 then 0x4000000000000020 else 0⟩ = false ∧
    validate ⟨3, 0, 7, 0xFFFF, false⟩ ⟨0, fun _ => 0x6000000000000020⟩ = false ∧
    validate ⟨0, 0, 7, 0xFFFF, false⟩ ⟨0, fun _ => 0x4000000000001000⟩ = false ∧
    validate ⟨0, 0, 7, 0xFFFF, true⟩ ⟨0, fun _ => 0x4000000000001000⟩ = true ∧
    validate ⟨3, 0, 7, 0xFFFF, false⟩ ⟨1, fun _ => 0⟩ = false := by decide

/-- C37: bits 45 to 47 and 56 to 59 of a list register, reserved in GICv3, are not looked at: a list
register with all of them set is accepted.  They are copied to the hardware register. -/
theorem C37_other_reserved_bits_pass : validate ⟨0, 0, 7, 0xFFFF, false⟩ ⟨0, fun _ => 0x4F00E00000000020⟩ = true := by
  decide

end Verif.Gic
